import Verif.Lib.PlainUse
import Verif.Props.Names

/-!
# Conversion of arbitrary text between Indic and Roman scripts (C07–C10, C25)

`sourceScripts` and `targetScripts` (Spec/Scripts.lean) are the 141 sources and 145 targets covered;
`Env.TextOps` (Spec/TextOps.lean) lists what is assumed of Python's case mapping and normalisation.
-/

namespace Verif

/-- The sample environment meets the assumptions. -/
theorem sampleEnv_textOps : sampleEnv.TextOps where
  lower_ascii := fun _ _ => rfl
  total := fun _ _ s => ⟨s, rfl⟩
  neutral := by
    intro h _ s s' hs hr
    cases hr
    exact ⟨rfl, hs⟩
  fixes := fun _ _ _ _ => rfl
  marker := by
    intro h _ s s' hs hr
    cases hr
    exact hs
  marks := fun _ _ => rfl

theorem goodAna_parts {N : CharSet} {kp inr : Bool} {p : Prog} (h : (goodAna N kp inr).ok p = true) :
    p.safe false = true ∧ (kp = true → p.keeps N = true) ∧ (inr = true → p.inert N = true) :=
  Prog.good_iff.1 (show p.good N kp inr = true from h)

theorem convert_same_run {S : PyStr} (hS : S ∈ sourceScripts) (E : Env) (text : PyStr) :
    (convert S S false [] []).prog.run E text = .ok text := by
  have := src_plain hS
  simp only [plainSrc, Bool.and_eq_true, Bool.not_eq_true'] at this
  have h := hasKey_false this.1.1.1.1.1.2
  show (convertN 3 ⟨S, S, false, [], []⟩).prog.run E text = _
  rw [convertN_same 2 S (dictGet?_none.1 h)]
  rfl

/-! ## C09: no exception -/

/-- **C09.** `process` without options returns a string for every text, every covered pair of
scripts and both values of `nativize`. -/
theorem C09_no_exception (E : Env) (hE : E.TextOps) (S T : PyStr) (hS : S ∈ sourceScripts)
    (hT : T ∈ targetScripts) (text : PyStr) (nativize : Bool) :
    ∃ result, process E S T text nativize [] [] (u! "default") = .ok (some result) := by
  rw [process_plain hE hS hT]
  by_cases hne : S ≠ T ∨ nativize = true
  · have hok := convert_ok (A := goodAna neu false false) (Ana.and_left _ _) hS hT (by simp) (by simp)
      hne (fun _ => by decide)
    obtain ⟨r, hr⟩ := Prog.safe_total hE.total (goodAna_parts hok).1 text
    exact ⟨r, by rw [hr]; rfl⟩
  · simp only [not_or, Decidable.not_not, Bool.not_eq_true] at hne
    obtain ⟨rfl, rfl⟩ := hne
    exact ⟨text, by rw [convert_same_run hS]; rfl⟩

/-- Telugu to Thai is a covered pair, for any text. -/
example (text : PyStr) : ∃ r, process sampleEnv (u! "Telugu") (u! "Thai") text true [] [] (u! "default") = .ok (some r) :=
  C09_no_exception _ sampleEnv_textOps _ _ (strMem_iff.1 (by decide +kernel)) (strMem_iff.1 (by decide +kernel)) _ _

/-! ## C07: neutral characters -/

/-- The environment restricted to texts without compatibility ideographs. -/
theorem noNew_compat {E : Env} (hE : E.TextOps) : E.NoNew (guardSet false) := by
  intro h hu s s' hs hr
  rw [freeOf_all] at *
  have h1 : ∀ c ∈ s, isCompat c = false := fun c hc => by
    have := hs c hc
    simpa [guardSet, guardMem_eq] using this
  intro c hc
  have := (hE.neutral h hu s s' h1 hr).2 c hc
  simpa [guardSet, guardMem_eq] using this

theorem keeps_guard {E : Env} (hE : E.TextOps) : (E.guard (guardSet false)).Keeps neu := by
  refine ⟨fun h hu s s' hr => ?_, fun c hc => hE.marks c ((neuMem_eq c).symm.trans hc)⟩
  have hf : (fun c => neu.mem c) = isNeutral := by funext c; exact neuMem_eq c
  simp only [Env.guard] at hr
  split at hr
  · rename_i hs
    rw [freeOf_all] at hs
    have := (hE.neutral h hu s s' (fun c hc => by
      have := hs c hc
      simpa [guardSet, guardMem_eq] using this) hr).1
    rw [show neu.mem = isNeutral from hf]
    exact this
  · cases hr; rfl

/-- **C07** (with the scripts excepted whose rules copy, drop or move arbitrary characters).
Converting a text keeps its neutral characters (line breaks, Chinese characters, pictographs): the
sequence of neutral characters of the result is that of the text, whatever else the text contains
besides CJK compatibility ideographs.

The exceptions `loseSrc` and `loseTgt` are all needed: see `C07_violated`. -/
theorem C07_neutral_kept_partial (E : Env) (hE : E.TextOps) (S T : PyStr) (hS : S ∈ sourceScripts)
    (hT : T ∈ targetScripts) (hS' : S ∉ loseSrc) (hT' : T ∉ loseTgt) (text : PyStr)
    (htext : ∀ c ∈ text, isCompat c = false) (nativize : Bool) (result : PyStr)
    (hr : process E S T text nativize [] [] (u! "default") = .ok (some result)) :
    neutralPart result = neutralPart text := by
  rw [process_plain hE hS hT] at hr
  by_cases hne : S ≠ T ∨ nativize = true
  · have hk := convert_ok (A := goodAna neu true false) (Ana.and_left _ _) hS hT (fun _ => hS') (fun _ => hT')
      hne (fun _ => by decide)
    have hn := convert_ok (A := noNewAna (guardSet false)) (kp := false) (inr := false)
      ((Ana.and_right _ _).trans (noNewAna_le (guard_sub false) (guard_numerals false))) hS hT (by simp) (by simp)
      hne (fun _ => by decide)
    cases hrun : (convert S T nativize [] []).prog.run E text with
    | error e => rw [hrun] at hr; cases hr
    | ok r =>
      rw [hrun] at hr
      cases hr
      have hfree : freeOf (guardSet false).mem text = true := by
        rw [freeOf_all]
        intro c hc
        have := htext c hc
        simpa [guardSet, guardMem_eq] using this
      have hctl : ∀ c, 7 ≤ c → c ≤ 13 → (guardSet false).mem c = false := by
        intro c h1 h2
        simp only [guardSet, guardMem_eq, isCompat, Bool.false_and, Bool.or_false, decide_eq_false_iff_not]
        omega
      rw [← Prog.run_guard (noNew_compat hE) hctl hn hfree] at hrun
      have := Prog.keeps_sound (keeps_guard hE) ((goodAna_parts hk).2.1 rfl) hrun
      rw [show neu.mem = isNeutral from by funext c; exact neuMem_eq c] at this
      exact this
  · simp only [not_or, Decidable.not_not, Bool.not_eq_true] at hne
    obtain ⟨rfl, rfl⟩ := hne
    rw [convert_same_run hS] at hr
    cases hr
    rfl

/-- A text mixing Tamil letters, Chinese characters and a line break. -/
example : process sampleEnv (u! "Tamil") (u! "Bengali") (u! "க中்\n文க்") true [] [] (u! "default")
      = .ok (some (u! "ক中্\n文ক্"))
    ∧ (u! "Tamil") ∉ loseSrc ∧ (u! "Bengali") ∉ loseTgt ∧ neutralPart (u! "க中்\n文க்") = (u! "中\n文") := by
  refine ⟨by decide +kernel, ?_, ?_, by decide⟩ <;> rw [← strMem_false] <;> decide

/-- **C07 fails** for some scripts in the code as it is: a gemination mark of a Soyombo or Hanifi
Rohingya text copies a Chinese character, a breve of an IPA text and the Om of a Velthuis text
swallow one, and the Gurmukhi and Soyombo outputs copy or drop one. -/
theorem C07_violated :
    process sampleEnv (u! "Soyombo") (u! "Devanagari") (u! "中𑪘") false [] [] (u! "default") = .ok (some (u! "中्中"))
    ∧ process sampleEnv (u! "HanifiRohingya") (u! "Devanagari") (u! "中𐴧") false [] [] (u! "default") = .ok (some (u! "中中"))
    ∧ process sampleEnv (u! "IPA") (u! "Devanagari") (u! "中h中̆") false [] [] (u! "default") = .ok (some (u! "中ः"))
    ∧ process sampleEnv (u! "Velthuis") (u! "Devanagari") (u! " o中m ") false [] [] (u! "default") = .ok (some (u! " ॐ "))
    ∧ process sampleEnv (u! "Devanagari") (u! "Gurmukhi") (u! "॑ੱ中") false [] [] (u! "default") = .ok (some (u! "॑中੍中"))
    ∧ process sampleEnv (u! "Devanagari") (u! "GurmukhiLoC") (u! "॑ੱ中") false [] [] (u! "default") = .ok (some (u! "↑中੍中"))
    ∧ process sampleEnv (u! "Devanagari") (u! "Soyombo") (u! "中्中") false [] [] (u! "default") = .ok (some (u! "中𑪘")) := by
  decide +kernel

/-! ## C08: text of neutral characters only -/

/-- **C08.** A text consisting of neutral characters only is returned as it
is, for every covered pair and both values of `nativize`. -/
theorem C08_neutral_text_unchanged (E : Env) (hE : E.TextOps) (S T : PyStr) (hS : S ∈ sourceScripts)
    (hT : T ∈ targetScripts) (text : PyStr) (htext : ∀ c ∈ text, isNeutral c = true)
    (nativize : Bool) : process E S T text nativize [] [] (u! "default") = .ok (some text) := by
  rw [process_plain hE hS hT]
  by_cases hne : S ≠ T ∨ nativize = true
  · have hok := convert_ok (A := goodAna neu false true) (Ana.and_left _ _) hS hT (by simp) (by simp)
      hne (fun _ => by decide)
    obtain ⟨r, hr⟩ := Prog.safe_total hE.total (goodAna_parts hok).1 text
    have hover : Over neu text := fun c hc => (neuMem_eq c).trans (htext c hc)
    have hfix : E.Fixes neu := fun h hu s hs => hE.fixes h hu s fun c hc => (neuMem_eq c).symm.trans (hs c hc)
    have := Prog.inert_sound hfix ((goodAna_parts hok).2.2 rfl) hover hr
    rw [hr, this]
    rfl
  · simp only [not_or, Decidable.not_not, Bool.not_eq_true] at hne
    obtain ⟨rfl, rfl⟩ := hne
    rw [convert_same_run hS]
    rfl

example : process sampleEnv (u! "Telugu") (u! "IAST") (u! "中文\n😀") true [] [] (u! "default") = .ok (some (u! "中文\n😀")) :=
  C08_neutral_text_unchanged _ sampleEnv_textOps _ _ (strMem_iff.1 (by decide +kernel))
    (strMem_iff.1 (by decide +kernel)) _ (by decide) _

/-! ## C10: markers -/

/-- The last steps of a conversion. -/
theorem convert_end {E : Env} {S T : PyStr} (hS : S ∈ sourceScripts) (hT : T ∈ targetScripts) {nat : Bool}
    (hne : S ≠ T ∨ nat = true) {text result : PyStr} (hr : (convert S T nat [] []).prog.run E text = .ok result) :
    ∃ s1 s2, PostProcess.default.prog.run E s1 = .ok s2 ∧ (finishT T nat).prog.run E s2 = .ok result := by
  obtain ⟨pre, kd, hl, hk, he⟩ := convert_shape hS hT hne
  rw [he] at hr
  obtain ⟨s0, -, hr⟩ := run_seq hl hr
  obtain ⟨s2, h1, h2⟩ := run_seq (lin_script kd) hr
  obtain ⟨g, hg, hgs⟩ := script_default (via S T) T kd
  rw [hgs] at h1
  obtain ⟨s1, -, h3⟩ := run_seq hg h1
  exact ⟨s1, s2, h3, h2⟩

/-- **C10.** The markers U+F001, U+05CC, U+05CD and U+02C2 do not occur in the result of a
conversion, even if they occur in the text (a script converted to itself without `nativize` is not a
conversion: the text is returned as it is). -/
theorem C10_markers_do_not_leak (E : Env) (hE : E.TextOps) (S T : PyStr) (hS : S ∈ sourceScripts)
    (hT : T ∈ targetScripts) (text : PyStr) (nativize : Bool) (hne : S ≠ T ∨ nativize = true) (result : PyStr)
    (hr : process E S T text nativize [] [] (u! "default") = .ok (some result)) :
    ∀ m ∈ otherMarkers, m ∉ result := by
  rw [process_plain hE hS hT] at hr
  cases hrun : (convert S T nativize [] []).prog.run E text with
  | error e => rw [hrun] at hr; cases hr
  | ok r =>
    rw [hrun] at hr
    cases hr
    obtain ⟨s1, s2, h1, h2⟩ := convert_end hS hT hne hrun
    have hctl : ∀ c ∈ otherMarkers, c < 7 ∨ 13 < c := by decide
    have c1 := cleans_sound hctl default_cleans (fun c _ h => h) h1
    have ht := tgtFull_all (tgt_plain hT)
    unfold tgtFull at ht
    simp only [Bool.and_eq_true] at ht
    have hfin : cleans otherMarkers (finishT T nativize).prog [] = true := by
      cases nativize
      · exact ht.1.1.2
      · exact ht.1.1.1.2
    have c2 := cleans_sound hctl hfin (fun c hc h => absurd h (c1 c hc)) h2
    exact fun m hm hmr => c2 m hmr hm

/-- The text `"कब` surrounded by markers. -/
example : process sampleEnv (u! "Devanagari") (u! "IAST") ([0xF001] ++ (u! "क") ++ [0x02C2, 0x05CC]) true [] [] (u! "default")
    = .ok (some (u! "ka")) := by decide +kernel

/-- Is the target written with an inherent vowel marker?  Only Roman targets of Indic sources are. -/
theorem kindOf_IL {S T : PyStr} (h : kindOf S T = some .IL) :
    pyIn T GM.IndicScripts = false := by
  unfold kindOf at h
  cases hT : pyIn T GM.IndicScripts with
  | false => rfl
  | true => rw [hT] at h; split at h <;> simp_all

/-- **C10**, the inherent vowel marker U+F000: it does not occur in the result unless it occurs in
the text, and never when the source is Indic and the target Roman. -/
theorem C10_inherent_marker_does_not_leak (E : Env) (hE : E.TextOps) (S T : PyStr) (hS : S ∈ sourceScripts)
    (hT : T ∈ targetScripts) (text : PyStr) (nativize : Bool) (hne : S ≠ T ∨ nativize = true)
    (htext : inherentMarker ∉ text ∨ (S ∉ GM.LatinScripts ∧ S ∈ GM.IndicScripts ∧ T ∉ GM.IndicScripts))
    (result : PyStr) (hr : process E S T text nativize [] [] (u! "default") = .ok (some result)) :
    inherentMarker ∉ result := by
  rw [process_plain hE hS hT] at hr
  have hnn : E.NoNew onlyF000 := by
    intro h hu s s' hs hr
    rw [freeOf_all] at *
    have := hE.marker h hu s s' (fun hm => by have := hs _ hm; simp [onlyF000, inherentMarker] at this) hr
    intro c hc
    cases hb : Nat.beq c 0xF000 with
    | false => exact hb
    | true => rw [Nat.beq_eq] at hb; subst hb; exact absurd hc this
  have hctl : ∀ c, 7 ≤ c → c ≤ 13 → onlyF000.mem c = false := by
    intro c h1 h2
    cases hb : Nat.beq c 0xF000 with
    | false => exact hb
    | true => rw [Nat.beq_eq] at hb; omega
  have hle : (mainAna false false).Le (noNewAna onlyF000) :=
    (Ana.and_right _ _).trans (noNewAna_le (fun c hc => by
      simp only [guardSet, guardMem_eq, onlyF000] at *
      rw [Nat.beq_eq] at hc
      simp [hc]) (by decide))
  have hfree : ∀ {s : PyStr}, inherentMarker ∉ s → freeOf onlyF000.mem s = true := by
    intro s hs
    rw [freeOf_all]
    intro c hc
    cases hb : Nat.beq c 0xF000 with
    | false => exact hb
    | true => rw [Nat.beq_eq] at hb; subst hb; exact absurd hc hs
  have hback : ∀ {s : PyStr}, freeOf onlyF000.mem s = true → inherentMarker ∉ s := by
    intro s hs hm
    rw [freeOf_all] at hs
    have := hs _ hm
    simp [onlyF000, inherentMarker] at this
  cases hrun : (convert S T nativize [] []).prog.run E text with
  | error e => rw [hrun] at hr; cases hr
  | ok r =>
    rw [hrun] at hr
    cases hr
    by_cases hIL : kindOf (via S T) T = some .IL
    · obtain ⟨pre, kd, hl, hk, he⟩ := convert_shape hS hT hne
      rw [hIL] at hk
      cases hk
      rw [he] at hrun
      obtain ⟨s0, -, hrun⟩ := run_seq hl hrun
      obtain ⟨s5, h1, h2⟩ := run_seq (lin_script .IL) hrun
      obtain ⟨s1, -, h3⟩ := run_seq (lin_prefixII _) h1
      obtain ⟨s2, -, h4⟩ := run_seq (lin_midIL _ _) h3
      obtain ⟨s3, h5, h6⟩ := run_seq (lin_headIL _) h4
      have ht := tgtFull_all (tgt_plain hT)
      unfold tgtFull at ht
      have hTI := kindOf_IL hIL
      rw [hTI] at ht
      simp only [Bool.and_eq_true] at ht
      have c1 := cleans_sound (by decide) ht.2 (fun c _ h => h) h5
      have htg : tgtOk (noNewAna onlyF000) T = true :=
        tgtOk_mono ((mainAna_le (by simp) (by simp)).trans hle) ht.1.1.1.1
      have hfin := (tgtOk_tbl htg).2.2.2.2 nativize
      have hend : (noNewAna onlyF000).ok (endLL (via S T) T).prog = true := by
        simp only [tgtOk, Bool.and_eq_true, Bool.not_eq_true'] at htg
        have tK := htg.2
        rw [hTI] at tK
        simp only [Bool.and_eq_true, Bool.not_eq_true'] at tK
        unfold endLL
        rw [postFix_class tK.1.1]
        exact List.all_eq_true.1 tK.2 _ (srcClass_classes _ T)
      have f3 := hfree (fun hm => c1 _ hm (List.mem_cons_self ..))
      have f4 := Prog.noNew_sound hnn hctl hend f3 h6
      exact hback (Prog.noNew_sound hnn hctl hfin f4 h2)
    · have hn := convert_ok hle hS hT (by simp) (by simp) hne (fun h => absurd h hIL)
      rcases htext with htext | ⟨hSL, hSI, hTI⟩
      · exact hback (Prog.noNew_sound hnn hctl hn (hfree htext) hrun)
      · exfalso
        have hST : S ≠ T := by rintro rfl; exact hTI hSI
        have hv : via S T = S := by simp only [via, strEq_false.2 hST]
        rw [hv] at hIL
        have pT := tgt_plain hT
        simp only [plainTgt, Bool.and_eq_true, Bool.or_eq_true] at pT
        have h2 := pT.1.1.1.1.1.1.1.1.1
        apply hIL
        unfold kindOf
        have a : pyIn S GM.LatinScripts = false := strMem_false.2 hSL
        have b : pyIn S GM.IndicScripts = true := strMem_iff.2 hSI
        have c : pyIn T GM.IndicScripts = false := strMem_false.2 hTI
        have d : pyIn T GM.LatinScripts = true := by rcases h2 with h | h <;> simp_all
        simp [a, b, c, d]

/-! ## C25: diacritics in nativised text -/

/-- **C25.** With `nativize`, the result contains none of the removable diacritics U+02BC, U+02C7,
U+02C6, U+02D8 and U+00B7; for Tamil, none of the last four. -/
theorem C25_nativised_without_diacritics (E : Env) (hE : E.TextOps) (S T : PyStr) (hS : S ∈ sourceScripts)
    (hT : T ∈ targetScripts) (text result : PyStr)
    (hr : process E S T text true [] [] (u! "default") = .ok (some result)) :
    ∀ m ∈ removableDiacritics, (T = (u! "Tamil") → m ≠ 0x02BC) → m ∉ result := by
  rw [process_plain hE hS hT] at hr
  cases hrun : (convert S T true [] []).prog.run E text with
  | error e => rw [hrun] at hr; cases hr
  | ok r =>
    rw [hrun] at hr
    cases hr
    obtain ⟨s1, s2, h1, h2⟩ := convert_end hS hT (Or.inr rfl) hrun
    have ht := tgtFull_all (tgt_plain hT)
    unfold tgtFull at ht
    simp only [Bool.and_eq_true] at ht
    have hd := ht.1.2
    intro m hm hTam hmr
    split at hd
    · rename_i hTa
      have hne := hTam (strEq_iff.1 hTa)
      have hm' : m ∈ removableDiacritics.tail := by
        simp only [removableDiacritics, List.mem_cons, List.tail] at hm ⊢
        rcases hm with h | h
        · exact absurd h hne
        · exact h
      exact cleans_sound (by decide) hd (fun c _ h => h) h2 m hmr hm'
    · exact cleans_sound (by decide) hd (fun c _ h => h) h2 m hmr hm

/-- An aspirated Tamil letter without and with `nativize`. -/
example : process sampleEnv (u! "Devanagari") (u! "Gujarati") (u! "कʼख") true [] [] (u! "default") = .ok (some (u! "કખ"))
    ∧ process sampleEnv (u! "Devanagari") (u! "Gujarati") (u! "कʼख") false [] [] (u! "default") = .ok (some (u! "કʼખ")) := by
  decide +kernel

end Verif
