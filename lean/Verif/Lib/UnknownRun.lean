import Verif.Lib.Unknown
import Verif.Lib.OptionOrder

/-!
# Texts are returned as they are when a script is unknown
-/

namespace Verif

theorem lin_post (S T : PyStr) (nat : Bool) : Lin (PostProcess.defaultPost S T nat [] []) := by
  unfold PostProcess.defaultPost
  simp only [pyIn_nil, branch_false]
  lin

/-- The class of a target, as `PreProcess` sees it for an unknown source. -/
theorem pre_class {n : PyStr} (hn : Fresh n) (T : PyStr) : ∃ R ∈ us!["Devanagari", "IAST", "Klingon"],
    PreProcess.PreProcess n T [] [] = PreProcess.PreProcess someName R [] [] := by
  rw [fresh_pre_src hn someName_fresh]
  have key : ∀ {R : PyStr}, pyIn T GM.IndicScripts = pyIn R GM.IndicScripts → pyIn T GM.LatinScripts = pyIn R GM.LatinScripts →
      PreProcess.PreProcess someName T [] [] = PreProcess.PreProcess someName R [] [] := by
    intro R h1 h2
    have a := someName_fresh.facts
    simp only [PreProcess.PreProcess, h1, h2, a.e1, a.e3, a.e4, a.i4, Bool.false_and, Bool.or_false, branch_false]
  have disj : (GM.IndicScripts.all fun x => !(strMem x GM.LatinScripts)) = true := by decide +kernel
  cases h1 : pyIn T GM.IndicScripts with
  | true =>
    refine ⟨u! "Devanagari", by simp, key ?_ ?_⟩
    · rw [h1]; decide +kernel
    · have := List.all_eq_true.1 disj T (strMem_iff.1 h1)
      simp only [Bool.not_eq_true'] at this
      rw [pyIn_eq, this]; decide +kernel
  | false =>
    cases h2 : pyIn T GM.LatinScripts with
    | true => exact ⟨u! "IAST", by simp, key (by rw [h1]; decide +kernel) (by rw [h2]; decide +kernel)⟩
    | false => exact ⟨u! "Klingon", by simp, key (by rw [h1]; decide +kernel) (by rw [h2]; decide +kernel)⟩

theorem post_class (S T : PyStr) (nat : Bool) : ∃ R ∈ us!["Devanagari", "IAST"],
    PostProcess.defaultPost S T nat [] [] = PostProcess.defaultPost someName R true [] [] := by
  cases h : pyIn T GM.Transliteration with
  | true =>
    refine ⟨u! "IAST", by simp, ?_⟩
    have : pyIn (u! "IAST") GM.Transliteration = true := by decide +kernel
    simp only [PostProcess.defaultPost, pyIn_nil, h, this, branch_false]
  | false =>
    refine ⟨u! "Devanagari", by simp, ?_⟩
    have : pyIn (u! "Devanagari") GM.Transliteration = false := by decide +kernel
    simp only [PostProcess.defaultPost, pyIn_nil, h, this, branch_false]

theorem away_mono {m c : Nat} (h : (awaySet m).mem c = true) : (awaySet 0).mem c = true := by
  have h' : holderMem m c = true := h
  show holderMem 0 c = true
  unfold holderMem at h' ⊢
  split
  · rename_i hr; rw [hr] at h'; cases h'
  · simp

/-- The last two steps. -/
theorem tail_run {E : Env} (hE : E.Total) {s : PyStr} (hs : InCore (awaySet 0) settledWords s) (S T : PyStr) (nat : Bool) :
    (do PreProcess.retainLatin true; PostProcess.defaultPost S T nat [] [] : Gen Unit).prog.run E s = .ok s := by
  refine (quietOk_sound quiet_latin (lin_PreProcess_retainLatin true)).seq hE hs ?_
  obtain ⟨R, hR, he⟩ := post_class S T nat
  rw [he]
  exact (quietOk_sound (List.all_eq_true.1 quiet_post R hR) (lin_post _ _ _)).run hE hs

/-- The steps of a conversion in which no script is converted. -/
theorem steps_run {E : Env} (hE : E.Total) {s : PyStr} (hs : InCore (awaySet 0) settledWords s) {S T : PyStr} {nat : Bool}
    (hp : Quiet (awaySet 0) settledWords (PreProcess.PreProcess S T [] [])) (hc : convertScript S T = PostProcess.default)
    (hn : nat = true → (nativization S T []).prog.run E s = .ok s) :
    (plainConvert S T nat).prog.run E s = .ok s := by
  unfold plainConvert
  refine hp.seq hE hs ?_
  rw [hc]
  refine (quietOk_sound quiet_default (lin_PostProcess_default _)).seq hE hs ?_
  cases nat with
  | false => exact tail_run hE hs S T false
  | true =>
    rw [branch_true, (lin_nativization S T []).prog_seq, Prog.run_append, hn rfl]
    exact tail_run hE hs S T true

/-- An unknown source. -/
theorem fresh_simple {S T : PyStr} {nat : Bool} (hS : Fresh S) (hne : S ≠ T) (h1 : pyEq T (u! "RomanLoC") = false)
    (h2 : hasKey GM.semiticISO T = false) (h3 : pyEq T (u! "Hiragana") = false) (h4 : pyEq T (u! "Katakana") = false)
    (h5 : pyEq T [] = false) (h6 : pyEq T (u! "Ignore") = false) (h7 : (pyEq T (u! "Arab") && nat) = false) : SimplePair S T nat where
  ne := hne
  semS := hS.facts.i9
  locS := hS.eq (by decide +kernel)
  isoS := hS.key (by decide +kernel)
  mapS := hS.key (by decide +kernel)
  hirS := hS.eq (by decide +kernel)
  katS := hS.eq (by decide +kernel)
  itrS := hS.facts.e2
  nilS := hS.eq (by decide +kernel)
  locT := h1
  isoT := h2
  hirT := h3
  katT := h4
  ipaO := by rw [hS.eq (by decide +kernel)]; rfl
  ipaT := by rw [hS.eq (by decide +kernel)]; rfl
  nilT := h5
  ignT := h6
  arab := h7
  lat := by
    have a := hS.facts
    simp only [retainsLatin, a.i9, a.i4, a.i11, Bool.and_false, Bool.false_and, Bool.or_false]

/-- An unknown target. -/
theorem simple_fresh {S T : PyStr} {nat : Bool} (hT : Fresh T) (hS : plainSrc S = true) : SimplePair S T nat := by
  simp only [plainSrc, Bool.and_eq_true, Bool.not_eq_true'] at hS
  obtain ⟨⟨⟨⟨⟨⟨⟨⟨⟨hS1, hS2⟩, hS3⟩, hS4⟩, hS5⟩, hS6⟩, hS7⟩, hS8⟩, hS9⟩, hS10⟩ := hS
  refine ⟨?_, hS3, hS4, hS5, hS6, hS7, hS8, hS9, hS10, hT.eq (by decide +kernel), hT.key (by decide +kernel), hT.eq (by decide +kernel),
    hT.eq (by decide +kernel), ?_, ?_, hT.eq (by decide +kernel), hT.eq (by decide +kernel), ?_, ?_⟩
  · rintro rfl
    have a := hT.facts
    rw [a.i4, a.i8] at hS1
    simp at hS1
  · rw [hT.eq (x := u! "IPA") (by decide +kernel), Bool.and_false]
  · rw [hT.eq (x := u! "IPA") (by decide +kernel), Bool.and_false]
  · rw [hT.eq (x := u! "Arab") (by decide +kernel), Bool.false_and]
  · have hm : pyIn S us!["Hiragana", "Katakana"] = false := by
      rw [pyIn_eq, strMem_false]
      rw [pyEq_eq, strEq_false] at hS7 hS8
      simp [hS7, hS8]
    simp only [retainsLatin, hS3, hT.facts.i9, hm, Bool.and_false, Bool.false_and, Bool.or_false]

theorem mem_of_mask {c : Nat} {l : PyStr} (h : (maskOf l).testBit c = true) : c ∈ l := by
  induction l with
  | nil => simp [maskOf] at h
  | cons d l ih =>
    have h : (maskOf l ||| 1 <<< d).testBit c = true := h
    rw [Nat.testBit_or, Bool.or_eq_true] at h
    rcases h with h | h
    · exact List.mem_cons_of_mem _ (ih h)
    · have : c = d := by
        rw [Nat.one_shiftLeft, Nat.testBit_two_pow, decide_eq_true_eq] at h
        exact h.symm
      rw [this]; exact List.mem_cons_self

theorem nat_direct {E : Env} (hE : E.Total) {s S T : PyStr} (hS : Fresh S) (hT : T ∈ directTargets) (hT' : T ∉ broadTargets)
    (hs : Settled s) (hb : NoRemovable s) (ha : AwayFrom T s) : (nativization S T []).prog.run E s = .ok s := by
  rw [fresh_nat_src hS someName_fresh]
  have h := List.all_eq_true.1 quiet_nat T hT
  simp only [Bool.or_eq_true, strMem_iff, hT', false_or] at h
  have hm : ∀ c ∈ s, (alphabetMask T).testBit c = false := by
    intro c hc
    cases hm : (alphabetMask T).testBit c with
    | false => rfl
    | true =>
      have : c ∈ (letterList T).flatMap id := mem_of_mask hm
      obtain ⟨x, hx, hcx⟩ := List.mem_flatMap.1 this
      exact absurd hc (ha x hx c hcx)
  unfold nativization
  refine (quietOk_sound h (lin_applyScriptDefaults _ _ _)).seq hE (bare_core hs hb hm) ?_
  cases hl : pyEq T (u! "Latn") with
  | true => rfl
  | false =>
    cases ht : pyEq T (u! "Tamil") with
    | true =>
      have hq := quiet_removeTamil
      rw [withNat_eq] at hq
      have hT : T = u! "Tamil" := by rw [pyEq_eq] at ht; exact strEq_iff.1 ht
      rw [hT] at hm
      exact (quietOk_sound hq lin_PostProcess_RemoveDiacriticsTamil).run hE (bare_core hs hb hm)
    | false =>
      exact (quietOk_sound quiet_remove lin_PostProcess_RemoveDiacritics).run hE (bare_core hs hb fun _ _ => by simp)

theorem nat_fresh {E : Env} (hE : E.Total) {s : PyStr} (S : PyStr) {T : PyStr} (hT : Fresh T)
    (hs : Settled s) (hb : NoRemovable s) : (nativization S T []).prog.run E s = .ok s := by
  rw [fresh_nat_tgt hT]
  exact (quietOk_sound quiet_remove lin_PostProcess_RemoveDiacritics).run hE (bare_core hs hb fun _ _ => by simp)

theorem pre_fresh {n : PyStr} (hn : Fresh n) (T : PyStr) : Quiet (awaySet 0) settledWords (PreProcess.PreProcess n T [] []) := by
  obtain ⟨R, hR, he⟩ := pre_class hn T
  rw [he]
  exact quietOk_sound (List.all_eq_true.1 quiet_pre R hR) (lin_preProcess _ _ _ _)

/-- The tests of `PreProcess` on a quiet source. -/
def quietTests (n : PyStr) : Bool :=
  [pyEq n (u! "Latn"), pyEq n (u! "Itrans"), pyEq n (u! "BarahaNorth"), pyEq n (u! "BarahaSouth"), pyEq n (u! "WarangCiti"),
    pyEq n (u! "Hebr-Ar"), pyEq n (u! "Arab-Ur"), pyEq n (u! "Arab-Pa"), pyEq n (u! "Hebr"), pyEq n (u! "ISO"), pyEq n (u! "IAST"),
    pyEq n (u! "Titus"), pyIn n GM.RomanDiacritic, pyIn n GM.pipeScripts, pyIn n us!["Syrj", "Syrn"],
    pyIn n us!["Grantha", "TamilGrantha"], pyIn n us!["IAST", "ISO", "ISOPali", "Titus", "IASTPali"],
    pyIn n us!["IAST", "ISO", "ISOPali", "IASTPali", "Titus"], pyIn (u! "Arab") n, pyIn (u! "IAST") n, pyIn (u! "ISO") n,
    pyIn (u! "RomanLoC") n].all not

theorem quiet_tests : (quietSources.all fun S => plainSrc S && (quietTests S || strMem S us!["Grantha", "TamilGrantha"])) = true := by
  decide +kernel

theorem pre_quiet {S T : PyStr} (hS : S ∈ quietSources) (hT : Fresh T) :
    Quiet (awaySet 0) settledWords (PreProcess.PreProcess S T [] []) := by
  rw [fresh_pre_tgt hT someName_fresh]
  have h := List.all_eq_true.1 quiet_tests S hS
  simp only [Bool.and_eq_true, Bool.or_eq_true, strMem_iff] at h
  rcases h.2 with h | h
  · have he : PreProcess.PreProcess S someName [] [] = PreProcess.PreProcess someName someName [] [] := by
      simp only [quietTests, List.all_cons, List.all_nil, Bool.and_true, Bool.and_eq_true, Bool.not_eq_true'] at h
      obtain ⟨a1, a2, a3, a4, a5, a6, a7, a8, a9, a10, a11, a12, a13, a14, a15, a16, a17, a18, a19, a20, a21, a22⟩ := h
      have b := someName_fresh.facts
      simp only [PreProcess.PreProcess, PreProcess.normalize, a1, a2, a3, a4, a5, a6, a7, a8, a9, a10, a11, a12, a13, a14, a15,
        a16, a17, a18, a19, a20, a21, a22, b.e1, b.e2, b.e3, b.e4, b.e5, b.e6, b.e7, b.e8, b.e9, b.e10, b.e11, b.e12,
        b.i1, b.i2, b.i3, b.i5, b.i6, b.i7, b.i10, b.s1, b.s2, b.s3, b.s4, Bool.false_and, Bool.and_false, Bool.or_false, branch_false]
    rw [he]
    exact pre_fresh someName_fresh _
  · exact quietOk_sound (List.all_eq_true.1 quiet_grantha S h) (lin_preProcess _ _ _ _)

theorem Unknown.fresh {E : Env} {n : PyStr} (h : Unknown E n) : Fresh n := ⟨h.name, h.part⟩

theorem Unknown.resolve {E : Env} {n : PyStr} (h : Unknown E n) : resolveName E n = n := by
  unfold resolveName
  have : (GM.IndicScripts ++ GM.LatinScripts).find? (fun s => strEq (E.lower n) (E.lower s)) = none := by
    rw [List.find?_eq_none]
    intro k hk
    rw [strEq_iff]
    exact h.case k hk
  rw [this]

theorem process_names {E : Env} {S T : PyStr} (hS : resolveName E S = S) (hT : resolveName E T = T) (ha : S ≠ (u! "autodetect"))
    (text : PyStr) (nat : Bool) :
    process E S T text nat [] [] (u! "default") = ((convert S T nat [] []).prog.run E text).map some := by
  show (processDefault E S T text nat [] []).map some = _
  simp only [processDefault, strEq_false.2 ha, hS, hT, convertDefault, matchOptions, List.flatMap_nil]

theorem semitic_names : (GM.SemiticScripts.all fun a =>
    match (GM.IndicScripts ++ GM.LatinScripts).find? (fun s => strEq (asciiLower a) (asciiLower s)) with
    | some s => strEq s a
    | none => true) = true := by decide +kernel

theorem semitic_ascii : (GM.SemiticScripts.all fun a => a.all fun c => Nat.blt c 128) = true := by decide +kernel

theorem direct_resolve {E : Env} (hE : E.TextOps) {T : PyStr} (hT : T ∈ directTargets) : resolveName E T = T := by
  have hT := (List.mem_filter.1 hT).1
  rcases List.mem_append.1 hT with h | h
  · exact resolveName_listed hE h
  · have hl : ∀ s ∈ GM.IndicScripts ++ GM.LatinScripts, E.lower s = asciiLower s := by
      intro s hs
      refine hE.lower_ascii s fun c hc => ?_
      have := List.all_eq_true.1 (List.all_eq_true.1 names_ascii s hs) c hc
      rwa [Nat.blt_eq] at this
    have hl' : E.lower T = asciiLower T := by
      refine hE.lower_ascii T fun c hc => ?_
      have := List.all_eq_true.1 (List.all_eq_true.1 semitic_ascii T h) c hc
      rwa [Nat.blt_eq] at this
    have hf : (GM.IndicScripts ++ GM.LatinScripts).find? (fun s => strEq (E.lower T) (E.lower s))
        = (GM.IndicScripts ++ GM.LatinScripts).find? (fun s => strEq (asciiLower T) (asciiLower s)) := by
      rw [hl']
      apply find_congr
      intro s hs
      rw [hl s hs]
    unfold resolveName
    rw [hf]
    have := List.all_eq_true.1 semitic_names T h
    split at this
    · rename_i s hs; rw [hs]; exact strEq_iff.1 this
    · rename_i hs; rw [hs]

theorem direct_tests : (directTargets.all fun T => !(pyEq T (u! "RomanLoC")) && !(hasKey GM.semiticISO T) && !(pyEq T (u! "Hiragana"))
    && !(pyEq T (u! "Katakana")) && !(pyEq T []) && !(pyEq T (u! "Ignore"))) = true := by decide +kernel

/-- From an unknown source to a supported target. -/
theorem unknown_source_run {E : Env} (hE : E.TextOps) {S T text : PyStr} {nat : Bool} (hS : Unknown E S) (hT : T ∈ directTargets)
    (hs : Settled text) (hn : nat = true → T ∉ broadTargets ∧ NoRemovable text ∧ AwayFrom T text) :
    process E S T text nat [] [] (u! "default") = .ok (some text) := by
  have hd := List.all_eq_true.1 direct_tests T hT
  simp only [Bool.and_eq_true, Bool.not_eq_true'] at hd
  obtain ⟨⟨⟨⟨⟨h1, h2⟩, h3⟩, h4⟩, h5⟩, h6⟩ := hd
  have hne : S ≠ T := by
    rintro rfl
    exact hS.name (by
      have := (List.mem_filter.1 hT).1
      unfold namesInUse
      simp only [List.mem_append] at this ⊢
      exact .inl (.inl this))
  have h7 : (pyEq T (u! "Arab") && nat) = false := by
    cases nat with
    | false => simp
    | true =>
      have : T ≠ (u! "Arab") := by
        rintro rfl
        exact (hn rfl).1 (strMem_iff.1 (by decide +kernel))
      rw [pyEq_eq, strEq_false.2 this]; rfl
  have ha : S ≠ (u! "autodetect") := by
    rintro rfl
    exact hS.name (strMem_iff.1 (by decide +kernel))
  rw [process_names hS.resolve (direct_resolve hE hT) ha, convert_simple (fresh_simple hS.fresh hne h1 h2 h3 h4 h5 h6 h7),
    steps_run hE.total (settled_core hs fun _ _ => by simp) (pre_fresh hS.fresh T) (convertScript_src hS.fresh T)
      (fun h => nat_direct hE.total hS.fresh hT (hn h).1 hs (hn h).2.1 (hn h).2.2)]
  rfl

/-- From a supported source to an unknown target. -/
theorem unknown_target_run {E : Env} (hE : E.TextOps) {S T text : PyStr} {nat : Bool} (hS : S ∈ quietSources) (hT : Unknown E T)
    (hs : Settled text) (hn : nat = true → NoRemovable text) :
    process E S T text nat [] [] (u! "default") = .ok (some text) := by
  have hp := List.all_eq_true.1 quiet_tests S hS
  simp only [Bool.and_eq_true] at hp
  have hl := (List.mem_filter.1 hS).1
  have ha : S ≠ (u! "autodetect") := by
    rintro rfl
    revert hl
    rw [← strMem_iff]; decide +kernel
  rw [process_names (resolveName_listed hE hl) hT.resolve ha, convert_simple (simple_fresh hT.fresh hp.1),
    steps_run hE.total (settled_core hs fun _ _ => by simp) (pre_quiet hS hT.fresh) (convertScript_tgt hT.fresh S)
      (fun h => nat_fresh hE.total S hT.fresh hs (hn h))]
  rfl

/-- Both unknown. -/
theorem unknown_both_run {E : Env} (hE : E.TextOps) {S T text : PyStr} {nat : Bool} (hS : Unknown E S) (hT : Unknown E T)
    (hs : Settled text) (hn : nat = true → NoRemovable text) :
    process E S T text nat [] [] (u! "default") = .ok (some text) := by
  have ha : S ≠ (u! "autodetect") := by
    rintro rfl
    exact hS.name (strMem_iff.1 (by decide +kernel))
  have f := hT.fresh
  have hc := settled_core (m := 0) hs fun _ _ => by simp
  rw [process_names hS.resolve hT.resolve ha]
  by_cases hne : S = T
  · subst hne
    cases nat with
    | false =>
      have : convert S S false [] [] = pure () := by
        have f1 : pyEq S (u! "RomanLoC") = false := f.eq (by decide +kernel)
        have f2 := hasKey_false (f.key (d := GM.semiticISO) (by decide +kernel))
        have f3 : pyEq S S = true := strEq_iff.2 rfl
        show convertBody (convertN 2) ⟨S, S, false, [], []⟩ = _
        funext k
        simp only [convertBody, locTarget, locTargetOther, locSource, locSourceOther, isoTarget, isoSource, f1, f2,
          Bool.false_and, Gen.bind_apply, Gen.pure_apply, earlyReturn, f3, List.isEmpty_nil, Bool.not_false, Bool.and_self,
          Bool.or_true, branch_true]
      rw [this]; rfl
    | true =>
      rw [convert_simple_self f.facts.i9 (f.eq (by decide +kernel)) (f.key (by decide +kernel)) (f.key (by decide +kernel))
        (f.eq (by decide +kernel)) (f.eq (by decide +kernel)) (f.eq (by decide +kernel)) (f.eq (by decide +kernel))
        (f.eq (by decide +kernel)) (f.eq (by decide +kernel)), convertScript_src f, convertScript_tgt f]
      have hq := quietOk_sound quiet_default (lin_PostProcess_default (u! ""))
      have hrun : (do
          PreProcess.PreProcess S (u! "Devanagari") [] []
          PostProcess.default
          PostProcess.default
          nativization S S []
          PreProcess.retainLatin true
          PostProcess.defaultPost S S true [] [] : Gen Unit).prog.run E text = .ok text := by
        refine (pre_fresh f _).seq hE.total hc (hq.seq hE.total hc (hq.seq hE.total hc ?_))
        rw [(lin_nativization S S []).prog_seq, Prog.run_append, nat_fresh hE.total S f hs (hn rfl)]
        exact tail_run hE.total hc S S true
      rw [hrun]; rfl
  · have h1 : (pyEq T (u! "Arab") && nat) = false := by rw [f.eq (by decide +kernel)]; rfl
    rw [convert_simple (fresh_simple hS.fresh hne (f.eq (by decide +kernel)) (f.key (by decide +kernel)) (f.eq (by decide +kernel))
        (f.eq (by decide +kernel)) (f.eq (by decide +kernel)) (f.eq (by decide +kernel)) h1),
      steps_run hE.total hc (pre_fresh hS.fresh T) (convertScript_tgt f S) (fun h => nat_fresh hE.total S f hs (hn h))]
    rfl

end Verif
