import Verif.Lib.ItransConv
import Verif.Props.RomanBack

/-!
# C27: marked parts of ITRANS text; C09, C17, C44 for ITRANS

`markedText`, `unmarkedText` and `PlainItrans` are in `Verif.Spec.Itrans`.
-/

namespace Verif

/-- No text makes a conversion from ITRANS crash. -/
theorem C09_itrans (E : Env) (hE : E.TextOps) (T : PyStr) (hT : T ∈ targetScripts) (hne : T ≠ u! "Itrans") (text : PyStr)
    (nativize : Bool) : ∃ result, process E (u! "Itrans") T text nativize [] [] (u! "default") = .ok (some result) := by
  rw [process_listed hE itrans_listed (tgt_listed (tgt_plain hT))]
  obtain ⟨r, hr⟩ := Prog.safe_total hE.total (itrans_safe (tgt_plain hT) hne.symm nativize) text
  exact ⟨r, by rw [hr]; rfl⟩

example (text : PyStr) : ∃ r, process sampleEnv (u! "Itrans") (u! "Tamil") text true [] [] (u! "default") = .ok (some r) :=
  C09_itrans _ sampleEnv_textOps _ (strMem_iff.1 (by decide +kernel)) (by decide) _ _

/-- The parts of an ITRANS text between `##` marks are kept as they are, what is outside is read
letter by letter: the spelling of `s₁`, the part `p₁`, the spelling of `s₂`, ... give `s₁` in the
letters of the target, `p₁`, `s₂` in the letters of the target, ... -/
theorem C27_marked_parts_kept (E : Env) (hE : E.TextOps) (e : CoreEntry) (he : e ∈ coreTable) (e' : CoreEntry)
    (he' : e' ∈ coreTable) (l : List (PyStr × PyStr)) (z : PyStr)
    -- every text outside the marks can be read, no text contains the mark
    (hl : ∀ q ∈ l, Readable e romanItrans q.1 ∧ 35 ∉ romanise e.script (u! "Itrans") q.1 ∧
      35 ∉ q.2 ∧ ∀ c ∈ q.2, c ∈ plainChars ∨ isNeutral c = true)
    (hz : Readable e romanItrans z) (hz' : 35 ∉ romanise e.script (u! "Itrans") z)
    (text result : PyStr)
    (htext : text = markedText (l.map fun q => (romanise e.script (u! "Itrans") q.1, q.2)) (romanise e.script (u! "Itrans") z))
    (hresult : result = unmarkedText (l.map fun q => (respell e.script e'.script q.1, q.2)) (respell e.script e'.script z))
    (hp : PlainItrans text) (hc : CoreText e' result) (nativize : Bool) (hn : nativize = true → NativeText e' result) :
    process E (u! "Itrans") e'.script text nativize [] [] (u! "default") = .ok (some result) := by
  obtain ⟨fS⟩ := facts he
  obtain ⟨fT⟩ := facts he'
  subst htext hresult
  have hne : e'.script ≠ u! "Itrans" := by
    intro h
    have := indic_notLatin fT.indic
    rw [h] at this
    revert this
    decide +kernel
  obtain ⟨x, hx⟩ := C09_itrans E hE e'.script fT.tgt hne _ nativize
  rw [hx]
  rw [process_listed hE itrans_listed (tgt_listed (tgt_plain fT.tgt))] at hx
  cases hr : (convert (u! "Itrans") e'.script nativize [] []).prog.run E
      (markedText (l.map fun q => (romanise e.script (u! "Itrans") q.1, q.2)) (romanise e.script (u! "Itrans") z)) with
  | error y => rw [hr] at hx; cases hx
  | ok t =>
    rw [hr] at hx
    cases hx
    obtain ⟨h1, h2⟩ := readTargets_all e' he'
    rw [itrans_convert fS.toLetterFacts fT h1 h2 hl hz hz' hp hc hn hr]

/-- ITRANS text is read letter by letter. -/
theorem C44_itrans (E : Env) (hE : E.TextOps) (e : CoreEntry) (he : e ∈ coreTable) (e' : CoreEntry) (he' : e' ∈ coreTable)
    (s : PyStr) (hs : Readable e romanItrans s) (hm : 35 ∉ romanise e.script (u! "Itrans") s)
    (hp : PlainItrans (romanise e.script (u! "Itrans") s)) (hs' : CoreText e' (respell e.script e'.script s))
    (nativize : Bool) (hn : nativize = true → NativeText e' (respell e.script e'.script s)) :
    process E (u! "Itrans") e'.script (romanise e.script (u! "Itrans") s) nativize [] [] (u! "default") =
      .ok (some (respell e.script e'.script s)) :=
  C27_marked_parts_kept E hE e he e' he' [] s (by simp) hs hm _ _ rfl rfl hp hs' nativize hn

/-- An Indic text comes back from ITRANS. -/
theorem C17_itrans (E : Env) (hE : E.TextOps) (e : CoreEntry) (he : e ∈ coreTable) (ha : Apt e.script (u! "Itrans"))
    (s : PyStr) (hs : Readable e romanItrans s) (hm : 35 ∉ romanise e.script (u! "Itrans") s)
    (hp : PlainItrans (romanise e.script (u! "Itrans") s)) (nativize nativize' : Bool) (hn : nativize' = true → NativeText e s) :
    ∃ t, process E e.script (u! "Itrans") s nativize [] [] (u! "default") = .ok (some t) ∧
      process E (u! "Itrans") e.script t nativize' [] [] (u! "default") = .ok (some s) := by
  obtain ⟨fS⟩ := facts he
  have hself := respell_self fS.tbl s
  have hr : romanItrans ∈ romanTable := by simp [romanTable]
  refine ⟨_, C43_syllable_by_syllable E hE e he romanItrans hr ha s hs.toRomanText nativize, ?_⟩
  have := C44_itrans E hE e he e he s hs hm hp (by rw [hself]; exact hs.core) nativize' (by rw [hself]; exact hn)
  rwa [hself] at this

/-! ## Texts that meet the conditions -/

/-- Every `kS` is followed by `h`. -/
def isKSh : PyStr → Bool
  | [] => true
  | c :: cs => (!((u! "kS").isPrefixOf (c :: cs)) || (cs.drop 1).head? == some 104) && isKSh cs

theorem isKSh_sound {t : PyStr} (h : isKSh t = true) : ∀ a b, t = a ++ (u! "kS") ++ b → b.head? = some 104 := by
  induction t with
  | nil => intro a b he; cases a <;> cases he
  | cons c cs ih =>
    intro a b he
    simp only [isKSh, Bool.and_eq_true, Bool.or_eq_true, Bool.not_eq_true', beq_iff_eq] at h
    cases a with
    | nil =>
      simp only [List.nil_append, List.cons_append, List.cons.injEq] at he
      obtain ⟨rfl, rfl⟩ := he
      rcases h.1 with h1 | h1
      · revert h1; simp [List.isPrefixOf]
      · simpa using h1
    | cons d a =>
      simp only [List.cons_append, List.cons.injEq] at he
      exact ih h.2 a b he.2

/-- Decides `PlainItrans`. -/
def isPlainItrans (t : PyStr) : Bool := itransVariants.all (fun f => !(isInfix f t)) && isKSh t

theorem isPlainItrans_sound {t : PyStr} (h : isPlainItrans t = true) : PlainItrans t := by
  simp only [isPlainItrans, Bool.and_eq_true, List.all_eq_true, Bool.not_eq_true'] at h
  refine ⟨fun f hf hi => ?_, isKSh_sound h.2⟩
  have := h.1 f hf
  rw [isInfix_iff.2 hi] at this
  cases this

/-- A text with two marked parts, read into Telugu. -/
example : process sampleEnv (u! "Itrans") (u! "Telugu") (u! "dharma ##(Part)##kShetre ##中b##kuru") true [] [] (u! "default") =
    .ok (some (u! "ధర్మ (Part)క్షేత్రే 中bకురు")) := by
  refine C27_marked_parts_kept sampleEnv sampleEnv_textOps coreDevanagari (by simp [coreTable]) coreTelugu (by simp [coreTable])
    [(u! "धर्म ", u! "(Part)"), (u! "क्षेत्रे ", u! "中b")] (u! "कुरु") ?_ (isReadable_sound (by decide +kernel)) (by decide +kernel)
    _ _ (by decide +kernel) (by decide +kernel) (isPlainItrans_sound (by decide +kernel)) (isCore_sound (by decide +kernel)) true
    (fun _ => ⟨by decide +kernel, by decide +kernel⟩)
  intro q hq
  simp only [List.mem_cons, List.not_mem_nil, or_false] at hq
  rcases hq with rfl | rfl
  · exact ⟨isReadable_sound (by decide +kernel), by decide +kernel, by decide +kernel, by decide +kernel⟩
  · exact ⟨isReadable_sound (by decide +kernel), by decide +kernel, by decide +kernel, by decide +kernel⟩

/-! ## Where marked parts are changed -/

/-- The variants of letters are replaced before the text is divided. -/
theorem C27_variants_violated :
    process sampleEnv (u! "Itrans") (u! "Devanagari") (u! "dharma ##law book##") false [] [] (u! "default") =
      .ok (some (u! "धर्म lav bUk")) := by
  decide +kernel

end Verif
