import Verif.Lib.RomanChecks
import Verif.Lib.SampleEnv
import Verif.Props.Spelling

/-!
# C43: Indic text is romanised syllable by syllable

`romanTable` (`Verif.Spec.RomanTable`) lists eleven romanisations with the spellings of consonants,
vowels and other letters; `romanise` (`Verif.Spec.Roman`) says how the sounds of a text are spelled;
`RomanText` describes the texts covered.
-/

namespace Verif

/-- Text of an Indic script is romanised syllable by syllable: the spelling of every consonant,
followed by the vowel sign or, if there is neither a vowel sign nor a virama, the inherent vowel. -/
theorem C43_syllable_by_syllable (E : Env) (hE : E.TextOps) (e : CoreEntry) (he : e ∈ coreTable) (r : RomanEntry)
    (hr : r ∈ romanTable) (ha : Apt e.script r.script) (s : PyStr) (hs : RomanText e r s) (nativize : Bool) :
    process E e.script r.script s nativize [] [] (u! "default") = .ok (some (r.write (romanise e.script r.script s))) := by
  obtain ⟨fS⟩ := facts he
  obtain ⟨fR⟩ := romanFacts (romanOk_all r hr)
  obtain ⟨x, hx⟩ := C09_no_exception E hE _ _ fS.src fR.tgt s nativize
  rw [hx]
  rw [process_plain hE fS.src fR.tgt] at hx
  cases hc : (convert e.script r.script nativize [] []).prog.run E s with
  | error y => rw [hc] at hx; cases hx
  | ok t =>
    rw [hc] at hx
    cases hx
    rw [roman_convert fS (preRomanOk_all e he) fR (fits_of he hr ha) hs hc]

/-! ## Covered texts -/

/-- Decides `RomanText`. -/
def isRoman (e : CoreEntry) (r : RomanEntry) (s : PyStr) : Bool :=
  isCore e s && !(isInfix (letterAt e.script .OmMap 0) s) &&
  (sounds e.script r.script s).all (fun x => match x with
    | .cons y => strMem y r.conss
    | .vowel y => strMem y r.vowels
    | .sign y => strMem y r.vowels
    | .virama => true
    | .mark y => strMem y r.marks
    | .other c => natMem c r.free || isNeutral c) &&
  wellFormed (sounds e.script r.script s) && noFalseAspirate r.script (sounds e.script r.script s) &&
  r.avoid.all fun f => !(isInfix f (romanise e.script r.script s))

theorem isRoman_sound {e : CoreEntry} {r : RomanEntry} {s : PyStr} (h : isRoman e r s = true) : RomanText e r s := by
  simp only [isRoman, Bool.and_eq_true, List.all_eq_true, Bool.not_eq_true'] at h
  obtain ⟨⟨⟨⟨⟨h1, h2⟩, h3⟩, h4⟩, h5⟩, h6⟩ := h
  refine ⟨isCore_sound h1, fun hi => ?_, fun x hx => ?_, h4, h5, fun f hf hi => ?_⟩
  · rw [isInfix_iff.2 hi] at h2; cases h2
  · have := h3 x hx
    cases x with
    | cons y => exact strMem_iff.1 this
    | vowel y => exact strMem_iff.1 this
    | sign y => exact strMem_iff.1 this
    | virama => trivial
    | mark y => exact strMem_iff.1 this
    | other c =>
      rcases Bool.or_eq_true _ _ ▸ this with h | h
      · exact .inl (natMem_iff.1 h)
      · exact .inr h
  · have := h6 f hf
    rw [isInfix_iff.2 hi] at this; cases this

theorem isApt_sound {S R : PyStr} (h : clashOk S R = false) : Apt S R := clashOk_iff.1 h

/-- The beginning of the Gita and some words with neighbouring vowels. -/
def gitaWords : PyStr := u! "धर्मक्षेत्रे कुरुक्षेत्रे समवेताः (१२), कइ प्रउग अउ संस्कृतम् 中文\nॠतौ"

example : RomanText coreDevanagari romanIAST gitaWords ∧ RomanText coreDevanagari romanISO gitaWords ∧
    RomanText coreDevanagari romanHK gitaWords ∧ RomanText coreDevanagari romanSLP1 gitaWords ∧
    RomanText coreTelugu romanItrans (u! "ధర్మక్షేత్రే కురుక్షేత్రే") ∧
    Apt (u! "Devanagari") (u! "IAST") ∧ Apt (u! "Telugu") (u! "Itrans") :=
  ⟨isRoman_sound (by decide +kernel), isRoman_sound (by decide +kernel), isRoman_sound (by decide +kernel),
    isRoman_sound (by decide +kernel), isRoman_sound (by decide +kernel), isApt_sound (by decide +kernel),
    isApt_sound (by decide +kernel)⟩

example : romanIAST.write (romanise (u! "Devanagari") (u! "IAST") gitaWords) =
      u! "dharmakṣetre kurukṣetre samavetāḥ (12), kaï praüga aü saṃskṛtam 中文\nṝtau" ∧
    romanISO.write (romanise (u! "Devanagari") (u! "ISO") gitaWords) =
      u! "dharmakṣētrē kurukṣētrē samavētāḥ (12), ka:i pra:uga a:u saṁskr̥tam 中文\nr̥̄tau" ∧
    romanHK.write (romanise (u! "Devanagari") (u! "HK") gitaWords) =
      u! "dharmakSetre kurukSetre samavetAH (12), ka_i pra_uga a_u saMskRtam 中文\nRRtau" := by decide +kernel

/-- Texts of any length are covered. -/
theorem romanText_ka (n : Nat) : RomanText coreDevanagari romanIAST (List.replicate n 0x915) := by
  have hs : sounds coreDevanagari.script romanIAST.script (List.replicate n 0x915) = List.replicate n (.cons (u! "k")) := by
    unfold sounds
    rw [List.map_replicate]
    congr 1
  refine ⟨⟨fun d hd => .inl ((List.eq_of_mem_replicate hd) ▸ (by decide)), fun f hf hi => ?_⟩, fun hi => ?_, ?_, ?_, ?_, ?_⟩
  · have : ∀ f ∈ coreDevanagari.forbid, ∃ d ∈ f, d ≠ 0x915 := by decide
    obtain ⟨d, hd, hne⟩ := this f hf
    exact hne (List.eq_of_mem_replicate (hi.subset hd))
  · have : ∃ d ∈ letterAt coreDevanagari.script .OmMap 0, d ≠ 0x915 := by decide +kernel
    obtain ⟨d, hd, hne⟩ := this
    exact hne (List.eq_of_mem_replicate (hi.subset hd))
  · rw [hs]
    intro x hx
    rw [List.eq_of_mem_replicate hx]
    exact show u! "k" ∈ romanIAST.conss by decide
  · rw [hs]
    unfold wellFormed
    have : ∀ x, mayFollow x (.cons (u! "k")) = true → formedAfter x (List.replicate n (.cons (u! "k"))) = true := by
      induction n with
      | zero => intro _ _; rfl
      | succ n ih =>
        intro x hx
        rw [List.replicate_succ, formedAfter, hx]
        exact ih (by unfold sounds; rw [List.map_replicate]; congr 1) _ (by decide)
    exact this _ (by decide)
  · rw [hs]
    clear hs
    induction n with
    | zero => rfl
    | succ n ih =>
      rw [List.replicate_succ, noFalseAspirate, ih, Bool.and_true]
      have : joinedH romanIAST.script (List.replicate n (.cons (u! "k"))) = false := by cases n <;> rfl
      rw [this, Bool.and_false]; rfl
  · intro f hf; exact absurd hf List.not_mem_nil

/-! ## Where romanisation goes wrong -/

/-- SLP1 spells ढ as `Q`, which is its sign for the nukta as well: the inherent vowel of the
consonant before goes astray (`kaQa` would be the spelling). -/
theorem C43_nukta_violated :
    process sampleEnv (u! "Devanagari") (u! "SLP1") (u! "कढ") false [] [] (u! "default") = .ok (some (u! "kQaa")) := by
  decide +kernel

end Verif
