import Verif.Lib.LeftOverRun
import Verif.Props.Plain

/-!
# C11: no letter of the source is left in the result
-/

namespace Verif

/-- **C11.**  Whatever the text, a letter of the source script (a consonant, vowel, vowel sign, virama,
digit or sign that is one character of a Unicode block of its own, and no danda) does not occur in the
result of a conversion, unless the target is written with the same character. -/
theorem C11_no_letter_left (E : Env) (hE : E.TextOps) (S T : PyStr) (hS : S ∈ sourceScripts) (hT : T ∈ targetScripts) (c : Nat)
    (hc : [c] ∈ readLetters S) (hb : ownBlock c = true) (hd : c ∉ dandas) (hw : c ∉ writtenWith T)
    (text : PyStr) (nativize : Bool) (result : PyStr)
    (hr : process E S T text nativize [] [] (u! "default") = .ok (some result)) : c ∉ result := by
  rw [process_plain hE hS hT] at hr
  cases he : (convert S T nativize [] []).prog.run E text with
  | error x => rw [he] at hr; cases hr
  | ok r =>
    rw [he] at hr
    cases hr
    exact left_over (E := E) ⟨hS, hT, hc, hb, hd, hw⟩ text _ he

/-- Scripts with separate letters: no letter of the source at all is left. -/
theorem C11_disjoint (E : Env) (hE : E.TextOps) (S T : PyStr) (hS : S ∈ sourceScripts) (hT : T ∈ targetScripts)
    (hsep : ∀ c, [c] ∈ readLetters S → ownBlock c = true → c ∉ dandas → c ∉ writtenWith T)
    (text : PyStr) (nativize : Bool) (result : PyStr)
    (hr : process E S T text nativize [] [] (u! "default") = .ok (some result)) :
    ∀ c ∈ result, [c] ∈ readLetters S → ownBlock c = true → c ∈ dandas := by
  intro c hc hl hb
  refine Classical.byContradiction fun hd => ?_
  exact C11_no_letter_left E hE S T hS hT c hl hb hd (hsep c hl hb hd) text nativize result hr hc

/-! ### Examples -/

/-- Checked form of the separation of letters. -/
def separate (S T : PyStr) : Bool :=
  (readLetters S).all fun x => match x with
    | [c] => !(ownBlock c) || natMem c dandas || !(natMem c (writtenWith T))
    | _ => true

theorem separate_sound {S T : PyStr} (h : separate S T = true) :
    ∀ c, [c] ∈ readLetters S → ownBlock c = true → c ∉ dandas → c ∉ writtenWith T := by
  intro c hc hb hd hw
  have : (!(ownBlock c) || natMem c dandas || !(natMem c (writtenWith T))) = true := List.all_eq_true.1 h [c] hc
  rw [hb, natMem_iff.2 hw] at this
  simp only [Bool.not_true, Bool.false_or, Bool.or_false, natMem_iff] at this
  exact hd this

/-- Whatever the text, after a conversion from Devanagari to Telugu there is no Devanagari letter. -/
example (text result : PyStr) (nativize : Bool)
    (hr : process sampleEnv (u! "Devanagari") (u! "Telugu") text nativize [] [] (u! "default") = .ok (some result)) :
    ∀ c ∈ result, [c] ∈ readLetters (u! "Devanagari") → ownBlock c = true → c ∈ dandas :=
  C11_disjoint sampleEnv sampleEnv_textOps _ _ (strMem_iff.1 (by decide +kernel)) (strMem_iff.1 (by decide +kernel))
    (separate_sound (by decide +kernel)) text nativize result hr

/-- Likewise from Santali, which the library treats as a romanisation, to IAST; क is such a letter
of Devanagari. -/
example (text result : PyStr) (nativize : Bool)
    (hr : process sampleEnv (u! "Santali") (u! "IAST") text nativize [] [] (u! "default") = .ok (some result)) :
    ∀ c ∈ result, [c] ∈ readLetters (u! "Santali") → ownBlock c = true → c ∈ dandas :=
  C11_disjoint sampleEnv sampleEnv_textOps _ _ (strMem_iff.1 (by decide +kernel)) (strMem_iff.1 (by decide +kernel))
    (separate_sound (by decide +kernel)) text nativize result hr

example : [0x915] ∈ readLetters (u! "Devanagari") ∧ ownBlock 0x915 = true ∧ 0x915 ∉ dandas ∧ 0x915 ∉ writtenWith (u! "Telugu") :=
  ⟨strMem_iff.1 (by decide +kernel), by decide, by decide, fun h => by rw [← natMem_iff] at h; revert h; decide +kernel⟩

end Verif
