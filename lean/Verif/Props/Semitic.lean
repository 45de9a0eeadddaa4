import Verif.Lib.SemUse
import Verif.Props.Plain

/-!
# C29, C45: Semitic scripts

`SemiticText`, `semiticImage`, `signImage` and `latinSign` are defined in `Verif/Spec/Semitic.lean`.
-/

namespace Verif

/-- **C29.** A text of consonant letters, digits, punctuation, Roman and neutral characters in a
Semitic script is converted letter by letter: every letter becomes the letter of the target for the
same Latin sign, or for the nearest sign the target has; all other characters stay. -/
theorem C29_letter_by_letter (E : Env) (hE : E.TextOps) (hO : E.SemiticOps) (S : PyStr) (hS : S ∈ semiticNames)
    (T : PyStr) (hT : T ∈ semiticNames) (hne : S ≠ T) (nativize : Bool) (s : PyStr) (hs : SemiticText S T nativize s) :
    process E S T s nativize [] [] (u! "default") = .ok (some (s.flatMap (semiticImage S T nativize))) := by
  rw [process_semitic hE hS hT, semitic_run hO hS hT hne hs]
  rfl

/-- The conversion of two texts one after the other is the conversion of both. -/
theorem C29_append (E : Env) (hE : E.TextOps) (hO : E.SemiticOps) (S : PyStr) (hS : S ∈ semiticNames)
    (T : PyStr) (hT : T ∈ semiticNames) (hne : S ≠ T) (nativize : Bool) (s t : PyStr)
    (hs : SemiticText S T nativize s) (ht : SemiticText S T nativize t) :
    ∃ x y, process E S T s nativize [] [] (u! "default") = .ok (some x) ∧
      process E S T t nativize [] [] (u! "default") = .ok (some y) ∧
      process E S T (s ++ t) nativize [] [] (u! "default") = .ok (some (x ++ y)) := by
  refine ⟨_, _, C29_letter_by_letter E hE hO S hS T hT hne nativize s hs,
    C29_letter_by_letter E hE hO S hS T hT hne nativize t ht, ?_⟩
  rw [C29_letter_by_letter E hE hO S hS T hT hne nativize (s ++ t), List.flatMap_append]
  intro c hc
  rcases List.mem_append.1 hc with h | h
  · exact hs c h
  · exact ht c h

/-- **C45.** Letters that both scripts have come back: if every character of the text becomes one
character of the target that is written back as it was, so is the text. -/
theorem C45_round_trip (E : Env) (hE : E.TextOps) (hO : E.SemiticOps) (S : PyStr) (hS : S ∈ semiticNames)
    (T : PyStr) (hT : T ∈ semiticNames) (hne : S ≠ T) (nativize nativize' : Bool) (s : PyStr)
    (hs : SemiticText S T nativize s)
    (hb : ∀ c ∈ s, ∃ d, semiticImage S T nativize c = [d] ∧ semiticImage T S nativize' d = [c] ∧
      (d ∈ semiticLetters T ∨ d ∈ plainChars ∨ isNeutral d = true) ∧ c ∉ finalLetters S) :
    ∃ t, t.length = s.length ∧ process E S T s nativize [] [] (u! "default") = .ok (some t) ∧
      process E T S t nativize' [] [] (u! "default") = .ok (some s) := by
  refine ⟨s.flatMap (semiticImage S T nativize), ?_, C29_letter_by_letter E hE hO S hS T hT hne nativize s hs, ?_⟩
  · clear hs
    induction s with
    | nil => rfl
    | cons c s ih =>
      obtain ⟨d, h1, -⟩ := hb c (by simp)
      rw [List.flatMap_cons, h1, List.length_append, ih fun c hc => hb c (List.mem_cons_of_mem _ hc)]
      simp; omega
  · rw [C29_letter_by_letter E hE hO T hT S hS (Ne.symm hne) nativize' _]
    · rw [List.flatMap_assoc, flatMap_congr_mem (g := fun c => [c]), flatMap_single]
      intro c hc
      obtain ⟨d, h1, h2, -⟩ := hb c hc
      rw [h1]
      simp [h2]
    · intro d hd
      obtain ⟨c, hc, hd⟩ := List.mem_flatMap.1 hd
      obtain ⟨d', h1, h2, h3, h4⟩ := hb c hc
      rw [h1] at hd
      rw [List.mem_singleton.1 hd]
      refine ⟨h3, ?_⟩
      rw [h2]
      intro x hx
      rw [List.mem_singleton.1 hx]
      exact h4

/-! ## A case -/

theorem sampleEnv_semitic : sampleEnv.SemiticOps where
  nfd := fun _ _ => rfl
  mark := fun _ _ => rfl

def isSemiticText (S T : PyStr) (nat : Bool) (s : PyStr) : Bool :=
  s.all fun c => (natMem c (semiticLetters S) || natMem c plainChars || isNeutral c) && noFinal T (semiticImage S T nat c)

theorem isSemiticText_sound {S T : PyStr} {nat : Bool} {s : PyStr} (h : isSemiticText S T nat s = true) :
    SemiticText S T nat s := by
  intro c hc
  have := List.all_eq_true.1 h c hc
  simp only [Bool.and_eq_true, Bool.or_eq_true, natMem_iff, noFinal_iff, or_assoc] at this
  exact this

example : SemiticText (u! "Phnx") (u! "Arab") false (u! "𐤀𐤁𐤂 𐤔𐤋𐤌, abc 12 中") ∧
    (u! "𐤀𐤁𐤂 𐤔𐤋𐤌, abc 12 中").flatMap (semiticImage (u! "Phnx") (u! "Arab") false) = (u! "ابڨ شلم، abc ١٢ 中") :=
  ⟨isSemiticText_sound (by decide +kernel), by decide +kernel⟩

def comesBack (S T : PyStr) (nat nat' : Bool) (s : PyStr) : Bool :=
  s.all fun c => match semiticImage S T nat c with
    | [d] => strEq (semiticImage T S nat' d) [c] && (natMem d (semiticLetters T) || natMem d plainChars || isNeutral d) &&
      !(natMem c (finalLetters S))
    | _ => false

theorem comesBack_sound {S T : PyStr} {nat nat' : Bool} {s : PyStr} (h : comesBack S T nat nat' s = true) :
    ∀ c ∈ s, ∃ d, semiticImage S T nat c = [d] ∧ semiticImage T S nat' d = [c] ∧
      (d ∈ semiticLetters T ∨ d ∈ plainChars ∨ isNeutral d = true) ∧ c ∉ finalLetters S := by
  intro c hc
  have := List.all_eq_true.1 h c hc
  split at this
  · rename_i d hd
    simp only [Bool.and_eq_true, Bool.or_eq_true, natMem_iff, strEq_iff, or_assoc, Bool.not_eq_true'] at this
    exact ⟨d, hd, this.1.1, this.1.2, fun hm => natMem_false this.2 hm⟩
  · cases this

example : SemiticText (u! "Phnx") (u! "Syre") true (u! "𐤀𐤁𐤂 𐤌𐤋𐤊, 中") ∧
    ∀ c ∈ (u! "𐤀𐤁𐤂 𐤌𐤋𐤊, 中"), ∃ d, semiticImage (u! "Phnx") (u! "Syre") true c = [d] ∧
      semiticImage (u! "Syre") (u! "Phnx") true d = [c] ∧
      (d ∈ semiticLetters (u! "Syre") ∨ d ∈ plainChars ∨ isNeutral d = true) ∧ c ∉ finalLetters (u! "Phnx") :=
  ⟨isSemiticText_sound (by decide +kernel), comesBack_sound (by decide +kernel)⟩

/-! ## Word dividers -/

set_option maxRecDepth 100000

/-- Blanks become Ugaritic word dividers, and word dividers are removed: the words run together. -/
theorem C45_violated_word_divider :
    process sampleEnv (u! "Phnx") (u! "Ugar") (u! "𐤀 𐤁") false [] [] (u! "default") = .ok (some (u! "𐎀𐎟𐎁")) ∧
    process sampleEnv (u! "Ugar") (u! "Phnx") (u! "𐎀𐎟𐎁") false [] [] (u! "default") = .ok (some (u! "𐤀𐤁")) := by
  decide +kernel

end Verif
