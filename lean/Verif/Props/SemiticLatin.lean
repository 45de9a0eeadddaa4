import Verif.Lib.SemLatin
import Verif.Props.Semitic

/-!
# C46: Semitic scripts and their romanisation `Latn`

`latinImage`, `LatinPiece`, `readSigns` and `Env.KeepsSigns` are defined in `Verif/Spec/Semitic.lean`.
-/

namespace Verif

/-- **C46.** Romanising Semitic text: every consonant letter becomes its Latin sign, everything else
stays.  (With nativisation, Arabic text is left out: long vowels are spelt differently then.) -/
theorem C46_romanised (E : Env) (hE : E.TextOps) (hO : E.SemiticOps) (S : PyStr) (hS : S ∈ semiticNames) (nativize : Bool)
    (hn : nativize = true → S ∉ us!["Arab-Pa", "Arab-Ur", "Arab-Fa", "Arab"]) (s : PyStr)
    (hs : ∀ c ∈ s, c ∈ semiticLetters S ∨ c ∈ plainChars ∨ isNeutral c = true) :
    process E S (u! "Latn") s nativize [] [] (u! "default") = .ok (some (s.flatMap (latinImage S))) := by
  have h1 := process_toLatn hE hS s nativize
  rw [semitic_toLatn hO hS hn hs] at h1
  exact h1

/-- Romanised text is read sign by sign. -/
theorem C46_read (E : Env) (hE : E.TextOps) (hO : E.SemiticOps) (hL : E.KeepsSigns) (T : PyStr) (hT : T ∈ semiticNames)
    (nativize : Bool) (toks : List PyStr) (ht : ∀ t ∈ toks, LatinPiece t)
    (hf : ∀ t ∈ toks, ∀ d ∈ signImage T nativize t, d ∉ finalLetters T) :
    process E (u! "Latn") T toks.flatten nativize [] [] (u! "default") = .ok (some (toks.flatMap (signImage T nativize))) := by
  have h1 := process_fromLatn hE hT toks.flatten nativize
  rw [semitic_fromLatn hO hL hT ht hf] at h1
  exact h1

/-- The way through the romanisation gives the same text as the direct way. -/
theorem C46_detour (E : Env) (hE : E.TextOps) (hO : E.SemiticOps) (hL : E.KeepsSigns) (S : PyStr) (hS : S ∈ semiticNames)
    (T : PyStr) (hT : T ∈ semiticNames) (hne : S ≠ T) (nativize : Bool) (s : PyStr) (hs : SemiticText S T nativize s)
    (hr : ∀ c ∈ s, isAsciiLetter c = false) (hx : ∀ c ∈ s, latinSign S c ∉ us!["s₂", "ḵ"]) :
    ∃ r t, process E S (u! "Latn") s false [] [] (u! "default") = .ok (some r) ∧
      process E (u! "Latn") T r nativize [] [] (u! "default") = .ok (some t) ∧
      process E S T s nativize [] [] (u! "default") = .ok (some t) := by
  have hc : ∀ c ∈ s, SemChar S c := fun c hc => (hs c hc).1
  refine ⟨_, _, C46_romanised E hE hO S hS false (by simp) s hc, ?_, C29_letter_by_letter E hE hO S hS T hT hne nativize s hs⟩
  have e1 : s.flatMap (latinImage S) = (s.map (latinSign S)).flatten := by
    rw [← List.flatMap_def]
    refine flatMap_congr_mem fun c hc => ?_
    unfold latinImage
    rw [hr c hc]
  have e2 : s.flatMap (semiticImage S T nativize) = (s.map (latinSign S)).flatMap (signImage T nativize) := by
    rw [List.flatMap_map]
    refine flatMap_congr_mem fun c hc => ?_
    unfold semiticImage
    rw [hr c hc]
  rw [e1, e2]
  refine C46_read E hE hO hL T hT nativize _ ?_ ?_
  · intro t ht
    obtain ⟨c, hcs, rfl⟩ := List.mem_map.1 ht
    rcases sign_cases hS (hc c hcs) (hr c hcs) with h | ⟨e, h⟩
    · refine .inl (List.mem_filter.2 ⟨h, ?_⟩)
      rw [strMem_false.2 (hx c hcs)]
      rfl
    · refine .inr ⟨c, e, h.imp_left fun h => ?_⟩
      exact other_mem.1 (List.mem_filter.1 h).1
  · intro t ht
    obtain ⟨c, hcs, rfl⟩ := List.mem_map.1 ht
    have := (hs c hcs).2
    unfold semiticImage at this
    rwa [hr c hcs] at this

/-- A text of letters that their own script writes for their Latin signs comes back from the
romanisation. -/
theorem C46_round_trip (E : Env) (hE : E.TextOps) (hO : E.SemiticOps) (hL : E.KeepsSigns) (S : PyStr) (hS : S ∈ semiticNames)
    (nativize nativize' : Bool) (hn : nativize = true → S ∉ us!["Arab-Pa", "Arab-Ur", "Arab-Fa", "Arab"]) (s : PyStr)
    (hs : ∀ c ∈ s, c ∈ semiticLetters S ∨ c ∈ plainChars ∨ isNeutral c = true)
    (hr : ∀ c ∈ s, isAsciiLetter c = false) (hx : ∀ c ∈ s, latinSign S c ∉ us!["s₂", "ḵ"])
    (hb : ∀ c ∈ s, signImage S nativize' (latinSign S c) = [c] ∧ c ∉ finalLetters S) :
    ∃ r, process E S (u! "Latn") s nativize [] [] (u! "default") = .ok (some r) ∧
      process E (u! "Latn") S r nativize' [] [] (u! "default") = .ok (some s) := by
  refine ⟨_, C46_romanised E hE hO S hS nativize hn s hs, ?_⟩
  have e1 : s.flatMap (latinImage S) = (s.map (latinSign S)).flatten := by
    rw [← List.flatMap_def]
    refine flatMap_congr_mem fun c hc => ?_
    unfold latinImage
    rw [hr c hc]
  rw [e1, C46_read E hE hO hL S hS nativize' _ ?_ ?_, List.flatMap_map, flatMap_congr_mem (g := fun c => [c]), flatMap_single]
  · exact fun c hc => (hb c hc).1
  · intro t ht
    obtain ⟨c, hcs, rfl⟩ := List.mem_map.1 ht
    rcases sign_cases hS (hs c hcs) (hr c hcs) with h | ⟨e, h⟩
    · refine .inl (List.mem_filter.2 ⟨h, ?_⟩)
      rw [strMem_false.2 (hx c hcs)]
      rfl
    · refine .inr ⟨c, e, h.imp_left fun h => ?_⟩
      exact other_mem.1 (List.mem_filter.1 h).1
  · intro t ht
    obtain ⟨c, hcs, rfl⟩ := List.mem_map.1 ht
    rw [(hb c hcs).1]
    intro d hd
    rw [List.mem_singleton.1 hd]
    exact (hb c hcs).2

/-! ## A case -/

theorem sampleEnv_signs : sampleEnv.KeepsSigns := fun _ _ => rfl

example : (∀ c ∈ (u! "𐤀𐤁𐤂 𐤔𐤋𐤌, 12 中"), (c ∈ semiticLetters (u! "Phnx") ∨ c ∈ plainChars ∨ isNeutral c = true) ∧
    isAsciiLetter c = false ∧ latinSign (u! "Phnx") c ∉ us!["s₂", "ḵ"] ∧
    signImage (u! "Phnx") true (latinSign (u! "Phnx") c) = [c] ∧ c ∉ finalLetters (u! "Phnx")) ∧
    (u! "𐤀𐤁𐤂 𐤔𐤋𐤌, 12 中").flatMap (latinImage (u! "Phnx")) = (u! "ʾbg šlm, 12 中") := by
  have h : (u! "𐤀𐤁𐤂 𐤔𐤋𐤌, 12 中").all (fun c => (natMem c (semiticLetters (u! "Phnx")) || natMem c plainChars || isNeutral c) &&
      !(isAsciiLetter c) && !(strMem (latinSign (u! "Phnx") c) us!["s₂", "ḵ"]) &&
      strEq (signImage (u! "Phnx") true (latinSign (u! "Phnx") c)) [c] && !(natMem c (finalLetters (u! "Phnx")))) = true := by
    decide +kernel
  refine ⟨fun c hc => ?_, by decide +kernel⟩
  have := List.all_eq_true.1 h c hc
  simp only [Bool.and_eq_true, Bool.or_eq_true, natMem_iff, strEq_iff, Bool.not_eq_true', or_assoc] at this
  exact ⟨this.1.1.1.1, this.1.1.1.2, strMem_false.1 this.1.1.2, this.1.2, fun hm => natMem_false this.2 hm⟩

set_option maxRecDepth 100000 in
/-- Reading is not exact for all signs: `s₂` is read as `s²`. -/
theorem C46_subscript_violated :
    process sampleEnv (u! "Latn") (u! "Phnx") (u! "s₂") false [] [] (u! "default") =
      process sampleEnv (u! "Latn") (u! "Phnx") (u! "s²") false [] [] (u! "default") := by
  decide +kernel

end Verif
