import Verif.Lib.Repeat
import Verif.Props.OptionOrder
import Verif.Props.Plain

/-!
# C58: options given twice

The full claim, giving any option twice in a row is giving it once, is false: `C58_violated`.
-/

namespace Verif

/-- **C58.** A post-option of `repeatablePost` given twice in a row, anywhere among other ordinary options, has the effect of giving
it once; the same for the pre-options of `repeatablePre`.  Missing: the other options. -/
theorem C58_option_twice_partial (E : Env) (hE : E.TextOps) (S T : PyStr) (hS : S ∈ sourceScripts) (hT : T ∈ targetScripts) (hne : S ≠ T)
    (nativize : Bool) (pre post before after : List PyStr)
    (hpre : ∀ o ∈ pre, o ∈ names preFns ∧ o ∉ specialPre) (hpost : ∀ o ∈ post, o ∈ names postFns ∧ o ∉ specialPost) (text : PyStr) :
    (∀ option ∈ repeatablePost, (∀ o ∈ before ++ after, o ∈ names postFns ∧ o ∉ specialPost) →
      process E S T text nativize (before ++ option :: option :: after) pre (u! "default") =
        process E S T text nativize (before ++ option :: after) pre (u! "default")) ∧
    (∀ option ∈ repeatablePre, (∀ o ∈ before ++ after, o ∈ names preFns ∧ o ∉ specialPre) →
      process E S T text nativize post (before ++ option :: option :: after) (u! "default") =
        process E S T text nativize post (before ++ option :: after) (u! "default")) := by
  have known : ∀ {fns : List (PyStr × Gen Unit)} {sp : List PyStr} {option : PyStr}, (option ∈ names fns ∧ option ∉ sp) →
      (∀ o ∈ before ++ after, o ∈ names fns ∧ o ∉ sp) → (∀ o ∈ before ++ option :: option :: after, o ∈ names fns ∧ o ∉ sp) ∧
        ∀ o ∈ before ++ option :: after, o ∈ names fns ∧ o ∉ sp := by
    intro fns sp option h1 h2
    have : ∀ o ∈ before ++ option :: option :: after, o ∈ names fns ∧ o ∉ sp := by
      intro o ho
      simp only [List.mem_append, List.mem_cons] at ho
      rcases ho with ho | rfl | rfl | ho
      · exact h2 o (List.mem_append_left _ ho)
      · exact h1
      · exact h1
      · exact h2 o (List.mem_append_right _ ho)
    refine ⟨this, fun o ho => this o ?_⟩
    simp only [List.mem_append, List.mem_cons] at ho ⊢
    exact ho.imp id .inr
  constructor
  · intro option ho hoth
    have hs := List.all_eq_true.1 repeatablePost_all _ ho
    obtain ⟨h1, h2⟩ := known (settlesIn_known hs).1 hoth
    rw [options_run E hE S T hS hT hne nativize pre _ text hpre h1, options_run E hE S T hS hT hne nativize pre _ text hpre h2]
    simp only [applyInTurn_twice hs]
  · intro option ho hoth
    have hs := List.all_eq_true.1 repeatablePre_all _ ho
    obtain ⟨h1, h2⟩ := known (settlesIn_known hs).1 hoth
    rw [options_run E hE S T hS hT hne nativize _ post text h1 hpost, options_run E hE S T hS hT hne nativize _ post text h2 hpost]
    simp only [applyInTurn_twice hs]

/-- Options that meet the conditions, among another one. -/
example : (u! "mDotAboveToBelow") ∈ repeatablePost ∧ (u! "SinhalaPali") ∈ repeatablePre ∧
    (∀ o ∈ us!["mDotBelowToAbove"] ++ us!["noLongEO"], o ∈ names postFns ∧ o ∉ specialPost) := by
  refine ⟨strMem_iff.1 (by decide +kernel), strMem_iff.1 (by decide +kernel), ?_⟩
  intro o ho
  simp only [List.cons_append, List.nil_append, List.mem_cons, List.not_mem_nil, or_false] at ho
  rcases ho with rfl | rfl <;> exact ⟨strMem_iff.1 (by decide +kernel), strMem_false.1 (by decide +kernel)⟩

/-- The effect is not void. -/
example : process sampleEnv (u! "Devanagari") (u! "IAST") (u! "सं") false us!["mDotAboveToBelow", "mDotAboveToBelow"] [] (u! "default")
    = .ok (some (u! "saṁ")) := by decide +kernel

/-- Not all options are of this kind: `swapEe` exchanges e and E, given twice it has no effect. -/
theorem C58_violated :
    process sampleEnv (u! "Devanagari") (u! "HK") (u! "के") false us!["swapEe"] [] (u! "default") = .ok (some (u! "kE")) ∧
    process sampleEnv (u! "Devanagari") (u! "HK") (u! "के") false us!["swapEe", "swapEe"] [] (u! "default") = .ok (some (u! "ke")) := by
  decide +kernel

end Verif
