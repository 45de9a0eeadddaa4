import Verif.Lib.OptionOrder

/-!
# Options are applied in the order given (C32)
-/

namespace Verif

/-- The three parts of `C32_options_in_order_partial`. -/
theorem options_run (E : Env) (hE : E.TextOps) (S T : PyStr) (hS : S ∈ sourceScripts)
    (hT : T ∈ targetScripts) (hne : S ≠ T) (nativize : Bool) (pre post : List PyStr) (text : PyStr)
    (hpre : ∀ o ∈ pre, o ∈ names preFns ∧ o ∉ specialPre) (hpost : ∀ o ∈ post, o ∈ names postFns ∧ o ∉ specialPost) :
    process E S T text nativize post pre (u! "default") = (do
      let text ← (PreProcess.PreProcess S T [] []).prog.run E text
      let text ← applyInTurn E preFns pre text
      let text ← (plainMain S T nativize).prog.run E text
      let text ← applyInTurn E postFns post text
      let text ← (plainEnd S T nativize).prog.run E text
      return some text) := by
  have pS := src_plain hS
  have pT := tgt_plain hT
  have ha : strEq S (u! "autodetect") = false := by
    rw [strEq_false]
    rintro rfl
    revert hS
    rw [← strMem_iff]
    decide +kernel
  show (processDefault E S T text nativize post pre).map some = _
  simp only [processDefault, ha, resolveName_listed hE (src_listed pS), resolveName_listed hE (tgt_listed pT),
    convertDefault, matchOptions_alone hE alone_pre hpre, matchOptions_alone hE alone_post hpost]
  rw [convert_options pS pT hne nativize (fun o ho => (hpre o ho).2) fun o ho => (hpost o ho).2]
  rw [run_then (lin_preProcess S T [] []), map_bind_some]
  refine congrArg _ (funext fun t1 => ?_)
  rw [run_then (Lin.forEach fun o => lin_callOption preFns_lin o), run_applyInTurn preFns_lin, map_bind_some]
  refine congrArg _ (funext fun t2 => ?_)
  rw [run_then (lin_plainMain pS pT nativize), map_bind_some]
  refine congrArg _ (funext fun t3 => ?_)
  rw [run_then (Lin.forEach fun o => lin_callOption postFns_lin o), run_applyInTurn postFns_lin, map_bind_some]
  refine congrArg _ (funext fun t4 => ?_)
  cases h : (plainEnd S T nativize).prog.run E t4 with
  | error e => rfl
  | ok t5 => rfl

/-- Between two scripts there are a part before the options, the conversion and a part after the
options, the same for all lists of ordinary options: `process` runs the first part, the
pre-options in the order given, the conversion, the post-options in the order given, and the last
part.  Missing: the options that also steer other parts of the conversion (`specialPre`,
`specialPost`), the scripts outside `sourceScripts`/`targetScripts` and equal scripts. -/
theorem C32_options_in_order_partial (E : Env) (hE : E.TextOps) (S T : PyStr) (hS : S ∈ sourceScripts)
    (hT : T ∈ targetScripts) (hne : S ≠ T) (nativize : Bool) :
    ∃ before conversion after : PyStr → Except Exn PyStr,
      ∀ (pre post : List PyStr) (text : PyStr),
        (∀ o ∈ pre, o ∈ names preFns ∧ o ∉ specialPre) →
        (∀ o ∈ post, o ∈ names postFns ∧ o ∉ specialPost) →
        process E S T text nativize post pre (u! "default") = (do
          let text ← before text
          let text ← applyInTurn E preFns pre text
          let text ← conversion text
          let text ← applyInTurn E postFns post text
          let text ← after text
          return some text) :=
  ⟨(PreProcess.PreProcess S T [] []).prog.run E, (plainMain S T nativize).prog.run E, (plainEnd S T nativize).prog.run E,
    fun pre post text hpre hpost => options_run E hE S T hS hT hne nativize pre post text hpre hpost⟩

/-- Two pre-options and two post-options that are neither unknown nor special. -/
example : (∀ o ∈ us!["RemoveSchwaHindi", "SchwaFinalBengali"], o ∈ names preFns ∧ o ∉ specialPre) ∧
    (∀ o ∈ us!["mDotAboveToBelow", "mDotBelowToAbove"], o ∈ names postFns ∧ o ∉ specialPost) := by
  have key : ∀ {os known sp : List PyStr}, os.all (fun o => strMem o known && !strMem o sp) = true →
      ∀ o ∈ os, o ∈ known ∧ o ∉ sp := by
    intro os known sp h o ho
    have := List.all_eq_true.1 h o ho
    simp only [Bool.and_eq_true, Bool.not_eq_true', strMem_iff, strMem_false] at this
    exact this
  exact ⟨key (by decide +kernel), key (by decide +kernel)⟩

/-- The order matters. -/
example : applyInTurn sampleEnv postFns us!["mDotAboveToBelow", "mDotBelowToAbove"] (u! "aṃ") = .ok (u! "aṃ")
    ∧ applyInTurn sampleEnv postFns us!["mDotBelowToAbove", "mDotAboveToBelow"] (u! "aṃ") = .ok (u! "aṁ") := by
  decide +kernel

end Verif
