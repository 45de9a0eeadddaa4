import Verif.Lib.LeftOver

/-!
# No target writes letters of other scripts
-/

namespace Verif

theorem ownMask_eq : maskOf ownLetters = ownMask := Nat.eq_of_beq_eq_true (by decide +kernel)

/-- The check of all targets. -/
theorem fresh_targets {T : PyStr} (hT : T ∈ targetScripts) : tgtOk (freshAna (foreignSet (maskOf ownLetters) (targetMask T))) T = true := by
  rw [ownMask_eq]
  exact tgtFresh_all (tgt_plain hT)

theorem fresh_const : constOk (freshAna (foreignSet (maskOf ownLetters) 0)) = true := by
  rw [ownMask_eq]
  decide +kernel

end Verif
