import Verif.Lib.PlainChecks

/-! Per-script checks, target scripts, part 9.  Generated by tools/genchecks.py. -/

namespace Verif

set_option maxRecDepth 1000000
set_option Elab.async false

def chunkTgt9 : List PyStr := us!["Makasar", "Dogra", "Mahajani", "Tirhuta", "TamilBrahmi", "Lepcha", "Cham", "OriyaRomanLoC", "Mongolian", "IAST"]

theorem chunkTgt9_one : (chunkTgt9.take 5).all tgtEvery = true := by decide +kernel
theorem chunkTgt9_two : (chunkTgt9.drop 5).all tgtEvery = true := by decide +kernel

theorem chunkTgt9_ok : chunkTgt9.all tgtEvery = true := by
  rw [← List.take_append_drop 5 chunkTgt9, List.all_append, chunkTgt9_one, chunkTgt9_two]; rfl

end Verif
