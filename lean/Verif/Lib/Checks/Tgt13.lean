import Verif.Lib.PlainChecks

/-! Per-script checks, target scripts, part 13.  Generated by tools/genchecks.py. -/

namespace Verif

set_option maxRecDepth 1000000
set_option Elab.async false

def chunkTgt13 : List PyStr := us!["Pallava", "Mon", "Siddham", "Telugu", "Khmer", "Buginese", "GurmukhiLoCRomanLoC", "DevanagariRomanLoC", "IASTPali", "Velthuis"]

theorem chunkTgt13_one : (chunkTgt13.take 5).all tgtEvery = true := by decide +kernel
theorem chunkTgt13_two : (chunkTgt13.drop 5).all tgtEvery = true := by decide +kernel

theorem chunkTgt13_ok : chunkTgt13.all tgtEvery = true := by
  rw [← List.take_append_drop 5 chunkTgt13, List.all_append, chunkTgt13_one, chunkTgt13_two]; rfl

end Verif
