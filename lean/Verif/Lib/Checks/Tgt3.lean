import Verif.Lib.PlainChecks

/-! Per-script checks, target scripts, part 3.  Generated by tools/genchecks.py. -/

namespace Verif

set_option maxRecDepth 1000000
set_option Elab.async false

def chunkTgt3 : List PyStr := us!["LimbuLoC", "KhuenTham", "ZanabazarSquare", "Khudawadi", "Bengali", "Javanese", "LaoPali", "BalineseRomanLoC", "BurmeseRomanLoC", "Aksharaa", "Santali"]

theorem chunkTgt3_one : (chunkTgt3.take 5).all tgtEvery = true := by decide +kernel
theorem chunkTgt3_two : (chunkTgt3.drop 5).all tgtEvery = true := by decide +kernel

theorem chunkTgt3_ok : chunkTgt3.all tgtEvery = true := by
  rw [← List.take_append_drop 5 chunkTgt3, List.all_append, chunkTgt3_one, chunkTgt3_two]; rfl

end Verif
