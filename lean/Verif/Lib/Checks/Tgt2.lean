import Verif.Lib.PlainChecks

/-! Per-script checks, target scripts, part 2.  Generated by tools/genchecks.py. -/

namespace Verif

set_option maxRecDepth 1000000
set_option Elab.async false

def chunkTgt2 : List PyStr := us!["GurmukhiLoC", "LueTham", "Ranjana", "Vatteluttu", "Gujarati", "Balinese", "MeeteiMayek", "BalineseSimpleRomanLoC", "ShanLoCRomanLoC", "RomanReadable", "TolongSiki"]

theorem chunkTgt2_one : (chunkTgt2.take 5).all tgtEvery = true := by decide +kernel
theorem chunkTgt2_two : (chunkTgt2.drop 5).all tgtEvery = true := by decide +kernel

theorem chunkTgt2_ok : chunkTgt2.all tgtEvery = true := by
  rw [← List.take_append_drop 5 chunkTgt2, List.all_append, chunkTgt2_one, chunkTgt2_two]; rfl

end Verif
