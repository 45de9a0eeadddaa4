import Verif.Lib.PlainChecks

/-! Per-script checks, target scripts, part 4.  Generated by tools/genchecks.py. -/

namespace Verif

set_option maxRecDepth 1000000
set_option Elab.async false

def chunkTgt4 : List PyStr := us!["ThamLoC", "TamilExtended", "Rejang", "Bhaiksuki", "Oriya", "Thaana", "BatakKaro", "JavaneseSimpleRomanLoC", "RomanColloquial", "WarangCiti", "RussianCyrillic"]

theorem chunkTgt4_one : (chunkTgt4.take 5).all tgtEvery = true := by decide +kernel
theorem chunkTgt4_two : (chunkTgt4.drop 5).all tgtEvery = true := by decide +kernel

theorem chunkTgt4_ok : chunkTgt4.all tgtEvery = true := by
  rw [← List.take_append_drop 5 chunkTgt4, List.all_append, chunkTgt4_one, chunkTgt4_two]; rfl

end Verif
