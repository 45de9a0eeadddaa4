import Verif.Lib.PlainChecks

/-! Per-script checks, target scripts, part 8.  Generated by tools/genchecks.py. -/

namespace Verif

set_option maxRecDepth 1000000
set_option Elab.async false

def chunkTgt8 : List PyStr := us!["RomanSemitic", "Soyombo", "Ahom", "SylotiNagri", "Saurashtra", "Limbu", "BatakManda", "SinhalaRomanLoC", "BarahaSouth", "ISO"]

theorem chunkTgt8_one : (chunkTgt8.take 5).all tgtEvery = true := by decide +kernel
theorem chunkTgt8_two : (chunkTgt8.drop 5).all tgtEvery = true := by decide +kernel

theorem chunkTgt8_ok : chunkTgt8.all tgtEvery = true := by
  rw [← List.take_append_drop 5 chunkTgt8, List.all_append, chunkTgt8_one, chunkTgt8_two]; rfl

end Verif
