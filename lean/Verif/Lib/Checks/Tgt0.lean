import Verif.Lib.PlainChecks

/-! Per-script checks, target scripts, part 0.  Generated by tools/genchecks.py. -/

namespace Verif

set_option maxRecDepth 1000000
set_option Elab.async false

def chunkTgt0 : List PyStr := us!["DivesAkuru", "Hebrew", "Khojki", "SiddhamDevanagari", "Kannada", "Burmese", "Chakma", "TibetanLoCRomanLoC", "ThamLoCRomanLoC", "HanifiRohingya", "WX"]

theorem chunkTgt0_one : (chunkTgt0.take 5).all tgtEvery = true := by decide +kernel
theorem chunkTgt0_two : (chunkTgt0.drop 5).all tgtEvery = true := by decide +kernel

theorem chunkTgt0_ok : chunkTgt0.all tgtEvery = true := by
  rw [← List.take_append_drop 5 chunkTgt0, List.all_append, chunkTgt0_one, chunkTgt0_two]; rfl

end Verif
