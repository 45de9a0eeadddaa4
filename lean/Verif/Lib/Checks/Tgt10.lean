import Verif.Lib.PlainChecks

/-! Per-script checks, target scripts, part 10.  Generated by tools/genchecks.py. -/

namespace Verif

set_option maxRecDepth 1000000
set_option Elab.async false

def chunkTgt10 : List PyStr := us!["Nandinagari", "KhomThai", "Lao2", "Modi", "Grantha", "Sundanese", "TaiTham", "AssameseRomanLoC", "SLP1", "HK"]

theorem chunkTgt10_one : (chunkTgt10.take 5).all tgtEvery = true := by decide +kernel
theorem chunkTgt10_two : (chunkTgt10.drop 5).all tgtEvery = true := by decide +kernel

theorem chunkTgt10_ok : chunkTgt10.all tgtEvery = true := by
  rw [← List.take_append_drop 5 chunkTgt10, List.all_append, chunkTgt10_one, chunkTgt10_two]; rfl

end Verif
