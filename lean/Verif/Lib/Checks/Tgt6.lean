import Verif.Lib.PlainChecks

/-! Per-script checks, target scripts, part 6.  Generated by tools/genchecks.py. -/

namespace Verif

set_option maxRecDepth 1000000
set_option Elab.async false

def chunkTgt6 : List PyStr := us!["ShanLoC", "MasaramGondi", "Devanagari", "Newa", "Tamil", "Thai", "BatakSima", "KannadaRomanLoC", "RomanKana", "WX-kok"]

theorem chunkTgt6_one : (chunkTgt6.take 5).all tgtEvery = true := by decide +kernel
theorem chunkTgt6_two : (chunkTgt6.drop 5).all tgtEvery = true := by decide +kernel

theorem chunkTgt6_ok : chunkTgt6.all tgtEvery = true := by
  rw [← List.take_append_drop 5 chunkTgt6, List.all_append, chunkTgt6_one, chunkTgt6_two]; rfl

end Verif
