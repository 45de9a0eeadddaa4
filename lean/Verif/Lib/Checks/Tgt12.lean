import Verif.Lib.PlainChecks

/-! Per-script checks, target scripts, part 12.  Generated by tools/genchecks.py. -/

namespace Verif

set_option maxRecDepth 1000000
set_option Elab.async false

def chunkTgt12 : List PyStr := us!["Shahmukhi", "TaiLaing", "Buhid", "Kharoshthi", "Sinhala", "Tagbanwa", "Brahmi", "GujaratiRomanLoC", "Mro", "Itrans"]

theorem chunkTgt12_one : (chunkTgt12.take 5).all tgtEvery = true := by decide +kernel
theorem chunkTgt12_two : (chunkTgt12.drop 5).all tgtEvery = true := by decide +kernel

theorem chunkTgt12_ok : chunkTgt12.all tgtEvery = true := by
  rw [← List.take_append_drop 5 chunkTgt12, List.all_append, chunkTgt12_one, chunkTgt12_two]; rfl

end Verif
