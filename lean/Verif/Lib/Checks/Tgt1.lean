import Verif.Lib.PlainChecks

/-! Per-script checks, target scripts, part 1.  Generated by tools/genchecks.py. -/

namespace Verif

set_option maxRecDepth 1000000
set_option Elab.async false

def chunkTgt1 : List PyStr := us!["TibetanLoC", "LaoTham", "Shan", "GranthaPandya", "Malayalam", "Urdu", "PhagsPa", "LimbuLoCRomanLoC", "KhmerLoCRomanLoC", "Ariyaka", "Inter"]

theorem chunkTgt1_one : (chunkTgt1.take 5).all tgtEvery = true := by decide +kernel
theorem chunkTgt1_two : (chunkTgt1.drop 5).all tgtEvery = true := by decide +kernel

theorem chunkTgt1_ok : chunkTgt1.all tgtEvery = true := by
  rw [← List.take_append_drop 5 chunkTgt1, List.all_append, chunkTgt1_one, chunkTgt1_two]; rfl

end Verif
