import Verif.Lib.PlainChecks

/-! Per-script checks, target scripts, part 7.  Generated by tools/genchecks.py. -/

namespace Verif

set_option maxRecDepth 1000000
set_option Elab.async false

def chunkTgt7 : List PyStr := us!["BengaliRaBa", "GunjalaGondi", "Multani", "Takri", "Assamese", "OldPersian", "BatakToba", "TeluguRomanLoC", "BarahaNorth", "Avestan"]

theorem chunkTgt7_one : (chunkTgt7.take 5).all tgtEvery = true := by decide +kernel
theorem chunkTgt7_two : (chunkTgt7.drop 5).all tgtEvery = true := by decide +kernel

theorem chunkTgt7_ok : chunkTgt7.all tgtEvery = true := by
  rw [← List.take_append_drop 5 chunkTgt7, List.all_append, chunkTgt7_one, chunkTgt7_two]; rfl

end Verif
