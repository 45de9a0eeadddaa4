import Verif.Lib.PlainChecks

/-! Per-script checks, target scripts, part 11.  Generated by tools/genchecks.py. -/

namespace Verif

set_option maxRecDepth 1000000
set_option Elab.async false

def chunkTgt11 : List PyStr := us!["Kawi", "KhamtiShan", "Hanunoo", "Kaithi", "TamilGrantha", "Tagalog", "Lao", "BengaliRomanLoC", "Wancho", "Titus"]

theorem chunkTgt11_one : (chunkTgt11.take 5).all tgtEvery = true := by decide +kernel
theorem chunkTgt11_two : (chunkTgt11.drop 5).all tgtEvery = true := by decide +kernel

theorem chunkTgt11_ok : chunkTgt11.all tgtEvery = true := by
  rw [← List.take_append_drop 5 chunkTgt11, List.all_append, chunkTgt11_one, chunkTgt11_two]; rfl

end Verif
