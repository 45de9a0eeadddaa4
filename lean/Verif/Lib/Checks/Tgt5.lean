import Verif.Lib.PlainChecks

/-! Per-script checks, target scripts, part 5.  Generated by tools/genchecks.py. -/

namespace Verif

set_option maxRecDepth 1000000
set_option Elab.async false

def chunkTgt5 : List PyStr := us!["KhmerLoC", "Marchen", "GranthaGrantamil", "Sharada", "Gurmukhi", "Tibetan", "BatakPakpak", "JavaneseRomanLoC", "ISOPali", "SoraSompeng"]

theorem chunkTgt5_one : (chunkTgt5.take 5).all tgtEvery = true := by decide +kernel
theorem chunkTgt5_two : (chunkTgt5.drop 5).all tgtEvery = true := by decide +kernel

theorem chunkTgt5_ok : chunkTgt5.all tgtEvery = true := by
  rw [← List.take_append_drop 5 chunkTgt5, List.all_append, chunkTgt5_one, chunkTgt5_two]; rfl

end Verif
