import Verif.Lib.PlainChecks

/-! Per-script checks, source scripts, part 6.  Generated by tools/genchecks.py. -/

namespace Verif

set_option maxRecDepth 1000000
set_option Elab.async false

def chunkSrc6 : List PyStr := us!["ShanLoC", "LueTham", "KhomThai", "Rejang", "Buhid", "Newa", "Kannada", "Saurashtra", "Javanese", "Tagbanwa", "BatakSima", "TibetanLoCRomanLoC", "SinhalaRomanLoC", "ShanLoCRomanLoC", "SLP1", "WarangCiti", "Velthuis"]

theorem chunkSrc6_one : (chunkSrc6.take 8).all srcEvery = true := by decide +kernel
theorem chunkSrc6_two : (chunkSrc6.drop 8).all srcEvery = true := by decide +kernel

theorem chunkSrc6_ok : chunkSrc6.all srcEvery = true := by
  rw [← List.take_append_drop 8 chunkSrc6, List.all_append, chunkSrc6_one, chunkSrc6_two]; rfl

end Verif
