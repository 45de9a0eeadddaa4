import Verif.Lib.PlainChecks

/-! Per-script checks, source scripts, part 2.  Generated by tools/genchecks.py. -/

namespace Verif

set_option maxRecDepth 1000000
set_option Elab.async false

def chunkSrc2 : List PyStr := us!["GurmukhiLoC", "Nandinagari", "MasaramGondi", "Khojki", "Ahom", "Vatteluttu", "Modi", "Oriya", "Sinhala", "Limbu", "MeeteiMayek", "TaiTham", "JavaneseSimpleRomanLoC", "GujaratiRomanLoC", "RomanKana", "HanifiRohingya", "ISO", "TolongSiki"]

theorem chunkSrc2_one : (chunkSrc2.take 9).all srcEvery = true := by decide +kernel
theorem chunkSrc2_two : (chunkSrc2.drop 9).all srcEvery = true := by decide +kernel

theorem chunkSrc2_ok : chunkSrc2.all srcEvery = true := by
  rw [← List.take_append_drop 9 chunkSrc2, List.all_append, chunkSrc2_one, chunkSrc2_two]; rfl

end Verif
