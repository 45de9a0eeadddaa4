import Verif.Lib.PlainChecks

/-! Per-script checks, source scripts, part 0.  Generated by tools/genchecks.py. -/

namespace Verif

set_option maxRecDepth 1000000
set_option Elab.async false

def chunkSrc0 : List PyStr := us!["DivesAkuru", "RomanSemitic", "TamilExtended", "TaiLaing", "Devanagari", "SiddhamDevanagari", "SylotiNagri", "Gujarati", "Grantha", "Thai", "Chakma", "BatakManda", "BalineseSimpleRomanLoC", "AssameseRomanLoC", "RomanColloquial", "Mro", "WX-kok", "Inter"]

theorem chunkSrc0_one : (chunkSrc0.take 9).all srcEvery = true := by decide +kernel
theorem chunkSrc0_two : (chunkSrc0.drop 9).all srcEvery = true := by decide +kernel

theorem chunkSrc0_ok : chunkSrc0.all srcEvery = true := by
  rw [← List.take_append_drop 9 chunkSrc0, List.all_append, chunkSrc0_one, chunkSrc0_two]; rfl

end Verif
