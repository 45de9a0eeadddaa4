import Verif.Lib.PlainChecks

/-! Per-script checks, source scripts, part 4.  Generated by tools/genchecks.py. -/

namespace Verif

set_option maxRecDepth 1000000
set_option Elab.async false

def chunkSrc4 : List PyStr := us!["ThamLoC", "Pallava", "Soyombo", "Ranjana", "Lao2", "Bhaiksuki", "Kharoshthi", "Tamil", "Burmese", "Sundanese", "BatakKaro", "Brahmi", "KannadaRomanLoC", "ThamLoCRomanLoC", "BarahaSouth", "RomanReadable", "HK", "RussianCyrillic"]

theorem chunkSrc4_one : (chunkSrc4.take 9).all srcEvery = true := by decide +kernel
theorem chunkSrc4_two : (chunkSrc4.drop 9).all srcEvery = true := by decide +kernel

theorem chunkSrc4_ok : chunkSrc4.all srcEvery = true := by
  rw [← List.take_append_drop 9 chunkSrc4, List.all_append, chunkSrc4_one, chunkSrc4_two]; rfl

end Verif
