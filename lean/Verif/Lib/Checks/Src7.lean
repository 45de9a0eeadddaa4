import Verif.Lib.PlainChecks

/-! Per-script checks, source scripts, part 7.  Generated by tools/genchecks.py. -/

namespace Verif

set_option maxRecDepth 1000000
set_option Elab.async false

def chunkSrc7 : List PyStr := us!["BengaliRaBa", "KhuenTham", "KhamtiShan", "GranthaGrantamil", "Siddham", "Takri", "Malayalam", "TamilBrahmi", "Tibetan", "Buginese", "BatakToba", "LimbuLoCRomanLoC", "OriyaRomanLoC", "BurmeseRomanLoC", "Wancho", "SoraSompeng", "WX"]

theorem chunkSrc7_one : (chunkSrc7.take 8).all srcEvery = true := by decide +kernel
theorem chunkSrc7_two : (chunkSrc7.drop 8).all srcEvery = true := by decide +kernel

theorem chunkSrc7_ok : chunkSrc7.all srcEvery = true := by
  rw [← List.take_append_drop 8 chunkSrc7, List.all_append, chunkSrc7_one, chunkSrc7_two]; rfl

end Verif
