import Verif.Lib.PlainChecks

/-! Per-script checks, source scripts, part 5.  Generated by tools/genchecks.py. -/

namespace Verif

set_option maxRecDepth 1000000
set_option Elab.async false

def chunkSrc5 : List PyStr := us!["KhmerLoC", "LaoTham", "Dogra", "ZanabazarSquare", "Hanunoo", "Sharada", "Telugu", "Assamese", "Balinese", "Tagalog", "BatakPakpak", "GurmukhiLoCRomanLoC", "TeluguRomanLoC", "KhmerLoCRomanLoC", "Mongolian", "Aksharaa", "Titus"]

theorem chunkSrc5_one : (chunkSrc5.take 8).all srcEvery = true := by decide +kernel
theorem chunkSrc5_two : (chunkSrc5.drop 8).all srcEvery = true := by decide +kernel

theorem chunkSrc5_ok : chunkSrc5.all srcEvery = true := by
  rw [← List.take_append_drop 8 chunkSrc5, List.all_append, chunkSrc5_one, chunkSrc5_two]; rfl

end Verif
