import Verif.Lib.PlainChecks

/-! Per-script checks, source scripts, part 3.  Generated by tools/genchecks.py. -/

namespace Verif

set_option maxRecDepth 1000000
set_option Elab.async false

def chunkSrc3 : List PyStr := us!["LimbuLoC", "Kawi", "GunjalaGondi", "Shan", "Mahajani", "Khudawadi", "Kaithi", "Gurmukhi", "Khmer", "Lepcha", "LaoPali", "Lao", "JavaneseRomanLoC", "DevanagariRomanLoC", "BarahaNorth", "Ariyaka", "IAST", "Santali"]

theorem chunkSrc3_one : (chunkSrc3.take 9).all srcEvery = true := by decide +kernel
theorem chunkSrc3_two : (chunkSrc3.drop 9).all srcEvery = true := by decide +kernel

theorem chunkSrc3_ok : chunkSrc3.all srcEvery = true := by
  rw [← List.take_append_drop 9 chunkSrc3, List.all_append, chunkSrc3_one, chunkSrc3_two]; rfl

end Verif
