import Verif.Lib.PlainChecks

/-! Per-script checks, source scripts, part 1.  Generated by tools/genchecks.py. -/

namespace Verif

set_option maxRecDepth 1000000
set_option Elab.async false

def chunkSrc1 : List PyStr := us!["TibetanLoC", "Makasar", "Marchen", "Mon", "Multani", "GranthaPandya", "Tirhuta", "Bengali", "TamilGrantha", "OldPersian", "PhagsPa", "Cham", "BalineseRomanLoC", "BengaliRomanLoC", "ISOPali", "IASTPali", "Avestan", "IPA"]

theorem chunkSrc1_one : (chunkSrc1.take 9).all srcEvery = true := by decide +kernel
theorem chunkSrc1_two : (chunkSrc1.drop 9).all srcEvery = true := by decide +kernel

theorem chunkSrc1_ok : chunkSrc1.all srcEvery = true := by
  rw [← List.take_append_drop 9 chunkSrc1, List.all_append, chunkSrc1_one, chunkSrc1_two]; rfl

end Verif
