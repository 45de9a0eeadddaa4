import Verif.Model.Sec

/-!
# Letter tables as written in /repo/aksharamukha/ScriptMap

Generated by tools/gentables.py.
-/

namespace Verif.Base

/-- ScriptMap/Roman/BarahaNorth.py -/
def BarahaNorth : Tbl where
  VowelMap := us!["a", "aa", "i", "ee", "u", "oo", "Ru", "RU", "~lu", "~lU", "e", "ai", "o", "au"]
  SouthVowelMap := us!["E", "O"]
  ModernVowelMap := us!["~e", "~o"]
  SinhalaVowelMap := us!["~~e"]
  VowelSignMap := us!["aa", "i", "ee", "u", "oo", "Ru", "RU", "~lu", "~lU", "e", "ai", "o", "au"]
  SouthVowelSignMap := us!["E", "O"]
  ModernVowelSignMap := us!["~e", "~o"]
  SinhalaVowelSignMap := us!["~~e"]
  ViramaMap := us!["×"]
  AyogavahaMap := us!["~M", "M", "H"]
  NuktaMap := us!["x"]
  ConsonantMap := us!["k", "kh", "g", "gh", "~g", "c", "C", "j", "jh", "~j", "T", "Th", "D", "Dh", "N", "t", "th", "d", "dh", "n", "p", "ph", "b", "bh", "m", "y", "r", "l", "v", "S", "Sh", "s", "h"]
  SouthConsonantMap := us!["L", "Lx", "rx", "nx"]
  NuktaConsonantMap := us!["kx", "Kx", "gx", "z", "Dx", "Dhx", "f", "yx"]
  SinhalaConsonantMap := us!["~ng", "~nj", "~nD", "~nd", "~mb"]
  SignMap := us!["&", "|", "||"]
  NumeralMap := us!["0", "1", "2", "3", "4", "5", "6", "7", "8", "9"]
  Aytham := us!["~H"]
  OmMap := us!["oum"]

/-- ScriptMap/Roman/BarahaSouth.py -/
def BarahaSouth : Tbl where
  VowelMap := us!["a", "aa", "i", "ee", "u", "oo", "Ru", "RU", "~lu", "~lU", "E", "ai", "O", "au"]
  SouthVowelMap := us!["e", "o"]
  ModernVowelMap := us!["~e", "~o"]
  SinhalaVowelMap := us!["~~e"]
  VowelSignMap := us!["aa", "i", "ee", "u", "oo", "Ru", "RU", "~lu", "~lU", "E", "ai", "O", "au"]
  SouthVowelSignMap := us!["e", "o"]
  ModernVowelSignMap := us!["~e", "~o"]
  SinhalaVowelSignMap := us!["~~e"]
  ViramaMap := us!["×"]
  AyogavahaMap := us!["~M", "M", "H"]
  NuktaMap := us!["x"]
  ConsonantMap := us!["k", "kh", "g", "gh", "~g", "c", "C", "j", "jh", "~j", "T", "Th", "D", "Dh", "N", "t", "th", "d", "dh", "n", "p", "ph", "b", "bh", "m", "y", "r", "l", "v", "S", "Sh", "s", "h"]
  SouthConsonantMap := us!["L", "Lx", "rx", "nx"]
  NuktaConsonantMap := us!["kx", "Kx", "gx", "z", "Dx", "Dhx", "f", "yx"]
  SinhalaConsonantMap := us!["~ng", "~nj", "~nD", "~nd", "~mb"]
  SignMap := us!["&", "|", "||"]
  NumeralMap := us!["0", "1", "2", "3", "4", "5", "6", "7", "8", "9"]
  Aytham := us!["~H"]
  OmMap := us!["oum"]

/-- ScriptMap/Roman/BengaliRomanLoC.py -/
def BengaliRomanLoC : Tbl where
  VowelMap := us!["a", "ā", "i", "ī", "u", "ū", "r̥", "r̥̄", "l̥", "l̥̄", "e", "ai", "o", "au"]
  SouthVowelMap := us!["ĕ", "ŏ"]
  ModernVowelMap := us!["æ", "ô"]
  SinhalaVowelMap := us!["ǣ"]
  VowelSignMap := us!["ā", "i", "ī", "u", "ū", "r̥", "r̥̄", "l̥", "l̥̄", "e", "ai", "o", "au"]
  SouthVowelSignMap := us!["ĕ", "ŏ"]
  ModernVowelSignMap := us!["æ", "ô"]
  SinhalaVowelSignMap := us!["ǣ"]
  ViramaMap := us!["×"]
  AyogavahaMap := us!["m̐", "ṃ", "ḥ"]
  NuktaMap := us!["̈"]
  ConsonantMap := us!["k", "kh", "g", "gh", "ṅ", "c", "ch", "j", "jh", "ñ", "ṭ", "ṭh", "ḍ", "ḍh", "ṇ", "t", "th", "d", "dh", "n", "p", "ph", "b", "bh", "m", "y", "r", "l", "v", "ś", "sh", "s", "h"]
  SouthConsonantMap := us!["ḷ", "ḻ", "ṟ", "ṉ"]
  NuktaConsonantMap := us!["q", "k͟h", "ġ", "z", "ṛ", "ṛh", "f", "ẏ"]
  SinhalaConsonantMap := us!["n̆g", "n̆j", "n̆ḍ", "n̆d", "m̆b"]
  SignMap := us!["’", ".", ".."]
  NumeralMap := us!["0", "1", "2", "3", "4", "5", "6", "7", "8", "9"]
  Aytham := us!["ḵ"]
  OmMap := us!["ōṃ"]

/-- ScriptMap/Roman/BurmeseRomanLoC.py -/
def BurmeseRomanLoC : Tbl where
  VowelMap := us!["a", "ā", "i", "ī", "u", "ū", "ṛ", "ṝ", "l̤", "l̤̄", "e", "ai", "o", "au"]
  SouthVowelMap := us!["ĕ", "ŏ"]
  ModernVowelMap := us!["æ", "ô"]
  SinhalaVowelMap := us!["ǣ"]
  VowelSignMap := us!["ā", "i", "ī", "u", "ū", "ṛ", "ṝ", "l̤", "l̤̄", "e", "ai", "o", "au"]
  SouthVowelSignMap := us!["ĕ", "ŏ"]
  ModernVowelSignMap := us!["æ", "ô"]
  SinhalaVowelSignMap := us!["ǣ"]
  ViramaMap := us!["×"]
  AyogavahaMap := us!["m̐", "ṃ", "ḥ"]
  NuktaMap := us!["̈"]
  ConsonantMap := us!["k", "kh", "g", "gh", "ṅ", "c", "ch", "j", "jh", "ñ", "ṭ", "ṭh", "ḍ", "ḍh", "ṇ", "t", "th", "d", "dh", "n", "p", "ph", "b", "bh", "m", "y", "r", "l", "v", "ś", "ṣ", "s", "h"]
  SouthConsonantMap := us!["ḷ", "ḻ", "ṟ", "ṉ"]
  NuktaConsonantMap := us!["q", "k͟h", "ġ", "z", "r̤", "r̤h", "f", "ẏ"]
  SinhalaConsonantMap := us!["n̆g", "n̆j", "n̆ḍ", "n̆d", "m̆b"]
  SignMap := us!["'", ".", ".."]
  NumeralMap := us!["0", "1", "2", "3", "4", "5", "6", "7", "8", "9"]
  Aytham := us!["ḵ"]
  OmMap := us!["oṃ"]

/-- ScriptMap/Roman/DevanagariRomanLoC.py -/
def DevanagariRomanLoC : Tbl where
  VowelMap := us!["a", "ā", "i", "ī", "u", "ū", "r̥", "r̥̄", "l̥", "l̥̄", "e", "ai", "o", "au"]
  SouthVowelMap := us!["ĕ", "ŏ"]
  ModernVowelMap := us!["ê", "ô"]
  SinhalaVowelMap := us!["ǣ"]
  VowelSignMap := us!["ā", "i", "ī", "u", "ū", "r̥", "r̥̄", "l̥", "l̥̄", "e", "ai", "o", "au"]
  SouthVowelSignMap := us!["ĕ", "ŏ"]
  ModernVowelSignMap := us!["ê", "ô"]
  SinhalaVowelSignMap := us!["ǣ"]
  ViramaMap := us!["×"]
  AyogavahaMap := us!["m̐", "ṃ", "ḥ"]
  NuktaMap := us!["̈"]
  ConsonantMap := us!["k", "kh", "g", "gh", "ṅ", "c", "ch", "j", "jh", "ñ", "ṭ", "ṭh", "ḍ", "ḍh", "ṇ", "t", "th", "d", "dh", "n", "p", "ph", "b", "bh", "m", "y", "r", "l", "v", "ś", "ṣ", "s", "h"]
  SouthConsonantMap := us!["ḻ", "l̳", "ṟ", "ṉ"]
  NuktaConsonantMap := us!["q", "k͟h", "g͟h", "z", "ṛ", "ṛh", "f", "ẏ"]
  SinhalaConsonantMap := us!["n̆g", "n̆j", "n̆ḍ", "n̆d", "m̆b"]
  SignMap := us!["’", ".", ".."]
  NumeralMap := us!["0", "1", "2", "3", "4", "5", "6", "7", "8", "9"]
  Aytham := us!["ḵ"]
  OmMap := us!["oṃ"]

/-- ScriptMap/Roman/GujaratiRomanLoC.py -/
def GujaratiRomanLoC : Tbl where
  VowelMap := us!["a", "ā", "i", "ī", "u", "ū", "r̥", "r̥̄", "l̥", "l̥̄", "e", "ai", "o", "au"]
  SouthVowelMap := us!["ĕ", "ŏ"]
  ModernVowelMap := us!["ê", "ô"]
  SinhalaVowelMap := us!["ǣ"]
  VowelSignMap := us!["ā", "i", "ī", "u", "ū", "r̥", "r̥̄", "l̥", "l̥̄", "e", "ai", "o", "au"]
  SouthVowelSignMap := us!["ĕ", "ŏ"]
  ModernVowelSignMap := us!["ê", "ô"]
  SinhalaVowelSignMap := us!["ǣ"]
  ViramaMap := us!["×"]
  AyogavahaMap := us!["m̐", "ṃ", "ḥ"]
  NuktaMap := us!["̈"]
  ConsonantMap := us!["k", "kh", "g", "gh", "ṅ", "c", "ch", "j", "jh", "ñ", "ṭ", "ṭh", "ḍ", "ḍh", "ṇ", "t", "th", "d", "dh", "n", "p", "ph", "b", "bh", "m", "y", "r", "l", "v", "ś", "sh", "s", "h"]
  SouthConsonantMap := us!["ḷ", "ḻ", "ṟ", "ṉ"]
  NuktaConsonantMap := us!["q", "k͟h", "g͟h", "z", "ṛ", "ṛh", "f", "ẏ"]
  SinhalaConsonantMap := us!["n̆g", "n̆j", "n̆ḍ", "n̆d", "m̆b"]
  SignMap := us!["’", ".", ".."]
  NumeralMap := us!["0", "1", "2", "3", "4", "5", "6", "7", "8", "9"]
  Aytham := us!["ḵ"]
  OmMap := us!["oṃ"]

/-- ScriptMap/Roman/GurmukhiLoCRomanLoC.py -/
def GurmukhiLoCRomanLoC : Tbl where
  VowelMap := us!["a", "ā", "i", "ī", "u", "ū", "r̥", "r̥̄", "l̥", "l̥̄", "e", "ai", "o", "au"]
  SouthVowelMap := us!["ĕ", "ŏ"]
  ModernVowelMap := us!["ê", "ô"]
  SinhalaVowelMap := us!["ǣ"]
  VowelSignMap := us!["ā", "i", "ī", "u", "ū", "r̥", "r̥̄", "l̥", "l̥̄", "e", "ai", "o", "au"]
  SouthVowelSignMap := us!["ĕ", "ŏ"]
  ModernVowelSignMap := us!["ê", "ô"]
  SinhalaVowelSignMap := us!["ǣ"]
  ViramaMap := us!["×"]
  AyogavahaMap := us!["m̆", "ṃ", "ḥ"]
  NuktaMap := us!["̈"]
  ConsonantMap := us!["k", "kh", "g", "gh", "ṅ", "c", "ch", "j", "jh", "ñ", "ṭ", "ṭh", "ḍ", "ḍh", "ṇ", "t", "th", "d", "dh", "n", "p", "ph", "b", "bh", "m", "y", "r", "l", "w", "sh", "ṣ", "s", "h"]
  SouthConsonantMap := us!["ḷ", "l̳", "ṟ", "ṉ"]
  NuktaConsonantMap := us!["q", "k͟h", "g͟h", "z", "ṛ", "ṛh", "f", "ẏ"]
  SinhalaConsonantMap := us!["n̆g", "n̆j", "n̆ḍ", "n̆d", "m̆b"]
  SignMap := us!["’", ".", ".."]
  NumeralMap := us!["0", "1", "2", "3", "4", "5", "6", "7", "8", "9"]
  Aytham := us!["ḵ"]
  OmMap := us!["oṁ"]

/-- ScriptMap/Roman/HK.py -/
def HK : Tbl where
  VowelMap := us!["a", "A", "i", "I", "u", "U", "R", "RR", "lR", "lRR", "e", "ai", "o", "au"]
  SouthVowelMap := us!["E", "O"]
  ModernVowelMap := us!["aE", "aO"]
  SinhalaVowelMap := us!["AE"]
  VowelSignMap := us!["A", "i", "I", "u", "U", "R", "RR", "lR", "lRR", "e", "ai", "o", "au"]
  SouthVowelSignMap := us!["E", "O"]
  ModernVowelSignMap := us!["aE", "aO"]
  SinhalaVowelSignMap := us!["AE"]
  ViramaMap := us!["×"]
  AyogavahaMap := us!["~", "M", "H"]
  NuktaMap := us!["Q"]
  ConsonantMap := us!["k", "kh", "g", "gh", "G", "c", "ch", "j", "jh", "J", "T", "Th", "D", "Dh", "N", "t", "th", "d", "dh", "n", "p", "ph", "b", "bh", "m", "y", "r", "l", "v", "z", "S", "s", "h"]
  SouthConsonantMap := us!["L", "Z", "r2", "n2"]
  NuktaConsonantMap := us!["q", "qh", "g2", "z2", "r3", "r3h", "f", "Y"]
  SinhalaConsonantMap := us!["n*g", "n*j", "n*D", "n*d", "m*b"]
  SignMap := us!["'", ".", ".."]
  NumeralMap := us!["0", "1", "2", "3", "4", "5", "6", "7", "8", "9"]
  Aytham := us!["K"]
  OmMap := us!["oM"]

/-- ScriptMap/Roman/HanifiRohingya.py -/
def HanifiRohingya : Tbl where
  VowelMap := us!["𐴝", "𐴝𐴤", "𐴞", "𐴞𐴤", "𐴟", "𐴟𐴤", "𐴌𐴟ʽ", "𐴌𐴟𐴤ʽ", "𐴓𐴟ʽ", "𐴓𐴟𐴤ʽ", "𐴠𐴤", "𐴝𐴙", "𐴡𐴤", "𐴝𐴗"]
  SouthVowelMap := us!["𐴠", "𐴡"]
  ModernVowelMap := us!["𐴠ʽ", "𐴝𐴤ʽ"]
  SinhalaVowelMap := us!["𐴠𐴤ʽ"]
  VowelSignMap := us!["𐴝𐴤", "𐴞", "𐴞𐴤", "𐴟", "𐴟𐴤", "𐴌𐴟ʽ", "𐴌𐴟𐴤ʽ", "𐴓𐴟ʽ", "𐴓𐴟𐴤ʽ", "𐴠𐴤", "𐴝𐴙", "𐴡𐴤", "𐴝𐴗"]
  SouthVowelSignMap := us!["𐴠", "𐴡"]
  ModernVowelSignMap := us!["𐴠ʽ", "𐴝𐴤ʽ"]
  SinhalaVowelSignMap := us!["𐴠𐴤ʽ"]
  ViramaMap := us!["×"]
  AyogavahaMap := us!["𐴣ʽ", "𐴣", "𐴇ʽ"]
  NuktaMap := us!["ʾ"]
  ConsonantMap := us!["𐴑", "𐴑ʽ", "𐴒", "𐴒ʽ", "𐴚", "𐴆", "𐴆ʽ", "𐴅", "𐴅ʽ", "𐴛", "𐴄", "𐴄ʽ", "𐴋", "𐴋ʽ", "𐴕ʽ", "𐴃", "𐴃ʽ", "𐴊", "𐴊ʽ", "𐴕", "𐴂", "𐴂ʽ", "𐴁", "𐴁ʽ", "𐴔", "𐴘", "𐴌", "𐴓", "𐴖", "𐴐", "𐴐ʽ", "𐴏", "𐴇"]
  SouthConsonantMap := us!["𐴓ʽ", "𐴓ʽ", "𐴌ʽ", "𐴕ʽ"]
  NuktaConsonantMap := us!["𐴑ʽ", "𐴈", "𐴒ʽ", "𐴎", "𐴍", "𐴍ʽ", "𐴉", "𐴘ʽ"]
  SinhalaConsonantMap := us!["𐴣𐴒ʽ", "𐴣𐴅ʽ", "𐴣𐴋ʽ", "𐴣𐴊ʽ", "𐴣𐴁ʽ"]
  SignMap := us!["ʽʽ", "۔", "۔۔"]
  NumeralMap := us!["𐴰", "𐴱", "𐴲", "𐴳", "𐴴", "𐴵", "𐴶", "𐴷", "𐴸", "𐴹"]
  Aytham := us!["𐴈ʽ"]
  OmMap := us!["𐴀𐴡𐴴𐴔"]

/-- ScriptMap/Roman/IAST.py -/
def IAST : Tbl where
  VowelMap := us!["a", "ā", "i", "ī", "u", "ū", "ṛ", "ṝ", "ḷ", "ḹ", "e", "ai", "o", "au"]
  SouthVowelMap := us!["ĕ", "ŏ"]
  ModernVowelMap := us!["æ", "ô"]
  SinhalaVowelMap := us!["ǣ"]
  VowelSignMap := us!["ā", "i", "ī", "u", "ū", "ṛ", "ṝ", "ḷ", "ḹ", "e", "ai", "o", "au"]
  SouthVowelSignMap := us!["ĕ", "ŏ"]
  ModernVowelSignMap := us!["æ", "ô"]
  SinhalaVowelSignMap := us!["ǣ"]
  ViramaMap := us!["×"]
  AyogavahaMap := us!["m̐", "ṃ", "ḥ"]
  NuktaMap := us!["̈"]
  ConsonantMap := us!["k", "kh", "g", "gh", "ṅ", "c", "ch", "j", "jh", "ñ", "ṭ", "ṭh", "ḍ", "ḍh", "ṇ", "t", "th", "d", "dh", "n", "p", "ph", "b", "bh", "m", "y", "r", "l", "v", "ś", "ṣ", "s", "h"]
  SouthConsonantMap := us!["l̤", "ḻ", "ṟ", "ṉ"]
  NuktaConsonantMap := us!["q", "k͟h", "ġ", "z", "r̤", "r̤h", "f", "ẏ"]
  SinhalaConsonantMap := us!["n̆g", "n̆j", "n̆ḍ", "n̆d", "m̆b"]
  SignMap := us!["'", ".", ".."]
  NumeralMap := us!["0", "1", "2", "3", "4", "5", "6", "7", "8", "9"]
  Aytham := us!["ḵ"]
  OmMap := us!["oṃ"]

/-- ScriptMap/Roman/IASTPali.py -/
def IASTPali : Tbl where
  VowelMap := us!["a", "ā", "i", "ī", "u", "ū", "ṛ", "ṝ", "l̤", "l̤̄", "e", "ai", "o", "au"]
  SouthVowelMap := us!["ĕ", "ŏ"]
  ModernVowelMap := us!["æ", "ô"]
  SinhalaVowelMap := us!["ǣ"]
  VowelSignMap := us!["ā", "i", "ī", "u", "ū", "ṛ", "ṝ", "l̤", "l̤̄", "e", "ai", "o", "au"]
  SouthVowelSignMap := us!["ĕ", "ŏ"]
  ModernVowelSignMap := us!["æ", "ô"]
  SinhalaVowelSignMap := us!["ǣ"]
  ViramaMap := us!["×"]
  AyogavahaMap := us!["m̐", "ṃ", "ḥ"]
  NuktaMap := us!["̈"]
  ConsonantMap := us!["k", "kh", "g", "gh", "ṅ", "c", "ch", "j", "jh", "ñ", "ṭ", "ṭh", "ḍ", "ḍh", "ṇ", "t", "th", "d", "dh", "n", "p", "ph", "b", "bh", "m", "y", "r", "l", "v", "ś", "ṣ", "s", "h"]
  SouthConsonantMap := us!["ḷ", "ḻ", "ṟ", "ṉ"]
  NuktaConsonantMap := us!["q", "k͟h", "ġ", "z", "r̤", "r̤h", "f", "ẏ"]
  SinhalaConsonantMap := us!["n̆g", "n̆j", "n̆ḍ", "n̆d", "m̆b"]
  SignMap := us!["'ʽ", ".", ".."]
  NumeralMap := us!["0", "1", "2", "3", "4", "5", "6", "7", "8", "9"]
  Aytham := us!["ḵ"]
  OmMap := us!["oṃ"]

/-- ScriptMap/Roman/IPA.py -/
def IPA : Tbl where
  VowelMap := us!["ə", "ɑː", "ɪ", "iː", "u", "uː", "ɾɨ", "ɾɨː", "lɨ", "lɨː", "eː", "əɪ", "oː", "əu"]
  SouthVowelMap := us!["e", "o"]
  ModernVowelMap := us!["æ", "ɔ"]
  SinhalaVowelMap := us!["æː"]
  VowelSignMap := us!["ɑː", "ɪ", "iː", "u", "uː", "ɾɨ", "ɾɨː", "lɨ", "lɨː", "eː", "əɪ", "oː", "əu"]
  SouthVowelSignMap := us!["e", "o"]
  ModernVowelSignMap := us!["æ", "ɔ"]
  SinhalaVowelSignMap := us!["æː"]
  ViramaMap := us!["×"]
  AyogavahaMap := us!["̃ʽ", "̃", "h"]
  NuktaMap := us!["̈"]
  ConsonantMap := us!["k", "kʰ", "g", "gʰ", "ŋ", "t͡ʃ", "t͡ʃʰ", "d͡ʒ", "d͡ʒʰ", "ɲ", "ʈ", "ʈʰ", "ɖ", "ɖʰ", "ɳ", "t̪", "t̪ʰ", "d̪", "d̪ʰ", "n̪", "p", "pʰ", "b", "bʰ", "m", "j", "ɾ", "l", "ʋ", "ʃ", "ʂ", "s̪", "ɦ"]
  SouthConsonantMap := us!["ɭ", "ɻ", "r", "n"]
  NuktaConsonantMap := us!["q", "x", "ɣ", "z", "ɽ", "ɽʰ", "f", "ẏ"]
  SinhalaConsonantMap := us!["ᵑɡ", "ᶮd͡ʒ", "ᶯɖ", "ⁿd", "ᵐb"]
  SignMap := us!["ə̸", ".", ".."]
  NumeralMap := us!["0", "1", "2", "3", "4", "5", "6", "7", "8", "9"]
  Aytham := us!["xʽ"]
  OmMap := us!["oːm"]

/-- ScriptMap/Roman/ISO.py -/
def ISO : Tbl where
  VowelMap := us!["a", "ā", "i", "ī", "u", "ū", "r̥", "r̥̄", "l̥", "l̥̄", "ē", "ai", "ō", "au"]
  SouthVowelMap := us!["e", "o"]
  ModernVowelMap := us!["æ", "ô"]
  SinhalaVowelMap := us!["ǣ"]
  VowelSignMap := us!["ā", "i", "ī", "u", "ū", "r̥", "r̥̄", "l̥", "l̥̄", "ē", "ai", "ō", "au"]
  SouthVowelSignMap := us!["e", "o"]
  ModernVowelSignMap := us!["æ", "ô"]
  SinhalaVowelSignMap := us!["ǣ"]
  ViramaMap := us!["×"]
  AyogavahaMap := us!["m̐", "ṁ", "ḥ"]
  NuktaMap := us!["̈"]
  ConsonantMap := us!["k", "kh", "g", "gh", "ṅ", "c", "ch", "j", "jh", "ñ", "ṭ", "ṭh", "ḍ", "ḍh", "ṇ", "t", "th", "d", "dh", "n", "p", "ph", "b", "bh", "m", "y", "r", "l", "v", "ś", "ṣ", "s", "h"]
  SouthConsonantMap := us!["ḷ", "ḻ", "ṟ", "ṉ"]
  NuktaConsonantMap := us!["q", "k͟h", "ġ", "z", "ṛ", "ṛh", "f", "ẏ"]
  SinhalaConsonantMap := us!["n̆g", "n̆j", "n̆ḍ", "n̆d", "m̆b"]
  SignMap := us!["’", ".", ".."]
  NumeralMap := us!["0", "1", "2", "3", "4", "5", "6", "7", "8", "9"]
  Aytham := us!["ḵ"]
  OmMap := us!["ōṁ"]

/-- ScriptMap/Roman/ISOPali.py -/
def ISOPali : Tbl where
  VowelMap := us!["a", "ā", "i", "ī", "u", "ū", "r̥", "r̥̄", "l̥", "l̥̄", "e", "ai", "o", "au"]
  SouthVowelMap := us!["ĕ", "ŏ"]
  ModernVowelMap := us!["æ", "ô"]
  SinhalaVowelMap := us!["ǣ"]
  VowelSignMap := us!["ā", "i", "ī", "u", "ū", "r̥", "r̥̄", "l̥", "l̥̄", "e", "ai", "o", "au"]
  SouthVowelSignMap := us!["ĕ", "ŏ"]
  ModernVowelSignMap := us!["æ", "ô"]
  SinhalaVowelSignMap := us!["ǣ"]
  ViramaMap := us!["×"]
  AyogavahaMap := us!["m̐", "ṁ", "ḥ"]
  NuktaMap := us!["̈"]
  ConsonantMap := us!["k", "kh", "g", "gh", "ṅ", "c", "ch", "j", "jh", "ñ", "ṭ", "ṭh", "ḍ", "ḍh", "ṇ", "t", "th", "d", "dh", "n", "p", "ph", "b", "bh", "m", "y", "r", "l", "v", "ś", "ṣ", "s", "h"]
  SouthConsonantMap := us!["ḷ", "ḻ", "ṟ", "ṉ"]
  NuktaConsonantMap := us!["q", "k͟h", "ġ", "z", "ṛ", "ṛh", "f", "ẏ"]
  SinhalaConsonantMap := us!["n̆g", "n̆j", "n̆ḍ", "n̆d", "m̆b"]
  SignMap := us!["’ʽ", ".", ".."]
  NumeralMap := us!["0", "1", "2", "3", "4", "5", "6", "7", "8", "9"]
  Aytham := us!["ḵ"]
  OmMap := us!["oṁ"]

/-- ScriptMap/Roman/Inter.py -/
def Inter : Tbl where
  VowelMap := us!["", "", "", "", "", "", "", "", "", "", "", "", "", ""]
  SouthVowelMap := us!["", ""]
  ModernVowelMap := us!["", ""]
  SinhalaVowelMap := us![""]
  VowelSignMap := us!["", "", "", "", "", "", "", "", "", "", "", "", ""]
  SouthVowelSignMap := us!["", ""]
  ModernVowelSignMap := us!["", ""]
  SinhalaVowelSignMap := us![""]
  ViramaMap := us!["×"]
  AyogavahaMap := us!["", "", ""]
  NuktaMap := us![""]
  ConsonantMap := us!["", "", "", "", "", "", "", "", "", "", "", "", "", "", "", "", "", "", "", "", "", "", "", "", "", "", "", "", "", "", "", "", ""]
  SouthConsonantMap := us!["", "", "", ""]
  NuktaConsonantMap := us!["", "", "", "", "", "", "", ""]
  SinhalaConsonantMap := us!["", "", "", "", ""]
  SignMap := us!["", "", ""]
  NumeralMap := us!["", "", "", "", "", "", "", "", "", ""]
  Aytham := us![""]
  OmMap := us![""]

/-- ScriptMap/Roman/Itrans.py -/
def Itrans : Tbl where
  VowelMap := us!["a", "A", "i", "I", "u", "U", "R^i", "R^I", "L^i", "L^I", "e", "ai", "o", "au"]
  SouthVowelMap := us!["^e", "^o"]
  ModernVowelMap := us!["e.c", "A.c"]
  SinhalaVowelMap := us!["a.C"]
  VowelSignMap := us!["A", "i", "I", "u", "U", "R^i", "R^I", "L^i", "L^I", "e", "ai", "o", "au"]
  SouthVowelSignMap := us!["^e", "^o"]
  ModernVowelSignMap := us!["e.c", "A.c"]
  SinhalaVowelSignMap := us!["a.C"]
  ViramaMap := us!["×"]
  AyogavahaMap := us![".N", "M", "H"]
  NuktaMap := us!["Q"]
  ConsonantMap := us!["k", "kh", "g", "gh", "~N", "ch", "Ch", "j", "jh", "~n", "T", "Th", "D", "Dh", "N", "t", "th", "d", "dh", "n", "p", "ph", "b", "bh", "m", "y", "r", "l", "v", "sh", "Sh", "s", "h"]
  SouthConsonantMap := us!["L", "zh", "R", "^n"]
  NuktaConsonantMap := us!["q", "K", "G", "z", ".D", ".Dh", "f", "Y"]
  SinhalaConsonantMap := us!["n*g", "n*j", "n*D", "n*d", "m*b"]
  SignMap := us![".a", ".", ".."]
  NumeralMap := us!["0", "1", "2", "3", "4", "5", "6", "7", "8", "9"]
  Aytham := us!["K^"]
  OmMap := us!["oM"]

/-- ScriptMap/Roman/JavaneseRomanLoC.py -/
def JavaneseRomanLoC : Tbl where
  VowelMap := us!["a", "aʽ", "i", "iʽ", "u", "uʽ", "rĕ", "rĕʽ", "lĕ", "lĕʽ", "e", "eʽ", "o", "oʽ"]
  SouthVowelMap := us!["eʽ", "oʽ"]
  ModernVowelMap := us!["ĕ", "ô"]
  SinhalaVowelMap := us!["ĕ"]
  VowelSignMap := us!["aʽ", "i", "iʽ", "u", "uʽ", "rĕ", "rĕʽ", "lĕ", "lĕʽ", "e", "eʽ", "o", "oʽ"]
  SouthVowelSignMap := us!["eʽ", "oʽ"]
  ModernVowelSignMap := us!["ĕ", "ô"]
  SinhalaVowelSignMap := us!["ĕ"]
  ViramaMap := us!["×"]
  AyogavahaMap := us!["ng", "ng", "h"]
  NuktaMap := us!["̈"]
  ConsonantMap := us!["k", "kh", "g", "gh", "ng", "c", "ch", "j", "jh", "ny", "th", "thh", "dh", "dhh", "ṇ", "t", "th", "d", "dh", "n", "p", "ph", "b", "bh", "m", "y", "r", "l", "w", "ś", "ṣ", "s", "h"]
  SouthConsonantMap := us!["ḷ", "ḻ", "ṟ", "ṉ"]
  NuktaConsonantMap := us!["khʽ", "k͟h", "ghʽ", "z", "ṛ", "ṛh", "f", "ẏ"]
  SinhalaConsonantMap := us!["n̆g", "n̆j", "n̆ḍ", "n̆d", "m̆b"]
  SignMap := us!["’", ".", ".."]
  NumeralMap := us!["0", "1", "2", "3", "4", "5", "6", "7", "8", "9"]
  Aytham := us!["ḵ"]
  OmMap := us!["ōṁ"]

/-- ScriptMap/Roman/JavaneseSimpleRomanLoC.py -/
def JavaneseSimpleRomanLoC : Tbl where
  VowelMap := us!["a", "aʽ", "i", "iʽ", "u", "uʽ", "rĕ", "rĕʽ", "lĕ", "lĕʽ", "e", "eʽ", "o", "oʽ"]
  SouthVowelMap := us!["eʽ", "oʽ"]
  ModernVowelMap := us!["ĕ", "ô"]
  SinhalaVowelMap := us!["ĕ"]
  VowelSignMap := us!["aʽ", "i", "iʽ", "u", "uʽ", "rĕ", "rĕʽ", "lĕ", "lĕʽ", "e", "eʽ", "o", "oʽ"]
  SouthVowelSignMap := us!["eʽ", "oʽ"]
  ModernVowelSignMap := us!["ĕ", "ô"]
  SinhalaVowelSignMap := us!["ĕ"]
  ViramaMap := us!["×"]
  AyogavahaMap := us!["ng", "ng", "h"]
  NuktaMap := us!["̈"]
  ConsonantMap := us!["k", "kʽ", "g", "gʽ", "ng", "c", "cʽ", "j", "jʽ", "ny", "th", "thʽ", "dh", "dhʽ", "n", "t", "tʽ", "d", "dʽ", "n", "p", "pʽ", "b", "bʽ", "m", "y", "r", "l", "w", "sʽ", "sʽ", "s", "h"]
  SouthConsonantMap := us!["ḷ", "ḻ", "ṟ", "ṉ"]
  NuktaConsonantMap := us!["khʽ", "k͟h", "ghʽ", "z", "ṛ", "ṛh", "f", "ẏ"]
  SinhalaConsonantMap := us!["n̆g", "n̆j", "n̆ḍ", "n̆d", "m̆b"]
  SignMap := us!["’", ".", ".."]
  NumeralMap := us!["0", "1", "2", "3", "4", "5", "6", "7", "8", "9"]
  Aytham := us!["ḵ"]
  OmMap := us!["ōṁ"]

/-- ScriptMap/Roman/KannadaRomanLoC.py -/
def KannadaRomanLoC : Tbl where
  VowelMap := us!["a", "ā", "i", "ī", "u", "ū", "r̥", "r̥̄", "l̥", "l̥̄", "ē", "ai", "ō", "au"]
  SouthVowelMap := us!["e", "o"]
  ModernVowelMap := us!["æ", "ô"]
  SinhalaVowelMap := us!["ǣ"]
  VowelSignMap := us!["ā", "i", "ī", "u", "ū", "r̥", "r̥̄", "l̥", "l̥̄", "ē", "ai", "ō", "au"]
  SouthVowelSignMap := us!["e", "o"]
  ModernVowelSignMap := us!["æ", "ô"]
  SinhalaVowelSignMap := us!["ǣ"]
  ViramaMap := us!["×"]
  AyogavahaMap := us!["m̐", "ṃ", "ḥ"]
  NuktaMap := us!["̈"]
  ConsonantMap := us!["k", "kh", "g", "gh", "ṅ", "c", "ch", "j", "jh", "ñ", "ṭ", "ṭh", "ḍ", "ḍh", "ṇ", "t", "th", "d", "dh", "n", "p", "ph", "b", "bh", "m", "y", "r", "l", "v", "ś", "ṣ", "s", "h"]
  SouthConsonantMap := us!["ḷ", "l̤", "ṟ", "ṉ"]
  NuktaConsonantMap := us!["q", "k͟h", "ġ", "z", "ṛ", "ṛh", "f", "ẏ"]
  SinhalaConsonantMap := us!["n̆g", "n̆j", "n̆ḍ", "n̆d", "m̆b"]
  SignMap := us!["’", ".", ".."]
  NumeralMap := us!["0", "1", "2", "3", "4", "5", "6", "7", "8", "9"]
  Aytham := us!["ḵ"]
  OmMap := us!["ōṁ"]

/-- ScriptMap/Roman/KhmerLoCRomanLoC.py -/
def KhmerLoCRomanLoC : Tbl where
  VowelMap := us!["a", "ā", "i", "ī", "u", "ū", "ṛ", "ṝ", "ḷʽ", "ḹ", "e", "ai", "o", "au"]
  SouthVowelMap := us!["ĕ", "ŏ"]
  ModernVowelMap := us!["ae", "ô"]
  SinhalaVowelMap := us!["ǣ"]
  VowelSignMap := us!["ā", "i", "ī", "u", "ū", "ṛ", "ṝ", "ḷʽ", "ḹ", "e", "ai", "o", "au"]
  SouthVowelSignMap := us!["ĕ", "ŏ"]
  ModernVowelSignMap := us!["ae", "ô"]
  SinhalaVowelSignMap := us!["ǣ"]
  ViramaMap := us!["×"]
  AyogavahaMap := us!["m̐", "ṃ", "ḥ"]
  NuktaMap := us!["̈"]
  ConsonantMap := us!["k", "kh", "g", "gh", "ṅ", "c", "ch", "j", "jh", "ñ", "ṭ", "ṭh", "ḍ", "ḍh", "ṇ", "t", "th", "d", "dh", "n", "p", "ph", "b", "bh", "m", "y", "r", "l", "v", "ś", "ṣ", "s", "h"]
  SouthConsonantMap := us!["ḷ", "ḻ", "ṟ", "ṉ"]
  NuktaConsonantMap := us!["q", "k͟h", "ġ", "z", "r̤", "r̤h", "f", "ẏʽ"]
  SinhalaConsonantMap := us!["n̆g", "n̆j", "n̆ḍ", "n̆d", "m̆b"]
  SignMap := us!["'", ".", ".ʽ"]
  NumeralMap := us!["0", "1", "2", "3", "4", "5", "6", "7", "8", "9"]
  Aytham := us!["ḵ"]
  OmMap := us!["oṃ"]

/-- ScriptMap/Roman/LimbuLoCRomanLoC.py -/
def LimbuLoCRomanLoC : Tbl where
  VowelMap := us!["a", "ā", "i", "ī", "u", "ū", "ṛ", "ṝ", "ḷ", "ḹ", "e", "ai", "o", "au"]
  SouthVowelMap := us!["ĕ", "ŏ"]
  ModernVowelMap := us!["æ", "ô"]
  SinhalaVowelMap := us!["ǣ"]
  VowelSignMap := us!["ā", "i", "ī", "u", "ū", "ṛ", "ṝ", "ḷ", "ḹ", "e", "ai", "o", "au"]
  SouthVowelSignMap := us!["ĕ", "ŏ"]
  ModernVowelSignMap := us!["æ", "ô"]
  SinhalaVowelSignMap := us!["ǣ"]
  ViramaMap := us!["×"]
  AyogavahaMap := us!["m̐", "ṃ", "ḥ"]
  NuktaMap := us!["̈"]
  ConsonantMap := us!["k", "kh", "g", "gh", "ṅ", "c", "ch", "j", "jh", "ñ", "ṭ", "ṭh", "ḍ", "ḍh", "ṇ", "t", "th", "d", "dh", "n", "p", "ph", "b", "bh", "m", "y", "r", "l", "v", "ś", "ṣ", "s", "h"]
  SouthConsonantMap := us!["l̤", "ḻ", "ṟ", "ṉ"]
  NuktaConsonantMap := us!["q", "k͟h", "ġ", "z", "r̤", "r̤h", "f", "ẏ"]
  SinhalaConsonantMap := us!["n̆g", "n̆j", "n̆ḍ", "n̆d", "m̆b"]
  SignMap := us!["’", ".", ".."]
  NumeralMap := us!["0", "1", "2", "3", "4", "5", "6", "7", "8", "9"]
  Aytham := us!["ḵ"]
  OmMap := us!["oṃ"]

/-- ScriptMap/Roman/Mongolian.py -/
def Mongolian : Tbl where
  VowelMap := us!["ᠠ᠋", "ᠠ᠋᠎ᠠ", "ᢈ", "ᠢᠢ", "ᠦ", "ᠤᠦ", "ᠷᠢ", "ᠷᠢᠢ", "ᠯᠢ", "ᠯᠢᠢ", "ᠧ", "ᠧʼᠧ", "ᠣᠸᠠ", "ᠣᠸᠸᠠ"]
  SouthVowelMap := us!["ᠧʽ", "ᠣᠸᠠʽ"]
  ModernVowelMap := us!["ᠣᠸᠠʽ", "ᠠʽ"]
  SinhalaVowelMap := us!["ᠣᠸᠠʽ"]
  VowelSignMap := us!["ᠠ᠋᠎ᠠ", "ᢈ", "ᠢᠢ", "ᠦ", "ᠤᠦ", "ᠷᠢ", "ᠷᠢᠢ", "ᠯᠢ", "ᠯᠢᠢ", "ᠧ", "ᠧʼᠧ", "ᠣᠸᠠ", "ᠣᠸᠸᠠ"]
  SouthVowelSignMap := us!["ᠧʽ", "ᠣᠸᠠʽ"]
  ModernVowelSignMap := us!["ᠣᠸᠠʽ", "ᠠʽ"]
  SinhalaVowelSignMap := us!["ᠣᠸᠠʽ"]
  ViramaMap := us!["×"]
  AyogavahaMap := us!["ᢀʽ", "ᢀ", "ᢁ"]
  NuktaMap := us!["ʽʽ"]
  ConsonantMap := us!["ᢉ", "ᠻ", "ᠺ", "ᠺᠾ", "ᢊ", "ᢋ", "ᠼ", "ᢖ", "ᢖᠾ", "ᡛ", "ᢌ", "ᢍ", "ᢎ", "ᢎᠾ", "ᢏ", "ᢐ", "ᠲ", "ᢑ", "ᢑᠾ", "ᠨ", "ᢒ", "ᠹ", "ᠪ", "ᠪᠾ", "ᠮ", "ᠶ", "ᠷ", "ᠯ", "ᠸ", "ᠱ", "ᢔ", "ᠰ", "ᡙ"]
  SouthConsonantMap := us!["ᠯʽ", "ᠯʽ", "ᠷʽ", "ᠨʽ"]
  NuktaConsonantMap := us!["ᢉʽ", "ᠻʽ", "ᠺʽ", "ᢖ", "ᢎʽ", "ᢎᠾʽ", "ᠹʽ", "ᠶʽ"]
  SinhalaConsonantMap := us!["ᢀᠺʽ", "ᢀᢖʽ", "ᢀᢎʽ", "ᢀᢑʽ", "ᢀᠪʽ"]
  SignMap := us!["ʽʽʽ", "᠂", "᠂᠂"]
  NumeralMap := us!["᠐", "᠑", "᠒", "᠓", "᠔", "᠕", "᠖", "᠗", "᠘", "᠙"]
  Aytham := us!["ᢁʽ"]
  OmMap := us!["ᢀᠣᠸᠠ"]

/-- ScriptMap/Roman/Mro.py -/
def Mro : Tbl where
  VowelMap := us!["𖩒", "𖩆", "𖩊", "𖩊ʽ", "𖩑ʽ", "𖩑ʽ", "𖩓𖩑ʽ", "𖩓𖩑ʽ", "𖩍𖩑ʽ", "𖩍𖩑ʽ", "𖩘", "𖩆𖩂ʽ", "𖩑", "𖩖"]
  SouthVowelMap := us!["𖩘ʽ", "𖩑ʽ"]
  ModernVowelMap := us!["𖩘ʽ", "𖩝"]
  SinhalaVowelMap := us!["𖩘ʽ"]
  VowelSignMap := us!["𖩆", "𖩊", "𖩊ʽ", "𖩑ʽ", "𖩑ʽ", "𖩓𖩑ʽ", "𖩓𖩑ʽ", "𖩍𖩑ʽ", "𖩍𖩑ʽ", "𖩘", "𖩆𖩂ʽ", "𖩑", "𖩖"]
  SouthVowelSignMap := us!["𖩘ʽ", "𖩑ʽ"]
  ModernVowelSignMap := us!["𖩘ʽ", "𖩝"]
  SinhalaVowelSignMap := us!["𖩘ʽ"]
  ViramaMap := us!["×"]
  AyogavahaMap := us!["𖩃ʽ", "𖩃ʽ", "𖩉ʽ"]
  NuktaMap := us!["ʽʽ"]
  ConsonantMap := us!["𖩌", "𖩈", "𖩌ʽ", "𖩈ʽ", "𖩁", "𖩋", "𖩋ʽ", "𖩋ʽ", "𖩋ʽ", "𖩏ʽ", "𖩀ʽ", "𖩕ʽ", "𖩅ʽ", "𖩅ʽ", "𖩏ʽ", "𖩀", "𖩕", "𖩅", "𖩅ʽ", "𖩏", "𖩐", "𖩇", "𖩄", "𖩄ʽ", "𖩃", "𖩂", "𖩓", "𖩍", "𖩗", "𖩔ʽ", "𖩔ʽ", "𖩔", "𖩉"]
  SouthConsonantMap := us!["𖩍ʽ", "𖩍ʽ", "𖩓ʽ", "𖩏ʽ"]
  NuktaConsonantMap := us!["𖩌ʽ", "𖩈ʽ", "𖩌ʽ", "𖩋ʽ", "𖩅ʽ", "𖩅ʽ", "𖩇ʽ", "𖩂ʽ"]
  SinhalaConsonantMap := us!["𖩁𖩌ʽ", "𖩏𖩋ʽ", "𖩏𖩅ʽ", "𖩏𖩅ʽ", "𖩃𖩄ʽ"]
  SignMap := us!["ʽʽ", "𖩮", "𖩯"]
  NumeralMap := us!["𖩠", "𖩡", "𖩢", "𖩣", "𖩤", "𖩥", "𖩦", "𖩧", "𖩨", "𖩩"]
  Aytham := us!["𖩌ʽ"]
  OmMap := us!["𖩑𖩃"]

/-- ScriptMap/Roman/OriyaRomanLoC.py -/
def OriyaRomanLoC : Tbl where
  VowelMap := us!["a", "ā", "i", "ī", "u", "ū", "r̥", "r̥̄", "l̥", "l̥̄", "e", "ai", "o", "au"]
  SouthVowelMap := us!["ĕ", "ŏ"]
  ModernVowelMap := us!["æ", "ô"]
  SinhalaVowelMap := us!["ǣ"]
  VowelSignMap := us!["ā", "i", "ī", "u", "ū", "r̥", "r̥̄", "l̥", "l̥̄", "e", "ai", "o", "au"]
  SouthVowelSignMap := us!["ĕ", "ŏ"]
  ModernVowelSignMap := us!["æ", "ô"]
  SinhalaVowelSignMap := us!["ǣ"]
  ViramaMap := us!["×"]
  AyogavahaMap := us!["m̐", "ṃ", "ḥ"]
  NuktaMap := us!["̈"]
  ConsonantMap := us!["k", "kh", "g", "gh", "ṅ", "c", "ch", "j", "jh", "ñ", "ṭ", "ṭh", "ḍ", "ḍh", "ṇ", "t", "th", "d", "dh", "n", "p", "ph", "b", "bh", "m", "y", "r", "l", "w", "ś", "sh", "s", "h"]
  SouthConsonantMap := us!["ḷ", "ḻ", "ṟ", "ṉ"]
  NuktaConsonantMap := us!["q", "k͟h", "ġ", "z", "ṛ", "ṛh", "f", "ẏ"]
  SinhalaConsonantMap := us!["n̆g", "n̆j", "n̆ḍ", "n̆d", "m̆b"]
  SignMap := us!["’", ".", ".."]
  NumeralMap := us!["0", "1", "2", "3", "4", "5", "6", "7", "8", "9"]
  Aytham := us!["ḵ"]
  OmMap := us!["oṃ"]

/-- ScriptMap/Roman/RomanColloquial.py -/
def RomanColloquial : Tbl where
  VowelMap := us!["a", "a", "i", "i", "u", "u", "ri", "ri", "li", "li", "e", "ai", "o", "au"]
  SouthVowelMap := us!["e", "o"]
  ModernVowelMap := us!["a", "o"]
  SinhalaVowelMap := us!["e"]
  VowelSignMap := us!["a", "i", "i", "u", "u", "ri", "ri", "li", "li", "e", "ai", "o", "au"]
  SouthVowelSignMap := us!["e", "o"]
  ModernVowelSignMap := us!["a", "o"]
  SinhalaVowelSignMap := us!["e"]
  ViramaMap := us!["×"]
  AyogavahaMap := us!["M", "M", "h"]
  NuktaMap := us!["ʽʽ"]
  ConsonantMap := us!["k", "kh", "g", "gh", "ng", "ch", "chh", "j", "jh", "nj", "t'", "th", "d'", "dh", "n", "t", "th", "d", "dh", "n", "p", "ph", "b", "bh", "m", "y", "r", "l", "v", "sh", "sh", "s", "h"]
  SouthConsonantMap := us!["l", "zh", "r", "n"]
  NuktaConsonantMap := us!["q", "kh", "g", "z", "r'", "r'h", "f", "y"]
  SinhalaConsonantMap := us!["ng", "nj", "nd", "nd", "mb"]
  SignMap := us!["'", ".", ".."]
  NumeralMap := us!["0", "1", "2", "3", "4", "5", "6", "7", "8", "9"]
  Aytham := us!["g"]
  OmMap := us!["Om"]

end Verif.Base
