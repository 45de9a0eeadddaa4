import Verif.Model.Sec

/-!
# Letter tables as written in /repo/aksharamukha/ScriptMap

Generated by tools/gentables.py.
-/

namespace Verif.Base

/-- ScriptMap/Roman/RomanKana.py -/
def RomanKana : Tbl where
  VowelMap := us!["a", "aa", "i", "ii", "u", "uu", "ri", "rii", "r゚i", "r゚ii", "ee", "ai", "oo", "au"]
  SouthVowelMap := us!["e", "o"]
  ModernVowelMap := us!["a", "o"]
  SinhalaVowelMap := us!["e"]
  VowelSignMap := us!["aa", "i", "ii", "u", "uu", "ri", "rii", "r゚i", "r゚ii", "ee", "ai", "oo", "au"]
  SouthVowelSignMap := us!["e", "o"]
  ModernVowelSignMap := us!["a", "o"]
  SinhalaVowelSignMap := us!["e"]
  ViramaMap := us!["×"]
  AyogavahaMap := us!["n", "n", "H"]
  NuktaMap := us!["ʽʽ"]
  ConsonantMap := us!["k", "k", "g", "g", "k゚", "c", "c", "j", "j", "J", "t", "t", "d", "d", "n", "t", "t", "d", "d", "n", "p", "p", "b", "b", "m", "y", "r", "r゚", "v", "sh", "sh", "s", "h"]
  SouthConsonantMap := us!["r゚", "r゚", "r", "n"]
  NuktaConsonantMap := us!["k", "k", "g", "z", "r", "r", "f", "y"]
  SinhalaConsonantMap := us!["ng", "nj", "nd", "nd", "nb"]
  SignMap := us!["'", "。", "。。"]
  NumeralMap := us!["0", "1", "2", "3", "4", "5", "6", "7", "8", "9"]
  Aytham := us!["gu"]
  OmMap := us!["oon"]

/-- ScriptMap/Roman/RomanReadable.py -/
def RomanReadable : Tbl where
  VowelMap := us!["a", "aa", "i", "ee", "u", "oo", "ri'", "ree'", "li'", "lee'", "e", "ai", "o", "au"]
  SouthVowelMap := us!["e'", "o'"]
  ModernVowelMap := us!["a", "o"]
  SinhalaVowelMap := us!["e"]
  VowelSignMap := us!["aa", "i", "ee", "u", "oo", "ri'", "ree'", "li'", "lee'", "e", "ai", "o", "au"]
  SouthVowelSignMap := us!["e'", "o'"]
  ModernVowelSignMap := us!["a", "o"]
  SinhalaVowelSignMap := us!["e"]
  ViramaMap := us!["×"]
  AyogavahaMap := us!["M", "M", "h'"]
  NuktaMap := us!["ʽʽ"]
  ConsonantMap := us!["k", "kh", "g", "gh", "ng", "ch", "chh", "j", "jh", "nj", "t'", "t'h", "d'", "d'h", "n", "t", "th", "d", "dh", "n", "p", "ph", "b", "bh", "m", "y", "r", "l", "v", "sh", "sh", "s", "h"]
  SouthConsonantMap := us!["l'", "zh", "r'", "n"]
  NuktaConsonantMap := us!["q", "kh", "g", "z", "r", "rh", "f", "y"]
  SinhalaConsonantMap := us!["ng", "nj", "nd'", "nd", "mb"]
  SignMap := us!["'", ".", ".."]
  NumeralMap := us!["0", "1", "2", "3", "4", "5", "6", "7", "8", "9"]
  Aytham := us!["g"]
  OmMap := us!["om"]

/-- ScriptMap/Roman/RomanSemitic.py -/
def RomanSemitic : Tbl where
  VowelMap := us!["â", "ā̂", "î", "ī̂", "û", "ū̂", "ruʽ", "rūʽ", "luʽ", "lūʽ", "ē̂", "âŷ", "ō̂", "âŵ"]
  SouthVowelMap := us!["ê", "ô"]
  ModernVowelMap := us!["ē̂ʽ", "ā̂ʽ"]
  SinhalaVowelMap := us!["êʽ"]
  VowelSignMap := us!["ā", "i", "ī", "u", "ū", "̽ruʽ", "̽rūʽ", "̽ruʽ", "̽rūʽ", "ē", "aŷ", "ō", "aŵ"]
  SouthVowelSignMap := us!["e", "o"]
  ModernVowelSignMap := us!["eʽ", "āʽ"]
  SinhalaVowelSignMap := us!["ēʽ"]
  ViramaMap := us!["̽"]
  AyogavahaMap := us!["ₘ", "ₘ", "h̽ʽ"]
  NuktaMap := us!["Q"]
  ConsonantMap := us!["k", "kʰ", "g", "gʰ", "nʽ", "č", "čʰ", "j", "jʰ", "ɲ", "ʈ", "ʈʰ", "ɖ", "ɖʰ", "ɳ", "t", "tʰ", "d", "dʰ", "n", "p", "pʰ", "b", "bʰ", "m", "y", "r", "l", "v", "š", "ʂ", "s", "h"]
  SouthConsonantMap := us!["ɭ", "ɭʽ", "rʽ", "nʽ"]
  NuktaConsonantMap := us!["q", "ḫ", "ġ", "z", "ɽ", "ɽʰ", "f", "yʽ"]
  SinhalaConsonantMap := us!["n̽gʽ", "n̽jʽ", "n̽dʽ", "n̽dʽ", "m̽bʽ"]
  SignMap := us!["ʽʽʽʽ", ".", ".."]
  NumeralMap := us!["0", "1", "2", "3", "4", "5", "6", "7", "8", "9"]
  Aytham := us!["h̽ʽ"]
  OmMap := us!["ō̂m̽ʽ"]

/-- ScriptMap/Roman/RussianCyrillic.py -/
def RussianCyrillic : Tbl where
  VowelMap := us!["а", "а̄", "и", "ӣ", "у", "ӯ", "р̣", "р̣̄", "л̣", "л̣̄", "э", "аи", "о", "ау"]
  SouthVowelMap := us!["э̆", "о̆"]
  ModernVowelMap := us!["ӕ", "о̂"]
  SinhalaVowelMap := us!["ӕ̄"]
  VowelSignMap := us!["а̄", "и", "ӣ", "у", "ӯ", "р̣", "р̣̄", "л̣", "л̣̄", "э", "аи", "о", "ау"]
  SouthVowelSignMap := us!["э̆", "о̆"]
  ModernVowelSignMap := us!["ӕ", "о̂"]
  SinhalaVowelSignMap := us!["ӕ̄"]
  ViramaMap := us!["×"]
  AyogavahaMap := us!["м̐", "м̣", "х̣"]
  NuktaMap := us!["̈"]
  ConsonantMap := us!["к", "кх", "г", "гх", "н̇", "ч", "чх", "дж", "джх", "н̃", "т̣", "т̣х", "д̣", "д̣х", "н̣", "т", "тх", "д", "дх", "н", "п", "пх", "б", "бх", "м", "й", "р", "л", "в", "ш́", "ш", "с", "х"]
  SouthConsonantMap := us!["л̤", "л̱", "р̱", "н̱"]
  NuktaConsonantMap := us!["ԛ", "к͟х", "г̇", "з", "р̤", "р̤х", "ф", "й̣"]
  SinhalaConsonantMap := us!["н̆г", "н̆дж", "н̆д̣", "н̆д", "м̆б"]
  SignMap := us!["'", ".", ".."]
  NumeralMap := us!["0", "1", "2", "3", "4", "5", "6", "7", "8", "9"]
  Aytham := us!["к̱"]
  OmMap := us!["ом̣"]

/-- ScriptMap/Roman/SLP1.py -/
def SLP1 : Tbl where
  VowelMap := us!["a", "A", "i", "I", "u", "U", "f", "F", "x", "X", "e", "E", "o", "O"]
  SouthVowelMap := us!["e1", "o1"]
  ModernVowelMap := us!["e2", "o2"]
  SinhalaVowelMap := us!["e4"]
  VowelSignMap := us!["A", "i", "I", "u", "U", "f", "F", "x", "X", "e", "E", "o", "O"]
  SouthVowelSignMap := us!["e1", "o1"]
  ModernVowelSignMap := us!["e2", "o2"]
  SinhalaVowelSignMap := us!["e4"]
  ViramaMap := us!["×"]
  AyogavahaMap := us!["~", "M", "H"]
  NuktaMap := us!["Q"]
  ConsonantMap := us!["k", "K", "g", "G", "N", "c", "C", "j", "J", "Y", "w", "W", "q", "Q", "R", "t", "T", "d", "D", "n", "p", "P", "b", "B", "m", "y", "r", "l", "v", "S", "z", "s", "h"]
  SouthConsonantMap := us!["L", "L0", "r2", "n2"]
  NuktaConsonantMap := us!["k0", "K0", "g0", "j0", "q0", "Q0", "P0", "Y0"]
  SinhalaConsonantMap := us!["n*g", "n*j", "n*q", "n*d", "m*b"]
  SignMap := us!["'", ".", ".."]
  NumeralMap := us!["0", "1", "2", "3", "4", "5", "6", "7", "8", "9"]
  Aytham := us!["K"]
  OmMap := us!["oM"]

/-- ScriptMap/Roman/Santali.py -/
def Santali : Tbl where
  VowelMap := us!["ᱚ", "ᱟ", "ᱤ", "ᱤᱻ", "ᱩ", "ᱩᱻ", "ᱨᱩʽ", "ᱨᱩᱻʽ", "ᱞᱩʽ", "ᱞᱩᱻʽ", "ᱮ", "ᱚᱤ", "ᱳ", "ᱚᱩ"]
  SouthVowelMap := us!["ᱮᱹ", "ᱳʽ"]
  ModernVowelMap := us!["ᱚᱹ", "ᱟᱹ"]
  SinhalaVowelMap := us!["ᱚᱹʽ"]
  VowelSignMap := us!["ᱟ", "ᱤ", "ᱤᱻ", "ᱩ", "ᱩᱻ", "ᱨᱩʽ", "ᱨᱩᱻʽ", "ᱞᱩʽ", "ᱞᱩᱻʽ", "ᱮ", "ᱚᱤ", "ᱳ", "ᱚᱩ"]
  SouthVowelSignMap := us!["ᱮᱹ", "ᱳʽ"]
  ModernVowelSignMap := us!["ᱚᱹ", "ᱟᱹ"]
  SinhalaVowelSignMap := us!["ᱚᱹʽ"]
  ViramaMap := us!["×"]
  AyogavahaMap := us!["ᱸ", "ᱝ", "ᱷ"]
  NuktaMap := us!["ʽʽʽʽ"]
  ConsonantMap := us!["ᱠ", "ᱠᱷ", "ᱜ", "ᱜᱷ", "ᱶ", "ᱪ", "ᱪᱷ", "ᱡ", "ᱡᱷ", "ᱧ", "ᱴ", "ᱴᱷ", "ᱰ", "ᱰᱷ", "ᱬ", "ᱛ", "ᱛᱷ", "ᱫ", "ᱫᱷ", "ᱱ", "ᱯ", "ᱯᱷ", "ᱵ", "ᱵᱷ", "ᱢ", "ᱭ", "ᱨ", "ᱞ", "ᱣ", "ᱥʽ", "ᱥʽ", "ᱥ", "ᱦ"]
  SouthConsonantMap := us!["ᱞʽ", "ᱞʽ", "ᱨʽ", "ᱱʽ"]
  NuktaConsonantMap := us!["ᱠʽ", "ᱠᱷʽ", "ᱜʽ", "ᱡʽ", "ᱲ", "ᱲᱷ", "ᱯʽ", "ᱭʽ"]
  SinhalaConsonantMap := us!["ᱸᱜʽ", "ᱸᱡʽ", "ᱸᱰʽ", "ᱸᱫʽ", "ᱸᱵʽ"]
  SignMap := us!["'", "᱾", "᱿"]
  NumeralMap := us!["᱐", "᱑", "᱒", "᱓", "᱔", "᱕", "᱖", "᱗", "᱘", "᱙"]
  Aytham := us!["ᱷʽ"]
  OmMap := us!["ᱳᱸ"]

/-- ScriptMap/Roman/ShanLoCRomanLoC.py -/
def ShanLoCRomanLoC : Tbl where
  VowelMap := us!["a", "ā", "i", "ī", "u", "ū", "ṛ", "ṝ", "ḷ", "ḹ", "e", "ai", "o", "au"]
  SouthVowelMap := us!["ĕ", "ŏ"]
  ModernVowelMap := us!["è", "ô"]
  SinhalaVowelMap := us!["ǣ"]
  VowelSignMap := us!["ā", "i", "ī", "u", "ū", "ṛ", "ṝ", "ḷ", "ḹ", "e", "ai", "o", "au"]
  SouthVowelSignMap := us!["ĕ", "ŏ"]
  ModernVowelSignMap := us!["è", "ô"]
  SinhalaVowelSignMap := us!["ǣ"]
  ViramaMap := us!["×"]
  AyogavahaMap := us!["m̐ʽ", "ṃ", "ʺ"]
  NuktaMap := us!["̈"]
  ConsonantMap := us!["k", "kh", "g", "gh", "ṅ", "c", "ch", "z", "jh", "ñ", "ṭ", "ṭh", "ḍ", "ḍh", "ṇ", "t", "th", "d", "dh", "n", "p", "ph", "b", "bh", "m", "y", "r", "l", "v", "ś", "ṣ", "s", "h"]
  SouthConsonantMap := us!["ḷ", "ḻ", "ṟ", "ṉ"]
  NuktaConsonantMap := us!["q", "k͟h", "ġ", "z", "r̤", "r̤h", "f", "ẏ"]
  SinhalaConsonantMap := us!["n̆g", "n̆j", "n̆ḍ", "n̆d", "m̆b"]
  SignMap := us!["'", ",", "."]
  NumeralMap := us!["0", "1", "2", "3", "4", "5", "6", "7", "8", "9"]
  Aytham := us!["ḵ"]
  OmMap := us!["oṃ"]

/-- ScriptMap/Roman/SinhalaRomanLoC.py -/
def SinhalaRomanLoC : Tbl where
  VowelMap := us!["a", "ā", "i", "ī", "u", "ū", "r̥", "r̥̄", "l̥", "l̥̄", "ē", "ai", "ō", "au"]
  SouthVowelMap := us!["e", "o"]
  ModernVowelMap := us!["ă", "ô"]
  SinhalaVowelMap := us!["â"]
  VowelSignMap := us!["ā", "i", "ī", "u", "ū", "r̥", "r̥̄", "l̥", "l̥̄", "ē", "ai", "ō", "au"]
  SouthVowelSignMap := us!["e", "o"]
  ModernVowelSignMap := us!["ă", "ô"]
  SinhalaVowelSignMap := us!["â"]
  ViramaMap := us!["×"]
  AyogavahaMap := us!["m̐", "ṃ", "ḥ"]
  NuktaMap := us!["̈"]
  ConsonantMap := us!["k", "kh", "g", "gh", "ṅ", "c", "ch", "j", "jh", "ñ", "ṭ", "ṭh", "ḍ", "ḍh", "ṇ", "t", "th", "d", "dh", "n", "p", "ph", "b", "bh", "m", "y", "r", "l", "v", "ś", "ṣ", "s", "h"]
  SouthConsonantMap := us!["ḷ", "ḻ", "ṟ", "ṉ"]
  NuktaConsonantMap := us!["q", "k͟h", "ġ", "z", "ṛ", "ṛh", "f", "ẏ"]
  SinhalaConsonantMap := us!["n̆g", "n̆j", "n̆ḍ", "n̆d", "m̆b"]
  SignMap := us!["’", ".", ".."]
  NumeralMap := us!["0", "1", "2", "3", "4", "5", "6", "7", "8", "9"]
  Aytham := us!["ḵ"]
  OmMap := us!["ōṃ"]

/-- ScriptMap/Roman/SoraSompeng.py -/
def SoraSompeng : Tbl where
  VowelMap := us!["ə", "𑃢", "𑃤", "𑃤ʽ", "𑃥", "𑃥ʽ", "𑃝𑃤ʽ", "𑃝𑃤ʽ", "𑃘𑃤ʽ", "𑃘𑃤ʽ", "𑃣", "𑃧", "𑃦", "𑃦𑃥"]
  SouthVowelMap := us!["𑃣ʽ", "𑃦ʽ"]
  ModernVowelMap := us!["𑃣ʽ", "𑃢ʽ"]
  SinhalaVowelMap := us!["𑃣ʽ"]
  VowelSignMap := us!["𑃢", "𑃤", "𑃤ʽ", "𑃥", "𑃥ʽ", "𑃝𑃤ʽ", "𑃝𑃤ʽ", "𑃘𑃤ʽ", "𑃘𑃤ʽ", "𑃣", "𑃧", "𑃦", "𑃦𑃥"]
  SouthVowelSignMap := us!["𑃣ʽ", "𑃦ʽ"]
  ModernVowelSignMap := us!["𑃣ʽ", "𑃢ʽ"]
  SinhalaVowelSignMap := us!["𑃣ʽ"]
  ViramaMap := us!["×"]
  AyogavahaMap := us!["𑃖ʽ", "𑃖ʽ", "𑃞ʽ"]
  NuktaMap := us!["𑃨ʽ"]
  ConsonantMap := us!["𑃟", "𑃟𑃠", "𑃕", "𑃕𑃠", "𑃗", "𑃓", "𑃓𑃠", "𑃠", "𑃠𑃠", "𑃡", "𑃑𑃨", "𑃑𑃨𑃠", "𑃔", "𑃔𑃠", "𑃙𑃨", "𑃑", "𑃑𑃠", "𑃔𑃨", "𑃔𑃨𑃠ʽ", "𑃙", "𑃛", "𑃛𑃠", "𑃒", "𑃒𑃠", "𑃖", "𑃜", "𑃝", "𑃘", "𑃚", "𑃐𑃠ʽ", "𑃐𑃨", "𑃐", "𑃞"]
  SouthConsonantMap := us!["𑃘𑃨", "𑃘𑃨ʽ", "𑃘ʽ", "𑃙ʽ"]
  NuktaConsonantMap := us!["𑃟ʽ", "𑃟𑃠ʽ", "𑃕ʽ", "𑃠ʽ", "𑃝𑃔", "𑃝𑃔𑃠", "𑃛𑃠ʽ", "𑃜ʽ"]
  SinhalaConsonantMap := us!["𑃗𑃕ʽ", "𑃡𑃓ʽ", "𑃙𑃨𑃔ʽ", "𑃙𑃔ʽ", "𑃖𑃛ʽ"]
  SignMap := us!["'", ".", ".."]
  NumeralMap := us!["𑃰", "𑃱", "𑃲", "𑃳", "𑃴", "𑃵", "𑃶", "𑃷", "𑃸", "𑃹"]
  Aytham := us!["𑃞ʽ"]
  OmMap := us!["𑃦𑃖ʽ"]

/-- ScriptMap/Roman/TeluguRomanLoC.py -/
def TeluguRomanLoC : Tbl where
  VowelMap := us!["a", "ā", "i", "ī", "u", "ū", "r̥", "r̥̄", "l̥", "l̥̄", "ē", "ai", "ō", "au"]
  SouthVowelMap := us!["e", "o"]
  ModernVowelMap := us!["æ", "ô"]
  SinhalaVowelMap := us!["ǣ"]
  VowelSignMap := us!["ā", "i", "ī", "u", "ū", "r̥", "r̥̄", "l̥", "l̥̄", "ē", "ai", "ō", "au"]
  SouthVowelSignMap := us!["e", "o"]
  ModernVowelSignMap := us!["æ", "ô"]
  SinhalaVowelSignMap := us!["ǣ"]
  ViramaMap := us!["×"]
  AyogavahaMap := us!["m̐", "ṃ", "ḥ"]
  NuktaMap := us!["̈"]
  ConsonantMap := us!["k", "kh", "g", "gh", "ṅ", "c", "ch", "j", "jh", "ñ", "ṭ", "ṭh", "ḍ", "ḍh", "ṇ", "t", "th", "d", "dh", "n", "p", "ph", "b", "bh", "m", "y", "r", "l", "v", "ś", "ṣ", "s", "h"]
  SouthConsonantMap := us!["ḷ", "l̤", "ṟ", "ṉ"]
  NuktaConsonantMap := us!["q", "k͟h", "ġ", "z", "ṛ", "ṛh", "f", "ẏ"]
  SinhalaConsonantMap := us!["n̆g", "n̆j", "n̆ḍ", "n̆d", "m̆b"]
  SignMap := us!["’", ".", ".."]
  NumeralMap := us!["0", "1", "2", "3", "4", "5", "6", "7", "8", "9"]
  Aytham := us!["ḵ"]
  OmMap := us!["ōṃ"]

/-- ScriptMap/Roman/ThamLoCRomanLoC.py -/
def ThamLoCRomanLoC : Tbl where
  VowelMap := us!["a", "ā", "i", "ī", "u", "ū", "ṛ", "ṝ", "l̤", "l̤̄", "e", "ai", "o", "ò"]
  SouthVowelMap := us!["ĕ", "ŏ"]
  ModernVowelMap := us!["æ", "ô"]
  SinhalaVowelMap := us!["ǣ"]
  VowelSignMap := us!["ā", "i", "ī", "u", "ū", "ṛ", "ṝ", "l̤", "l̤̄", "e", "ai", "o", "ò"]
  SouthVowelSignMap := us!["ĕ", "ŏ"]
  ModernVowelSignMap := us!["æ", "ô"]
  SinhalaVowelSignMap := us!["ǣ"]
  ViramaMap := us!["×"]
  AyogavahaMap := us!["m̐", "ṃ", "ḥ"]
  NuktaMap := us!["̈"]
  ConsonantMap := us!["k", "kh", "g", "gh", "ṅ", "c", "ch", "j", "jh", "ñ", "ṭ", "ṭh", "ḍ", "ḍh", "ṇ", "t", "th", "d", "dh", "n", "p", "ph", "b", "bh", "m", "y", "r", "l", "v", "ś", "ṣ", "s", "h"]
  SouthConsonantMap := us!["ḷ", "ḻ", "ṟ", "ṉ"]
  NuktaConsonantMap := us!["q", "k͟h", "ġ", "z", "r̤", "r̤h", "f", "ẏ"]
  SinhalaConsonantMap := us!["n̆g", "n̆j", "n̆ḍ", "n̆d", "m̆b"]
  SignMap := us!["'ʽ", ".", ".."]
  NumeralMap := us!["0", "1", "2", "3", "4", "5", "6", "7", "8", "9"]
  Aytham := us!["ḵ"]
  OmMap := us!["oṃ"]

/-- ScriptMap/Roman/TibetanLoCRomanLoC.py -/
def TibetanLoCRomanLoC : Tbl where
  VowelMap := us!["a", "ā", "i", "ī", "u", "ū", "r̥", "r̥̄", "l̥", "l̥̄", "e", "ai", "o", "au"]
  SouthVowelMap := us!["ĕ", "ŏ"]
  ModernVowelMap := us!["æ", "ô"]
  SinhalaVowelMap := us!["ǣ"]
  VowelSignMap := us!["ā", "i", "ī", "u", "ū", "r̥", "r̥̄", "l̥", "l̥̄", "e", "ai", "o", "au"]
  SouthVowelSignMap := us!["ĕ", "ŏ"]
  ModernVowelSignMap := us!["æ", "ô"]
  SinhalaVowelSignMap := us!["ǣ"]
  ViramaMap := us!["×"]
  AyogavahaMap := us!["m̐", "ṃ", "ḥ"]
  NuktaMap := us!["̈"]
  ConsonantMap := us!["k", "kh", "g", "gh", "ng", "c", "ch", "j", "jh", "ny", "ṭ", "ṭh", "ḍ", "ḍh", "ṇ", "tʹ", "th", "d", "dh", "nʹ", "p", "ph", "b", "bh", "m", "y", "r", "l", "w", "sh", "ṣ", "s", "h"]
  SouthConsonantMap := us!["ḷ", "ḻ", "ṟ", "ṉ"]
  NuktaConsonantMap := us!["ts", "tsh", "dz", "dzh", "’", "zh", "z", "ẏ"]
  SinhalaConsonantMap := us!["n̆g", "n̆j", "n̆ḍ", "n̆d", "m̆b"]
  SignMap := us!["`", ".", ".."]
  NumeralMap := us!["0", "1", "2", "3", "4", "5", "6", "7", "8", "9"]
  Aytham := us!["ḵ"]
  OmMap := us!["oṃ"]

/-- ScriptMap/Roman/Titus.py -/
def Titus : Tbl where
  VowelMap := us!["a", "ā", "i", "ī", "u", "ū", "r̥", "r̥̄", "l̥", "l̥̄", "e", "ai", "o", "au"]
  SouthVowelMap := us!["ĕ", "ŏ"]
  ModernVowelMap := us!["æ", "ô"]
  SinhalaVowelMap := us!["ǣ"]
  VowelSignMap := us!["ā", "i", "ī", "u", "ū", "r̥", "r̥̄", "l̥", "l̥̄", "e", "ai", "o", "au"]
  SouthVowelSignMap := us!["ĕ", "ŏ"]
  ModernVowelSignMap := us!["æ", "ô"]
  SinhalaVowelSignMap := us!["ǣ"]
  ViramaMap := us!["×"]
  AyogavahaMap := us!["m̐", "ṃ", "ḥ"]
  NuktaMap := us!["̈"]
  ConsonantMap := us!["k", "kʰ", "g", "gʰ", "ṅ", "c", "cʰ", "j", "jʰ", "ñ", "ṭ", "ṭʰ", "ḍ", "ḍʰ", "ṇ", "t", "tʰ", "d", "dʰ", "n", "p", "pʰ", "b", "bʰ", "m", "y", "r", "l", "v", "ś", "ṣ", "s", "h"]
  SouthConsonantMap := us!["ḷ", "ḻ", "ṟ", "ṉ"]
  NuktaConsonantMap := us!["q", "k͟ʰ", "ġ", "z", "ṛ", "ṛʰ", "f", "ẏ"]
  SinhalaConsonantMap := us!["n̆g", "n̆j", "n̆ḍ", "n̆d", "m̆b"]
  SignMap := us!["'", ".", ".."]
  NumeralMap := us!["0", "1", "2", "3", "4", "5", "6", "7", "8", "9"]
  Aytham := us!["ḵ"]
  OmMap := us!["oṃ"]

/-- ScriptMap/Roman/TolongSiki.py -/
def TolongSiki : Tbl where
  VowelMap := us!["a", "A", "i", "iʽ", "u", "uʽ", "ruʽ", "ruʽ", "luʽ", "luʽ", "e", "ai", "o", "au"]
  SouthVowelMap := us!["eʽ", "aʽ"]
  ModernVowelMap := us!["eʽ", "Aʽ"]
  SinhalaVowelMap := us!["Aʽ"]
  VowelSignMap := us!["A", "i", "iʽ", "u", "uʽ", "ruʽ", "ruʽ", "luʽ", "luʽ", "e", "ai", "o", "au"]
  SouthVowelSignMap := us!["eʽ", "aʽ"]
  ModernVowelSignMap := us!["eʽ", "Aʽ"]
  SinhalaVowelSignMap := us!["Aʽ"]
  ViramaMap := us!["×"]
  AyogavahaMap := us!["Mʽ", "M", "hʽ"]
  NuktaMap := us!["ʽʽʽʽ"]
  ConsonantMap := us!["k", "K", "g", "G", "W", "c", "C", "j", "J", "Y", "t", "T", "d", "D", "N", "q", "Q", "v", "V", "n", "p", "P", "b", "B", "m", "y", "r", "l", "w", "sʽ", "sʽ", "s", "h"]
  SouthConsonantMap := us!["lʽ", "lʽ", "rʽ", "nʽ"]
  NuktaConsonantMap := us!["kʽ", "x", "gʽ", "jʽ", "z", "Z", "Pʽ", "yʽ"]
  SinhalaConsonantMap := us!["Mg", "Mj", "Md", "Mv", "Mb"]
  SignMap := us!["'", ".", ".."]
  NumeralMap := us!["0", "¡", "¢", "£", "¤", "¥", "¦", "§", "¨", "©"]
  Aytham := us!["hʽ"]
  OmMap := us!["oM"]

/-- ScriptMap/Roman/Velthuis.py -/
def Velthuis : Tbl where
  VowelMap := us!["a", "aa", "i", "ii", "u", "uu", ".r", ".R", ".l", ".L", "e", "ai", "o", "au"]
  SouthVowelMap := us!["E", "O"]
  ModernVowelMap := us!["aE", "aO"]
  SinhalaVowelMap := us!["AE"]
  VowelSignMap := us!["aa", "i", "ii", "u", "uu", ".r", ".R", ".l", ".L", "e", "ai", "o", "au"]
  SouthVowelSignMap := us!["E", "O"]
  ModernVowelSignMap := us!["aE", "aO"]
  SinhalaVowelSignMap := us!["AE"]
  ViramaMap := us!["×"]
  AyogavahaMap := us!["~m", ".m", ".h"]
  NuktaMap := us!["Q"]
  ConsonantMap := us!["k", "kh", "g", "gh", "\"n", "c", "ch", "j", "jh", "~n", ".t", ".th", ".d", ".dh", ".n", "t", "th", "d", "dh", "n", "p", "ph", "b", "bh", "m", "y", "r", "l", "v", "\"s", ".s", "s", "h"]
  SouthConsonantMap := us!["..l", "_l", "_r", "_n"]
  NuktaConsonantMap := us!["q", "_kh", ".g", "z", "..r", "..rh", "f", ".y"]
  SinhalaConsonantMap := us!["n*g", "n*j", "n*.d", "n*d", "m*b"]
  SignMap := us![".a", ".", ".."]
  NumeralMap := us!["0", "1", "2", "3", "4", "5", "6", "7", "8", "9"]
  Aytham := us!["_k"]
  OmMap := us!["o.m"]

/-- ScriptMap/Roman/WX-kok.py -/
def WX_kok : Tbl where
  VowelMap := us!["a", "A", "i", "I", "u", "U", "q", "qVY", "LY", "LVY", "E", "Y", "O", "Q"]
  SouthVowelMap := us!["e", "o"]
  ModernVowelMap := us!["Z", "V"]
  SinhalaVowelMap := us!["AEVY"]
  VowelSignMap := us!["A", "i", "I", "u", "U", "q", "qVY", "LY", "LVY", "E", "Y", "O", "Q"]
  SouthVowelSignMap := us!["e", "o"]
  ModernVowelSignMap := us!["Z", "V"]
  SinhalaVowelSignMap := us!["AEVY"]
  ViramaMap := us!["×"]
  AyogavahaMap := us!["~", "M", "H"]
  NuktaMap := us!["QY"]
  ConsonantMap := us!["k", "K", "g", "G", "f", "c", "C", "j", "J", "F", "t", "T", "d", "D", "N", "w", "W", "x", "X", "n", "p", "P", "b", "B", "m", "y", "r", "l", "v", "z", "S", "s", "h"]
  SouthConsonantMap := us!["L", "lYYY", "R", "nYY"]
  NuktaConsonantMap := us!["kYY", "KYY", "GYY", "zYY", "dYY", "DYY", "PYY", "yYY"]
  SinhalaConsonantMap := us!["nYYgY", "nYYjY", "nYYdY", "nYYxY", "mYYbY"]
  SignMap := us!["'Y", ".Y", "..Y"]
  NumeralMap := us!["0", "1", "2", "3", "4", "5", "6", "7", "8", "9"]
  Aytham := us!["kYYY"]
  OmMap := us!["oMY"]

/-- ScriptMap/Roman/WX.py -/
def WX : Tbl where
  VowelMap := us!["a", "A", "i", "I", "u", "U", "q", "qV", "L", "LV", "e", "E", "o", "O"]
  SouthVowelMap := us!["eV", "oV"]
  ModernVowelMap := us!["aEV", "aOV"]
  SinhalaVowelMap := us!["AEV"]
  VowelSignMap := us!["A", "i", "I", "u", "U", "q", "qV", "L", "LV", "e", "E", "o", "O"]
  SouthVowelSignMap := us!["eV", "oV"]
  ModernVowelSignMap := us!["aEV", "aOV"]
  SinhalaVowelSignMap := us!["AEV"]
  ViramaMap := us!["×"]
  AyogavahaMap := us!["z", "M", "H"]
  NuktaMap := us!["Q"]
  ConsonantMap := us!["k", "K", "g", "G", "f", "c", "C", "j", "J", "F", "t", "T", "d", "D", "N", "w", "W", "x", "X", "n", "p", "P", "b", "B", "m", "y", "r", "l", "v", "S", "R", "s", "h"]
  SouthConsonantMap := us!["lY", "lYY", "rY", "nY"]
  NuktaConsonantMap := us!["kY", "KY", "GY", "zY", "dY", "DY", "PY", "yY"]
  SinhalaConsonantMap := us!["nYYg", "nYYj", "nYYd", "nYYx", "mYYb"]
  SignMap := us!["Z", ".", ".."]
  NumeralMap := us!["0", "1", "2", "3", "4", "5", "6", "7", "8", "9"]
  Aytham := us!["kYY"]
  OmMap := us!["oM"]

/-- ScriptMap/Roman/Wancho.py -/
def Wancho : Tbl where
  VowelMap := us!["𞋁", "𞋀", "𞋜", "𞋜ʽ", "𞋞", "𞋞ʽ", "𞋗𞋞ʽ", "𞋗𞋞ʽ", "𞋈𞋞ʽ", "𞋈𞋞ʽ", "𞋛", "𞋀𞋜", "𞋕", "𞋖"]
  SouthVowelMap := us!["𞋛ʽ", "𞋕ʽ"]
  ModernVowelMap := us!["𞋛ʽ", "𞋀ʽ"]
  SinhalaVowelMap := us!["𞋛ʽ"]
  VowelSignMap := us!["𞋀", "𞋜", "𞋜ʽ", "𞋞", "𞋞ʽ", "𞋗𞋞ʽ", "𞋗𞋞ʽ", "𞋈𞋞ʽ", "𞋈𞋞ʽ", "𞋛", "𞋀𞋜", "𞋕", "𞋖"]
  SouthVowelSignMap := us!["𞋛ʽ", "𞋕ʽ"]
  ModernVowelSignMap := us!["𞋛ʽ", "𞋀ʽ"]
  SinhalaVowelSignMap := us!["𞋛ʽ"]
  ViramaMap := us!["×"]
  AyogavahaMap := us!["ʿ", "ʾ", "𞋫"]
  NuktaMap := us!["Ø"]
  ConsonantMap := us!["𞋔", "𞋙", "𞋅", "𞋅ʽ", "𞋝", "𞋃", "𞋃ʽ", "𞋐", "𞋐ʽ", "𞋩", "𞋋ʽ", "𞋌ʽ", "𞋄ʽ", "𞋄ʽ", "𞋉ʽ", "𞋋", "𞋌", "𞋄", "𞋄ʽ", "𞋉", "𞋊", "𞋇", "𞋂", "𞋂ʽ", "𞋘", "𞋆", "𞋗", "𞋈", "𞋓", "𞋏", "𞋏ʽ", "𞋎", "𞋚"]
  SouthConsonantMap := us!["𞋟", "𞋟ʽ", "𞋗ʽ", "𞋉ʽ"]
  NuktaConsonantMap := us!["𞋔ʽ", "𞋙ʽ", "𞋅ʽ", "𞋑", "𞋄ʽ", "𞋄ʽ", "𞋍", "𞋆ʽ"]
  SinhalaConsonantMap := us!["𞋝𞋅ʽ", "𞋩𞋐ʽ", "𞋉𞋄ʽ", "𞋉𞋄ʽ", "𞋘𞋂ʽ"]
  SignMap := us!["ʽʽ", ".", ".."]
  NumeralMap := us!["𞋰", "𞋱", "𞋲", "𞋳", "𞋴", "𞋵", "𞋶", "𞋷", "𞋸", "𞋹"]
  Aytham := us!["𞋔ʽ"]
  OmMap := us!["𞋦ʽ"]

/-- ScriptMap/Roman/WarangCiti.py -/
def WarangCiti : Tbl where
  VowelMap := us!["𑣁", "𑣁𑣙ʾ", "𑣂", "𑣆", "𑣃", "𑣇", "𑣜𑣃ʽ", "𑣜𑣇ʽ", "𑣚𑣃ʽ", "𑣚𑣇ʽ", "𑣈", "𑣆ʽ", "𑣉", "𑣇ʽ"]
  SouthVowelMap := us!["𑣈ʽ", "𑣉ʽ"]
  ModernVowelMap := us!["𑣈ʽ", "𑣁𑣙ʽ"]
  SinhalaVowelMap := us!["𑣈ʽ"]
  VowelSignMap := us!["𑣁𑣙ʾ", "𑣂", "𑣆", "𑣃", "𑣇", "𑣜𑣃ʽ", "𑣜𑣇ʽ", "𑣚𑣃ʽ", "𑣚𑣇ʽ", "𑣈", "𑣆ʽ", "𑣉", "𑣇ʽ"]
  SouthVowelSignMap := us!["𑣈ʽ", "𑣉ʽ"]
  ModernVowelSignMap := us!["𑣈ʽ", "𑣁𑣙ʽ"]
  SinhalaVowelSignMap := us!["𑣈ʽ"]
  ViramaMap := us!["×"]
  AyogavahaMap := us!["𑣀ʽ", "𑣀", "𑣄"]
  NuktaMap := us!["ʿ"]
  ConsonantMap := us!["𑣌", "𑣌\u200d𑣙", "𑣋", "𑣋\u200d𑣙", "𑣊", "𑣏", "𑣏\u200d𑣙", "𑣎", "𑣎\u200d𑣙", "𑣍", "𑣒", "𑣒\u200d𑣙", "𑣑", "𑣑\u200d𑣙", "𑣐", "𑣕", "𑣕\u200d𑣙", "𑣔", "𑣔\u200d𑣙", "𑣓", "𑣘", "𑣘\u200d𑣙", "𑣗", "𑣗\u200d𑣙", "𑣖", "𑣅", "𑣜", "𑣚", "𑣟", "𑣝ʽ", "𑣝", "𑣞", "𑣙"]
  SouthConsonantMap := us!["𑣚ʽ", "𑣚ʽ", "𑣜ʽ", "𑣓ʽ"]
  NuktaConsonantMap := us!["𑣌ʽ", "𑣌\u200d𑣙ʽ", "𑣋ʽ", "𑣎ʽ", "𑣛", "𑣛\u200d𑣙", "𑣘ʽ", "𑣅ʽ"]
  SinhalaConsonantMap := us!["𑣀𑣋ʽ", "𑣀𑣎ʽ", "𑣀𑣑ʽ", "𑣀𑣔ʽ", "𑣀𑣗ʽ"]
  SignMap := us!["'", ".", ".."]
  NumeralMap := us!["𑣠", "𑣡", "𑣢", "𑣣", "𑣤", "𑣥", "𑣦", "𑣧", "𑣨", "𑣩"]
  Aytham := us!["𑣄ʽ"]
  OmMap := us!["𑣿ʽ"]

/-- ScriptMap/NonIndic/Hebrew.py -/
def Hebrew : Tbl where
  VowelMap := us!["אַ", "אָ", "אִ", "אִי", "אֻ", "אוּ", "רֻʽ", "רוּʽ", "לֻʽ", "לוּʽ", "אֵ", "אַײְʽ", "אוֹ", "אַוְʽ"]
  SouthVowelMap := us!["אֶ", "אֹ"]
  ModernVowelMap := us!["אָʽ", "אֹʽ"]
  SinhalaVowelMap := us!["אֵʽ"]
  VowelSignMap := us!["ָ", "ִ", "ִי", "ֻ", "וּ", "ְרֻʽ", "ְרוּʽ", "ְלֻʽ", "ְלוּʽ", "ֵ", "ַײְʽ", "וֹ", "ַוְʽ"]
  SouthVowelSignMap := us!["ֶ", "ֹ"]
  ModernVowelSignMap := us!["ָʽ", "ֹʽ"]
  SinhalaVowelSignMap := us!["ֵʽ"]
  ViramaMap := us!["ְ"]
  AyogavahaMap := us!["מְʼ", "מְʼ", "הְּʽ"]
  NuktaMap := us!["ʾ"]
  ConsonantMap := us!["כּ", "כʽ", "ג", "גʽ", "נʽ", "צ׳", "צ׳ʽ", "ג׳", "ג׳ʽ", "נʽ", "טʽ", "טʽ", "דʽ", "דʽ", "נʽ", "ט", "טʽ", "ד", "דʽ", "נ", "פּ", "פּʽ", "בּ", "בּʽ", "מ", "ײ", "ר", "ל", "װ", "שׁʽ", "שׁ", "ס", "ה"]
  SouthConsonantMap := us!["לʽ", "לʽ", "רʽ", "נʽ"]
  NuktaConsonantMap := us!["ק", "כ", "גּ", "ז", "דʽ", "דʽ", "פ", "ײʽ"]
  SinhalaConsonantMap := us!["נְגַʽ", "נְגַ׳ʽ", "נְדַʽ", "נְדַʽ", "מְבַּʽ"]
  SignMap := us!["'ʽ", ".", ".."]
  NumeralMap := us!["0", "1", "2", "3", "4", "5", "6", "7", "8", "9"]
  Aytham := us!["הְʽ"]
  OmMap := us!["אוֹמְʽ"]

/-- ScriptMap/NonIndic/OldPersian.py -/
def OldPersian : Tbl where
  VowelMap := us!["𐎠", "𐎠ʽ", "𐎡", "𐎡ʽ", "𐎢", "𐎢ʽ", "𐎽𐎢ʽ", "𐎽𐎢ʽ", "𐎾𐎢ʽ", "𐎾𐎢ʽ", "𐎡ʽ", "𐎠𐎡", "𐎢ʽ", "𐎠𐎢"]
  SouthVowelMap := us!["𐎡ʽ", "𐎢ʽ"]
  ModernVowelMap := us!["𐎡ʽ", "𐎠ʽ"]
  SinhalaVowelMap := us!["𐎡ʽ"]
  VowelSignMap := us!["_𐎠", "_𐎡", "𐎡𐎹ʽ", "_𐎢", "𐎢𐎺ʽ", "𐎽𐎢ʽ", "𐎽𐎢ʽ", "𐎾𐎢ʽ", "𐎾𐎢ʽ", "𐎡ʽ", "<𐎠𐎡", "𐎢ʽ", "<𐎠𐎢"]
  SouthVowelSignMap := us!["𐎡ʽ", "𐎢ʽ"]
  ModernVowelSignMap := us!["𐎡ʽ", "𐎠ʽ"]
  SinhalaVowelSignMap := us!["𐎡ʽ"]
  ViramaMap := us!["ʽʽ"]
  AyogavahaMap := us!["𐎶ʽ", "𐎶ʽ", "𐏃ʽ"]
  NuktaMap := us!["ʽʽʽʽ"]
  ConsonantMap := us!["𐎣", "𐎧ʽ", "𐎥", "𐎥ʽ", "𐎴ʽ", "𐎨", "𐎨ʽ", "𐎩", "𐎩ʽ", "𐎴ʽ", "𐎫ʽ", "𐎫ʽ", "𐎭ʽ", "𐎭ʽ", "𐎴ʽ", "𐎫", "𐎰", "𐎭", "𐎭ʽ", "𐎴", "𐎱", "𐎱ʽ", "𐎲", "𐎲", "𐎶", "𐎹", "𐎼", "𐎾", "𐎺", "𐏁", "𐏂", "𐎿", "𐏃"]
  SouthConsonantMap := us!["𐎾ʽ", "𐎾ʽ", "𐎼ʽ", "𐎴ʽ"]
  NuktaConsonantMap := us!["𐎣ʽ", "𐎧", "𐎥ʽ", "𐏀", "𐎭ʽ", "𐎭ʽ", "𐎳", "𐎹ʽ"]
  SinhalaConsonantMap := us!["𐎴𐎥ʽ", "𐎴𐎩ʽ", "𐎴𐎭ʽ", "𐎴𐎭ʽ", "𐎶𐎲ʽ"]
  SignMap := us!["ʽʽ", "𐏐𐏐", "𐏐𐏐ʽ"]
  NumeralMap := us!["0", "1", "2", "3", "4", "5", "6", "7", "8", "9"]
  Aytham := us!["𐎧ʽ"]
  OmMap := us!["𐎢𐎶ʽ"]

end Verif.Base
