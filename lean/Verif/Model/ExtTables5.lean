import Verif.Model.Sec

/-!
# Letter tables after `GeneralMap.add_additional_chars` (GeneralMap.py:297-338)

Every script module calls it at import time; `Verif.Model.TablesEq` proves that these literals
are its result on the `Base` tables.

Generated by tools/gentables.py.
-/

namespace Verif.Ext

/-- ScriptMap/Roman/RomanKana.py -/
def RomanKana : Tbl where
  VowelMap := us!["a", "aa", "i", "ii", "u", "uu", "ri", "rii", "r゚i", "r゚ii", "ee", "ai", "oo", "au", "u˂", "uu˂", "aa˂", "aa˂", "ee˂", "u˂", "uu˂", "uu˂", "ai˂", "ai˂", "oo˂", "oo˂", "ai˂", "u˂", "i˂", "ii˂", "u˂", "oo˂", "a˂", "a˂", "aa˂", "a˂", "a˂", "au˂", "oo˂", "oo˂", "oo˂", "ii˂", "u˂", "uu˂", "ai˂", "ai˂", "oo˂", "au˂"]
  SouthVowelMap := us!["e", "o"]
  ModernVowelMap := us!["a", "o", "a˂", "a˂", "o˂", "o˂"]
  SinhalaVowelMap := us!["e"]
  VowelSignMap := us!["aa", "i", "ii", "u", "uu", "ri", "rii", "r゚i", "r゚ii", "ee", "ai", "oo", "au", "u˂", "uu˂", "aa˂", "aa˂", "ee˂", "u˂", "uu˂", "uu˂", "ai˂", "ai˂", "oo˂", "oo˂", "ai˂", "uu˂", "i˂", "ii˂", "u˂", "oo˂", "˂", "˂", "aa˂", "˂", "ee˂", "u˂˂", "oo˂", "oo˂", "oo˂", "oo˂", "u˂", "uu˂", "ai˂", "ai˂", "oo˂", "au˂"]
  SouthVowelSignMap := us!["e", "o"]
  ModernVowelSignMap := us!["a", "o", "a˂", "a˂", "o˂", "o˂"]
  SinhalaVowelSignMap := us!["e"]
  ViramaMap := us!["×"]
  AyogavahaMap := us!["n", "n", "H", "H˂", "H˂", "˂", "˂˂", "˂˂˂", "˂˂˂˂", "˂˂˂", "˂˂˂", "˂˂˂", "˂", "˂", "˂", "˂˂˂˂˂", "˂˂˂˂˂", "˂˂˂˂˂", "˂˂˂˂˂", "˂˂˂˂˂"]
  NuktaMap := us!["ʽʽ"]
  ConsonantMap := us!["k", "k", "g", "g", "k゚", "c", "c", "j", "j", "J", "t", "t", "d", "d", "n", "t", "t", "d", "d", "n", "p", "p", "b", "b", "m", "y", "r", "r゚", "v", "sh", "sh", "s", "h", "b˂", "k˂", "p˂", "s˂", "h˂", "y˂", "tʽʽ", "k゚˂", "J˂", "m˂", "p˂", "y˂", "r˂", "v˂", "p˂", "s˂", "h˂", "k˂", "k˂", "J˂"]
  SouthConsonantMap := us!["r゚", "r゚", "r", "n"]
  NuktaConsonantMap := us!["k", "k", "g", "z", "r", "r", "f", "y"]
  SinhalaConsonantMap := us!["ng", "nj", "nd", "nd", "nb"]
  SignMap := us!["'", "。", "。。", "!˂˂˂˂", "!!˂", "!!!˂", "!!!˂", "!!!˂"]
  NumeralMap := us!["0", "1", "2", "3", "4", "5", "6", "7", "8", "9"]
  Aytham := us!["gu"]
  OmMap := us!["oon"]

/-- ScriptMap/Roman/RomanReadable.py -/
def RomanReadable : Tbl where
  VowelMap := us!["a", "aa", "i", "ee", "u", "oo", "ri'", "ree'", "li'", "lee'", "e", "ai", "o", "au", "u˂", "oo˂", "aa˂", "aa˂", "e˂", "u˂", "oo˂", "oo˂", "ai˂", "ai˂", "o˂", "o˂", "ai˂", "u˂", "i˂", "ee˂", "u˂", "o˂", "a˂", "a˂", "aa˂", "a˂", "a˂", "au˂", "o˂", "o˂", "o˂", "ee˂", "u˂", "oo˂", "ai˂", "ai˂", "o˂", "au˂"]
  SouthVowelMap := us!["e'", "o'"]
  ModernVowelMap := us!["a", "o", "a˂", "a˂", "o˂", "o˂"]
  SinhalaVowelMap := us!["e"]
  VowelSignMap := us!["aa", "i", "ee", "u", "oo", "ri'", "ree'", "li'", "lee'", "e", "ai", "o", "au", "u˂", "oo˂", "aa˂", "aa˂", "e˂", "u˂", "oo˂", "oo˂", "ai˂", "ai˂", "o˂", "o˂", "ai˂", "oo˂", "i˂", "ee˂", "u˂", "o˂", "˂", "˂", "aa˂", "˂", "e˂", "u˂˂", "o˂", "o˂", "o˂", "o˂", "u˂", "oo˂", "ai˂", "ai˂", "o˂", "au˂"]
  SouthVowelSignMap := us!["e'", "o'"]
  ModernVowelSignMap := us!["a", "o", "a˂", "a˂", "o˂", "o˂"]
  SinhalaVowelSignMap := us!["e"]
  ViramaMap := us!["×"]
  AyogavahaMap := us!["M", "M", "h'", "h'˂", "h'˂", "˂", "˂˂", "˂˂˂", "˂˂˂˂", "˂˂˂", "˂˂˂", "˂˂˂", "˂", "˂", "˂", "˂˂˂˂˂", "˂˂˂˂˂", "˂˂˂˂˂", "˂˂˂˂˂", "˂˂˂˂˂"]
  NuktaMap := us!["ʽʽ"]
  ConsonantMap := us!["k", "kh", "g", "gh", "ng", "ch", "chh", "j", "jh", "nj", "t'", "t'h", "d'", "d'h", "n", "t", "th", "d", "dh", "n", "p", "ph", "b", "bh", "m", "y", "r", "l", "v", "sh", "sh", "s", "h", "b˂", "k˂", "ph˂", "s˂", "h˂", "y˂", "tʽʽ", "ng˂", "nj˂", "m˂", "p˂", "y˂", "r˂", "v˂", "p˂", "s˂", "h˂", "k˂", "k˂", "nj˂"]
  SouthConsonantMap := us!["l'", "zh", "r'", "n"]
  NuktaConsonantMap := us!["q", "kh", "g", "z", "r", "rh", "f", "y"]
  SinhalaConsonantMap := us!["ng", "nj", "nd'", "nd", "mb"]
  SignMap := us!["'", ".", "..", "!˂˂˂˂", "!!˂", "!!!˂", "!!!˂", "!!!˂"]
  NumeralMap := us!["0", "1", "2", "3", "4", "5", "6", "7", "8", "9"]
  Aytham := us!["g"]
  OmMap := us!["om"]

/-- ScriptMap/Roman/RomanSemitic.py -/
def RomanSemitic : Tbl where
  VowelMap := us!["â", "ā̂", "î", "ī̂", "û", "ū̂", "ruʽ", "rūʽ", "luʽ", "lūʽ", "ē̂", "âŷ", "ō̂", "âŵ", "û˂", "ū̂˂", "ā̂˂", "ā̂˂", "ē̂˂", "û˂", "ū̂˂", "ū̂˂", "âŷ˂", "âŷ˂", "ō̂˂", "ō̂˂", "âŷ˂", "û˂", "î˂", "ī̂˂", "û˂", "ō̂˂", "â˂", "â˂", "ā̂˂", "â˂", "â˂", "âŵ˂", "ō̂˂", "ō̂˂", "ō̂˂", "ī̂˂", "û˂", "ū̂˂", "âŷ˂", "âŷ˂", "ō̂˂", "âŵ˂"]
  SouthVowelMap := us!["ê", "ô"]
  ModernVowelMap := us!["ē̂ʽ", "ā̂ʽ", "ē̂ʽ˂", "ē̂ʽ˂", "ā̂ʽ˂", "ā̂ʽ˂"]
  SinhalaVowelMap := us!["êʽ"]
  VowelSignMap := us!["ā", "i", "ī", "u", "ū", "̽ruʽ", "̽rūʽ", "̽ruʽ", "̽rūʽ", "ē", "aŷ", "ō", "aŵ", "u˂", "ū˂", "ā˂", "ā˂", "ē˂", "u˂", "ū˂", "ū˂", "aŷ˂", "aŷ˂", "ō˂", "ō˂", "aŷ˂", "ū˂", "i˂", "ī˂", "u˂", "ō˂", "˂", "˂", "ā˂", "˂", "ē˂", "u˂˂", "ō˂", "ō˂", "ō˂", "ō˂", "u˂", "ū˂", "aŷ˂", "aŷ˂", "ō˂", "aŵ˂"]
  SouthVowelSignMap := us!["e", "o"]
  ModernVowelSignMap := us!["eʽ", "āʽ", "eʽ˂", "eʽ˂", "āʽ˂", "āʽ˂"]
  SinhalaVowelSignMap := us!["ēʽ"]
  ViramaMap := us!["̽"]
  AyogavahaMap := us!["ₘ", "ₘ", "h̽ʽ", "h̽ʽ˂", "h̽ʽ˂", "˂", "˂˂", "˂˂˂", "˂˂˂˂", "˂˂˂", "˂˂˂", "˂˂˂", "˂", "˂", "˂", "˂˂˂˂˂", "˂˂˂˂˂", "˂˂˂˂˂", "˂˂˂˂˂", "˂˂˂˂˂"]
  NuktaMap := us!["Q"]
  ConsonantMap := us!["k", "kʰ", "g", "gʰ", "nʽ", "č", "čʰ", "j", "jʰ", "ɲ", "ʈ", "ʈʰ", "ɖ", "ɖʰ", "ɳ", "t", "tʰ", "d", "dʰ", "n", "p", "pʰ", "b", "bʰ", "m", "y", "r", "l", "v", "š", "ʂ", "s", "h", "b˂", "k˂", "pʰ˂", "s˂", "h˂", "y˂", "tQ", "nʽ˂", "ɲ˂", "m˂", "p˂", "y˂", "r˂", "v˂", "p˂", "s˂", "h˂", "k˂", "k˂", "ɲ˂"]
  SouthConsonantMap := us!["ɭ", "ɭʽ", "rʽ", "nʽ"]
  NuktaConsonantMap := us!["q", "ḫ", "ġ", "z", "ɽ", "ɽʰ", "f", "yʽ"]
  SinhalaConsonantMap := us!["n̽gʽ", "n̽jʽ", "n̽dʽ", "n̽dʽ", "m̽bʽ"]
  SignMap := us!["ʽʽʽʽ", ".", "..", "!˂˂˂˂", "!!˂", "!!!˂", "!!!˂", "!!!˂"]
  NumeralMap := us!["0", "1", "2", "3", "4", "5", "6", "7", "8", "9"]
  Aytham := us!["h̽ʽ"]
  OmMap := us!["ō̂m̽ʽ"]

/-- ScriptMap/Roman/RussianCyrillic.py -/
def RussianCyrillic : Tbl where
  VowelMap := us!["а", "а̄", "и", "ӣ", "у", "ӯ", "р̣", "р̣̄", "л̣", "л̣̄", "э", "аи", "о", "ау", "у˂", "ӯ˂", "а̄˂", "а̄˂", "э˂", "у˂", "ӯ˂", "ӯ˂", "аи˂", "аи˂", "о˂", "о˂", "аи˂", "у˂", "и˂", "ӣ˂", "у˂", "о˂", "а˂", "а˂", "а̄˂", "а˂", "а˂", "ау˂", "о˂", "о˂", "о˂", "ӣ˂", "у˂", "ӯ˂", "аи˂", "аи˂", "о˂", "ау˂"]
  SouthVowelMap := us!["э̆", "о̆"]
  ModernVowelMap := us!["ӕ", "о̂", "ӕ˂", "ӕ˂", "о̂˂", "о̂˂"]
  SinhalaVowelMap := us!["ӕ̄"]
  VowelSignMap := us!["а̄", "и", "ӣ", "у", "ӯ", "р̣", "р̣̄", "л̣", "л̣̄", "э", "аи", "о", "ау", "у˂", "ӯ˂", "а̄˂", "а̄˂", "э˂", "у˂", "ӯ˂", "ӯ˂", "аи˂", "аи˂", "о˂", "о˂", "аи˂", "ӯ˂", "и˂", "ӣ˂", "у˂", "о˂", "˂", "˂", "а̄˂", "˂", "э˂", "у˂˂", "о˂", "о˂", "о˂", "о˂", "у˂", "ӯ˂", "аи˂", "аи˂", "о˂", "ау˂"]
  SouthVowelSignMap := us!["э̆", "о̆"]
  ModernVowelSignMap := us!["ӕ", "о̂", "ӕ˂", "ӕ˂", "о̂˂", "о̂˂"]
  SinhalaVowelSignMap := us!["ӕ̄"]
  ViramaMap := us!["×"]
  AyogavahaMap := us!["м̐", "м̣", "х̣", "х̣˂", "х̣˂", "˂", "˂˂", "˂˂˂", "˂˂˂˂", "˂˂˂", "˂˂˂", "˂˂˂", "˂", "˂", "˂", "˂˂˂˂˂", "˂˂˂˂˂", "˂˂˂˂˂", "˂˂˂˂˂", "˂˂˂˂˂"]
  NuktaMap := us!["̈"]
  ConsonantMap := us!["к", "кх", "г", "гх", "н̇", "ч", "чх", "дж", "джх", "н̃", "т̣", "т̣х", "д̣", "д̣х", "н̣", "т", "тх", "д", "дх", "н", "п", "пх", "б", "бх", "м", "й", "р", "л", "в", "ш́", "ш", "с", "х", "б˂", "к˂", "пх˂", "с˂", "х˂", "й˂", "т̈", "н̇˂", "н̃˂", "м˂", "п˂", "й˂", "р˂", "в˂", "п˂", "с˂", "х˂", "к˂", "к˂", "н̃˂"]
  SouthConsonantMap := us!["л̤", "л̱", "р̱", "н̱"]
  NuktaConsonantMap := us!["ԛ", "к͟х", "г̇", "з", "р̤", "р̤х", "ф", "й̣"]
  SinhalaConsonantMap := us!["н̆г", "н̆дж", "н̆д̣", "н̆д", "м̆б"]
  SignMap := us!["'", ".", "..", "!˂˂˂˂", "!!˂", "!!!˂", "!!!˂", "!!!˂"]
  NumeralMap := us!["0", "1", "2", "3", "4", "5", "6", "7", "8", "9"]
  Aytham := us!["к̱"]
  OmMap := us!["ом̣"]

/-- ScriptMap/Roman/SLP1.py -/
def SLP1 : Tbl where
  VowelMap := us!["a", "A", "i", "I", "u", "U", "f", "F", "x", "X", "e", "E", "o", "O", "u˂", "U˂", "A˂", "A˂", "e˂", "u˂", "U˂", "U˂", "E˂", "E˂", "o˂", "o˂", "E˂", "u˂", "i˂", "I˂", "u˂", "o˂", "a˂", "a˂", "A˂", "a˂", "a˂", "O˂", "o˂", "o˂", "o˂", "I˂", "u˂", "U˂", "E˂", "E˂", "o˂", "O˂"]
  SouthVowelMap := us!["e1", "o1"]
  ModernVowelMap := us!["e2", "o2", "e2˂", "e2˂", "o2˂", "o2˂"]
  SinhalaVowelMap := us!["e4"]
  VowelSignMap := us!["A", "i", "I", "u", "U", "f", "F", "x", "X", "e", "E", "o", "O", "u˂", "U˂", "A˂", "A˂", "e˂", "u˂", "U˂", "U˂", "E˂", "E˂", "o˂", "o˂", "E˂", "U˂", "i˂", "I˂", "u˂", "o˂", "˂", "˂", "A˂", "˂", "e˂", "u˂˂", "o˂", "o˂", "o˂", "o˂", "u˂", "U˂", "E˂", "E˂", "o˂", "O˂"]
  SouthVowelSignMap := us!["e1", "o1"]
  ModernVowelSignMap := us!["e2", "o2", "e2˂", "e2˂", "o2˂", "o2˂"]
  SinhalaVowelSignMap := us!["e4"]
  ViramaMap := us!["×"]
  AyogavahaMap := us!["~", "M", "H", "H˂", "H˂", "˂", "˂˂", "˂˂˂", "˂˂˂˂", "˂˂˂", "˂˂˂", "˂˂˂", "˂", "˂", "˂", "˂˂˂˂˂", "˂˂˂˂˂", "˂˂˂˂˂", "˂˂˂˂˂", "˂˂˂˂˂"]
  NuktaMap := us!["Q"]
  ConsonantMap := us!["k", "K", "g", "G", "N", "c", "C", "j", "J", "Y", "w", "W", "q", "Q", "R", "t", "T", "d", "D", "n", "p", "P", "b", "B", "m", "y", "r", "l", "v", "S", "z", "s", "h", "b˂", "k˂", "P˂", "s˂", "h˂", "y˂", "tQ", "N˂", "Y˂", "m˂", "p˂", "y˂", "r˂", "v˂", "p˂", "s˂", "h˂", "k˂", "k˂", "Y˂"]
  SouthConsonantMap := us!["L", "L0", "r2", "n2"]
  NuktaConsonantMap := us!["k0", "K0", "g0", "j0", "q0", "Q0", "P0", "Y0"]
  SinhalaConsonantMap := us!["n*g", "n*j", "n*q", "n*d", "m*b"]
  SignMap := us!["'", ".", "..", "!˂˂˂˂", "!!˂", "!!!˂", "!!!˂", "!!!˂"]
  NumeralMap := us!["0", "1", "2", "3", "4", "5", "6", "7", "8", "9"]
  Aytham := us!["K"]
  OmMap := us!["oM"]

/-- ScriptMap/Roman/Santali.py -/
def Santali : Tbl where
  VowelMap := us!["ᱚ", "ᱟ", "ᱤ", "ᱤᱻ", "ᱩ", "ᱩᱻ", "ᱨᱩʽ", "ᱨᱩᱻʽ", "ᱞᱩʽ", "ᱞᱩᱻʽ", "ᱮ", "ᱚᱤ", "ᱳ", "ᱚᱩ", "ᱩ˂", "ᱩᱻ˂", "ᱟ˂", "ᱟ˂", "ᱮ˂", "ᱩ˂", "ᱩᱻ˂", "ᱩᱻ˂", "ᱚᱤ˂", "ᱚᱤ˂", "ᱳ˂", "ᱳ˂", "ᱚᱤ˂", "ᱩ˂", "ᱤ˂", "ᱤᱻ˂", "ᱩ˂", "ᱳ˂", "ᱚ˂", "ᱚ˂", "ᱟ˂", "ᱚ˂", "ᱚ˂", "ᱚᱩ˂", "ᱳ˂", "ᱳ˂", "ᱳ˂", "ᱤᱻ˂", "ᱩ˂", "ᱩᱻ˂", "ᱚᱤ˂", "ᱚᱤ˂", "ᱳ˂", "ᱚᱩ˂"]
  SouthVowelMap := us!["ᱮᱹ", "ᱳʽ"]
  ModernVowelMap := us!["ᱚᱹ", "ᱟᱹ", "ᱚᱹ˂", "ᱚᱹ˂", "ᱟᱹ˂", "ᱟᱹ˂"]
  SinhalaVowelMap := us!["ᱚᱹʽ"]
  VowelSignMap := us!["ᱟ", "ᱤ", "ᱤᱻ", "ᱩ", "ᱩᱻ", "ᱨᱩʽ", "ᱨᱩᱻʽ", "ᱞᱩʽ", "ᱞᱩᱻʽ", "ᱮ", "ᱚᱤ", "ᱳ", "ᱚᱩ", "ᱩ˂", "ᱩᱻ˂", "ᱟ˂", "ᱟ˂", "ᱮ˂", "ᱩ˂", "ᱩᱻ˂", "ᱩᱻ˂", "ᱚᱤ˂", "ᱚᱤ˂", "ᱳ˂", "ᱳ˂", "ᱚᱤ˂", "ᱩᱻ˂", "ᱤ˂", "ᱤᱻ˂", "ᱩ˂", "ᱳ˂", "˂", "˂", "ᱟ˂", "˂", "ᱮ˂", "ᱩ˂˂", "ᱳ˂", "ᱳ˂", "ᱳ˂", "ᱳ˂", "ᱩ˂", "ᱩᱻ˂", "ᱚᱤ˂", "ᱚᱤ˂", "ᱳ˂", "ᱚᱩ˂"]
  SouthVowelSignMap := us!["ᱮᱹ", "ᱳʽ"]
  ModernVowelSignMap := us!["ᱚᱹ", "ᱟᱹ", "ᱚᱹ˂", "ᱚᱹ˂", "ᱟᱹ˂", "ᱟᱹ˂"]
  SinhalaVowelSignMap := us!["ᱚᱹʽ"]
  ViramaMap := us!["×"]
  AyogavahaMap := us!["ᱸ", "ᱝ", "ᱷ", "ᱷ˂", "ᱷ˂", "˂", "˂˂", "˂˂˂", "˂˂˂˂", "˂˂˂", "˂˂˂", "˂˂˂", "˂", "˂", "˂", "˂˂˂˂˂", "˂˂˂˂˂", "˂˂˂˂˂", "˂˂˂˂˂", "˂˂˂˂˂"]
  NuktaMap := us!["ʽʽʽʽ"]
  ConsonantMap := us!["ᱠ", "ᱠᱷ", "ᱜ", "ᱜᱷ", "ᱶ", "ᱪ", "ᱪᱷ", "ᱡ", "ᱡᱷ", "ᱧ", "ᱴ", "ᱴᱷ", "ᱰ", "ᱰᱷ", "ᱬ", "ᱛ", "ᱛᱷ", "ᱫ", "ᱫᱷ", "ᱱ", "ᱯ", "ᱯᱷ", "ᱵ", "ᱵᱷ", "ᱢ", "ᱭ", "ᱨ", "ᱞ", "ᱣ", "ᱥʽ", "ᱥʽ", "ᱥ", "ᱦ", "ᱵ˂", "ᱠ˂", "ᱯᱷ˂", "ᱥ˂", "ᱦ˂", "ᱭ˂", "ᱛʽʽʽʽ", "ᱶ˂", "ᱧ˂", "ᱢ˂", "ᱯ˂", "ᱭ˂", "ᱨ˂", "ᱣ˂", "ᱯ˂", "ᱥ˂", "ᱦ˂", "ᱠ˂", "ᱠ˂", "ᱧ˂"]
  SouthConsonantMap := us!["ᱞʽ", "ᱞʽ", "ᱨʽ", "ᱱʽ"]
  NuktaConsonantMap := us!["ᱠʽ", "ᱠᱷʽ", "ᱜʽ", "ᱡʽ", "ᱲ", "ᱲᱷ", "ᱯʽ", "ᱭʽ"]
  SinhalaConsonantMap := us!["ᱸᱜʽ", "ᱸᱡʽ", "ᱸᱰʽ", "ᱸᱫʽ", "ᱸᱵʽ"]
  SignMap := us!["'", "᱾", "᱿", "!˂˂˂˂", "!!˂", "!!!˂", "!!!˂", "!!!˂"]
  NumeralMap := us!["᱐", "᱑", "᱒", "᱓", "᱔", "᱕", "᱖", "᱗", "᱘", "᱙"]
  Aytham := us!["ᱷʽ"]
  OmMap := us!["ᱳᱸ"]

/-- ScriptMap/Roman/ShanLoCRomanLoC.py -/
def ShanLoCRomanLoC : Tbl where
  VowelMap := us!["a", "ā", "i", "ī", "u", "ū", "ṛ", "ṝ", "ḷ", "ḹ", "e", "ai", "o", "au", "u˂", "ū˂", "ā˂", "ā˂", "eʽ", "ui", "ūi", "ūiv", "āi", "oi", "ò", "ō", "ái", "u˂", "i˂", "ī˂", "u˂", "o˂", "a˂", "a˂", "ā˂", "a˂", "a˂", "au˂", "o˂", "o˂", "o˂", "ī˂", "u˂", "ū˂", "ai˂", "ai˂", "o˂", "au˂"]
  SouthVowelMap := us!["ĕ", "ŏ"]
  ModernVowelMap := us!["è", "ô", "è", "è", "ô˂", "ô˂"]
  SinhalaVowelMap := us!["ǣ"]
  VowelSignMap := us!["ā", "i", "ī", "u", "ū", "ṛ", "ṝ", "ḷ", "ḹ", "e", "ai", "o", "au", "u˂", "ū˂", "ā˂", "ā˂", "eʽ", "ui", "ūi", "ūiv", "āi", "oi", "ò", "ō", "ái", "ū˂", "i˂", "ī˂", "u˂", "o˂", "˂", "˂", "ā˂", "˂", "e˂", "u˂˂", "o˂", "o˂", "o˂", "o˂", "u˂", "ū˂", "ai˂", "ai˂", "o˂", "au˂"]
  SouthVowelSignMap := us!["ĕ", "ŏ"]
  ModernVowelSignMap := us!["è", "ô", "èʽ", "èʽ", "ô˂", "ô˂"]
  SinhalaVowelSignMap := us!["ǣ"]
  ViramaMap := us!["×"]
  AyogavahaMap := us!["m̐ʽ", "ṃ", "ʺ", "ʺ˂", "ʺ˂", "̢", "̐", "ʹ", "˝", "˂˂˂", "˂˂˂", "˂˂˂", "˂", "˂", "˂", "˂˂˂˂˂", "˂˂˂˂˂", "˂˂˂˂˂", "˂˂˂˂˂", "˂˂˂˂˂"]
  NuktaMap := us!["̈"]
  ConsonantMap := us!["k", "kh", "g", "gh", "ṅ", "c", "ch", "z", "jh", "ñ", "ṭ", "ṭh", "ḍ", "ḍh", "ṇ", "t", "th", "d", "dh", "n", "p", "ph", "b", "bh", "m", "y", "r", "l", "v", "ś", "ṣ", "s", "h", "b˂", "k˂", "ph˂", "s˂", "h˂", "y˂", "x", "ṅ˂", "ñ˂", "m˂", "p˂", "y˂", "r˂", "v˂", "p˂", "s˂", "h˂", "k˂", "k˂", "ñ˂"]
  SouthConsonantMap := us!["ḷ", "ḻ", "ṟ", "ṉ"]
  NuktaConsonantMap := us!["q", "k͟h", "ġ", "z", "r̤", "r̤h", "f", "ẏ"]
  SinhalaConsonantMap := us!["n̆g", "n̆j", "n̆ḍ", "n̆d", "m̆b"]
  SignMap := us!["'", ",", ".", "u*", "n*", "!!!˂", "!!!˂", "!!!˂"]
  NumeralMap := us!["0", "1", "2", "3", "4", "5", "6", "7", "8", "9"]
  Aytham := us!["ḵ"]
  OmMap := us!["oṃ"]

/-- ScriptMap/Roman/SinhalaRomanLoC.py -/
def SinhalaRomanLoC : Tbl where
  VowelMap := us!["a", "ā", "i", "ī", "u", "ū", "r̥", "r̥̄", "l̥", "l̥̄", "ē", "ai", "ō", "au", "u˂", "ū˂", "ā˂", "ā˂", "ē˂", "u˂", "ū˂", "ū˂", "ai˂", "ai˂", "ō˂", "ō˂", "ai˂", "u˂", "i˂", "ī˂", "u˂", "ō˂", "a˂", "a˂", "ā˂", "a˂", "a˂", "au˂", "ō˂", "ō˂", "ō˂", "ī˂", "u˂", "ū˂", "ai˂", "ai˂", "ō˂", "au˂"]
  SouthVowelMap := us!["e", "o"]
  ModernVowelMap := us!["ă", "ô", "ă˂", "ă˂", "ô˂", "ô˂"]
  SinhalaVowelMap := us!["â"]
  VowelSignMap := us!["ā", "i", "ī", "u", "ū", "r̥", "r̥̄", "l̥", "l̥̄", "ē", "ai", "ō", "au", "u˂", "ū˂", "ā˂", "ā˂", "ē˂", "u˂", "ū˂", "ū˂", "ai˂", "ai˂", "ō˂", "ō˂", "ai˂", "ū˂", "i˂", "ī˂", "u˂", "ō˂", "˂", "˂", "ā˂", "˂", "ē˂", "u˂˂", "ō˂", "ō˂", "ō˂", "ō˂", "u˂", "ū˂", "ai˂", "ai˂", "ō˂", "au˂"]
  SouthVowelSignMap := us!["e", "o"]
  ModernVowelSignMap := us!["ă", "ô", "ă˂", "ă˂", "ô˂", "ô˂"]
  SinhalaVowelSignMap := us!["â"]
  ViramaMap := us!["×"]
  AyogavahaMap := us!["m̐", "ṃ", "ḥ", "ḥ˂", "ḥ˂", "˂", "˂˂", "˂˂˂", "˂˂˂˂", "˂˂˂", "˂˂˂", "˂˂˂", "˂", "˂", "˂", "˂˂˂˂˂", "˂˂˂˂˂", "˂˂˂˂˂", "˂˂˂˂˂", "˂˂˂˂˂"]
  NuktaMap := us!["̈"]
  ConsonantMap := us!["k", "kh", "g", "gh", "ṅ", "c", "ch", "j", "jh", "ñ", "ṭ", "ṭh", "ḍ", "ḍh", "ṇ", "t", "th", "d", "dh", "n", "p", "ph", "b", "bh", "m", "y", "r", "l", "v", "ś", "ṣ", "s", "h", "b˂", "k˂", "ph˂", "s˂", "h˂", "y˂", "ẗ", "ṅ˂", "ñ˂", "m˂", "p˂", "y˂", "r˂", "v˂", "p˂", "s˂", "h˂", "k˂", "k˂", "ñ˂"]
  SouthConsonantMap := us!["ḷ", "ḻ", "ṟ", "ṉ"]
  NuktaConsonantMap := us!["q", "k͟h", "ġ", "z", "ṛ", "ṛh", "f", "ẏ"]
  SinhalaConsonantMap := us!["n̆g", "n̆j", "n̆ḍ", "n̆d", "m̆b"]
  SignMap := us!["’", ".", "..", "!˂˂˂˂", "!!˂", "!!!˂", "!!!˂", "!!!˂"]
  NumeralMap := us!["0", "1", "2", "3", "4", "5", "6", "7", "8", "9"]
  Aytham := us!["ḵ"]
  OmMap := us!["ōṃ"]

/-- ScriptMap/Roman/SoraSompeng.py -/
def SoraSompeng : Tbl where
  VowelMap := us!["ə", "𑃢", "𑃤", "𑃤ʽ", "𑃥", "𑃥ʽ", "𑃝𑃤ʽ", "𑃝𑃤ʽ", "𑃘𑃤ʽ", "𑃘𑃤ʽ", "𑃣", "𑃧", "𑃦", "𑃦𑃥", "𑃥˂", "𑃥ʽ˂", "𑃢˂", "𑃢˂", "𑃣˂", "𑃥˂", "𑃥ʽ˂", "𑃥ʽ˂", "𑃧˂", "𑃧˂", "𑃦˂", "𑃦˂", "𑃧˂", "𑃥˂", "𑃤˂", "𑃤ʽ˂", "𑃥˂", "𑃦˂", "ə˂", "ə˂", "𑃢˂", "ə˂", "ə˂", "𑃦𑃥˂", "𑃦˂", "𑃦˂", "𑃦˂", "𑃤ʽ˂", "𑃥˂", "𑃥ʽ˂", "𑃧˂", "𑃧˂", "𑃦˂", "𑃦𑃥˂"]
  SouthVowelMap := us!["𑃣ʽ", "𑃦ʽ"]
  ModernVowelMap := us!["𑃣ʽ", "𑃢ʽ", "𑃣ʽ˂", "𑃣ʽ˂", "𑃢ʽ˂", "𑃢ʽ˂"]
  SinhalaVowelMap := us!["𑃣ʽ"]
  VowelSignMap := us!["𑃢", "𑃤", "𑃤ʽ", "𑃥", "𑃥ʽ", "𑃝𑃤ʽ", "𑃝𑃤ʽ", "𑃘𑃤ʽ", "𑃘𑃤ʽ", "𑃣", "𑃧", "𑃦", "𑃦𑃥", "𑃥˂", "𑃥ʽ˂", "𑃢˂", "𑃢˂", "𑃣˂", "𑃥˂", "𑃥ʽ˂", "𑃥ʽ˂", "𑃧˂", "𑃧˂", "𑃦˂", "𑃦˂", "𑃧˂", "𑃥ʽ˂", "𑃤˂", "𑃤ʽ˂", "𑃥˂", "𑃦˂", "˂", "˂", "𑃢˂", "˂", "𑃣˂", "𑃥˂˂", "𑃦˂", "𑃦˂", "𑃦˂", "𑃦˂", "𑃥˂", "𑃥ʽ˂", "𑃧˂", "𑃧˂", "𑃦˂", "𑃦𑃥˂"]
  SouthVowelSignMap := us!["𑃣ʽ", "𑃦ʽ"]
  ModernVowelSignMap := us!["𑃣ʽ", "𑃢ʽ", "𑃣ʽ˂", "𑃣ʽ˂", "𑃢ʽ˂", "𑃢ʽ˂"]
  SinhalaVowelSignMap := us!["𑃣ʽ"]
  ViramaMap := us!["×"]
  AyogavahaMap := us!["𑃖ʽ", "𑃖ʽ", "𑃞ʽ", "𑃞ʽ˂", "𑃞ʽ˂", "˂", "˂˂", "˂˂˂", "˂˂˂˂", "˂˂˂", "˂˂˂", "˂˂˂", "˂", "˂", "˂", "˂˂˂˂˂", "˂˂˂˂˂", "˂˂˂˂˂", "˂˂˂˂˂", "˂˂˂˂˂"]
  NuktaMap := us!["𑃨ʽ"]
  ConsonantMap := us!["𑃟", "𑃟𑃠", "𑃕", "𑃕𑃠", "𑃗", "𑃓", "𑃓𑃠", "𑃠", "𑃠𑃠", "𑃡", "𑃑𑃨", "𑃑𑃨𑃠", "𑃔", "𑃔𑃠", "𑃙𑃨", "𑃑", "𑃑𑃠", "𑃔𑃨", "𑃔𑃨𑃠ʽ", "𑃙", "𑃛", "𑃛𑃠", "𑃒", "𑃒𑃠", "𑃖", "𑃜", "𑃝", "𑃘", "𑃚", "𑃐𑃠ʽ", "𑃐𑃨", "𑃐", "𑃞", "𑃒˂", "𑃟˂", "𑃛𑃠˂", "𑃐˂", "𑃞˂", "𑃜˂", "𑃑𑃨ʽ", "𑃗˂", "𑃡˂", "𑃖˂", "𑃛˂", "𑃜˂", "𑃝˂", "𑃚˂", "𑃛˂", "𑃐˂", "𑃞˂", "𑃟˂", "𑃟˂", "𑃡˂"]
  SouthConsonantMap := us!["𑃘𑃨", "𑃘𑃨ʽ", "𑃘ʽ", "𑃙ʽ"]
  NuktaConsonantMap := us!["𑃟ʽ", "𑃟𑃠ʽ", "𑃕ʽ", "𑃠ʽ", "𑃝𑃔", "𑃝𑃔𑃠", "𑃛𑃠ʽ", "𑃜ʽ"]
  SinhalaConsonantMap := us!["𑃗𑃕ʽ", "𑃡𑃓ʽ", "𑃙𑃨𑃔ʽ", "𑃙𑃔ʽ", "𑃖𑃛ʽ"]
  SignMap := us!["'", ".", "..", "!˂˂˂˂", "!!˂", "!!!˂", "!!!˂", "!!!˂"]
  NumeralMap := us!["𑃰", "𑃱", "𑃲", "𑃳", "𑃴", "𑃵", "𑃶", "𑃷", "𑃸", "𑃹"]
  Aytham := us!["𑃞ʽ"]
  OmMap := us!["𑃦𑃖ʽ"]

/-- ScriptMap/Roman/TeluguRomanLoC.py -/
def TeluguRomanLoC : Tbl where
  VowelMap := us!["a", "ā", "i", "ī", "u", "ū", "r̥", "r̥̄", "l̥", "l̥̄", "ē", "ai", "ō", "au", "u˂", "ū˂", "ā˂", "ā˂", "ē˂", "u˂", "ū˂", "ū˂", "ai˂", "ai˂", "ō˂", "ō˂", "ai˂", "u˂", "i˂", "ī˂", "u˂", "ō˂", "a˂", "a˂", "ā˂", "a˂", "a˂", "au˂", "ō˂", "ō˂", "ō˂", "ī˂", "u˂", "ū˂", "ai˂", "ai˂", "ō˂", "au˂"]
  SouthVowelMap := us!["e", "o"]
  ModernVowelMap := us!["æ", "ô", "æ˂", "æ˂", "ô˂", "ô˂"]
  SinhalaVowelMap := us!["ǣ"]
  VowelSignMap := us!["ā", "i", "ī", "u", "ū", "r̥", "r̥̄", "l̥", "l̥̄", "ē", "ai", "ō", "au", "u˂", "ū˂", "ā˂", "ā˂", "ē˂", "u˂", "ū˂", "ū˂", "ai˂", "ai˂", "ō˂", "ō˂", "ai˂", "ū˂", "i˂", "ī˂", "u˂", "ō˂", "˂", "˂", "ā˂", "˂", "ē˂", "u˂˂", "ō˂", "ō˂", "ō˂", "ō˂", "u˂", "ū˂", "ai˂", "ai˂", "ō˂", "au˂"]
  SouthVowelSignMap := us!["e", "o"]
  ModernVowelSignMap := us!["æ", "ô", "æ˂", "æ˂", "ô˂", "ô˂"]
  SinhalaVowelSignMap := us!["ǣ"]
  ViramaMap := us!["×"]
  AyogavahaMap := us!["m̐", "ṃ", "ḥ", "ḥ˂", "ḥ˂", "˂", "˂˂", "˂˂˂", "˂˂˂˂", "˂˂˂", "˂˂˂", "˂˂˂", "˂", "˂", "˂", "˂˂˂˂˂", "˂˂˂˂˂", "˂˂˂˂˂", "˂˂˂˂˂", "˂˂˂˂˂"]
  NuktaMap := us!["̈"]
  ConsonantMap := us!["k", "kh", "g", "gh", "ṅ", "c", "ch", "j", "jh", "ñ", "ṭ", "ṭh", "ḍ", "ḍh", "ṇ", "t", "th", "d", "dh", "n", "p", "ph", "b", "bh", "m", "y", "r", "l", "v", "ś", "ṣ", "s", "h", "b˂", "k˂", "ph˂", "s˂", "h˂", "y˂", "ẗ", "ṅ˂", "ñ˂", "m˂", "p˂", "y˂", "r˂", "v˂", "p˂", "s˂", "h˂", "k˂", "k˂", "ñ˂"]
  SouthConsonantMap := us!["ḷ", "l̤", "ṟ", "ṉ"]
  NuktaConsonantMap := us!["q", "k͟h", "ġ", "z", "ṛ", "ṛh", "f", "ẏ"]
  SinhalaConsonantMap := us!["n̆g", "n̆j", "n̆ḍ", "n̆d", "m̆b"]
  SignMap := us!["’", ".", "..", "!˂˂˂˂", "!!˂", "!!!˂", "!!!˂", "!!!˂"]
  NumeralMap := us!["0", "1", "2", "3", "4", "5", "6", "7", "8", "9"]
  Aytham := us!["ḵ"]
  OmMap := us!["ōṃ"]

/-- ScriptMap/Roman/ThamLoCRomanLoC.py -/
def ThamLoCRomanLoC : Tbl where
  VowelMap := us!["a", "ā", "i", "ī", "u", "ū", "ṛ", "ṝ", "l̤", "l̤̄", "e", "ai", "o", "ò", "u˂", "ū˂", "ā˂", "ā˂", "e˂", "u˂", "ū˂", "ū˂", "ai˂", "oi", "o˂", "o˂", "ai˂", "u˂", "i˂", "ī˂", "u˂", "o˂", "a˂", "a˂", "ā˂", "aʽ", "è", "òʽ", "ǫḥ", "ǫḥʽ", "ǫ", "ǫʽ", "ư", "ư̄", "aiy᩺", "ǫi", "eo", "ao"]
  SouthVowelMap := us!["ĕ", "ŏ"]
  ModernVowelMap := us!["æ", "ô", "æ˂", "æ˂", "œ", "œʽ"]
  SinhalaVowelMap := us!["ǣ"]
  VowelSignMap := us!["ā", "i", "ī", "u", "ū", "ṛ", "ṝ", "l̤", "l̤̄", "e", "ai", "o", "ò", "u˂", "ū˂", "ā˂", "ā˂", "e˂", "u˂", "ū˂", "ū˂", "ai˂", "oi", "o˂", "o˂", "ai˂", "ū˂", "i˂", "ī˂", "u˂", "o˂", "˂", "˂", "ā˂", "aʽ", "è", "òʽ", "ǫḥ", "ǫḥʽ", "ǫ", "ǫʽ", "ư", "ư̄", "aiy᩺", "ǫi", "eo", "ao"]
  SouthVowelSignMap := us!["ĕ", "ŏ"]
  ModernVowelSignMap := us!["æ", "ô", "æ˂", "æ˂", "œ", "œʽ"]
  SinhalaVowelSignMap := us!["ǣ"]
  ViramaMap := us!["×"]
  AyogavahaMap := us!["m̐", "ṃ", "ḥ", "ḥ˂", "ḥ˂", "˂", "˂˂", "˂˂˂", "˂˂˂˂", "˂˂˂", "˂˂˂", "˂˂˂", "˂", "˂", "˂", "′", "″", "ˆ", "ᴶ", "ʵ"]
  NuktaMap := us!["̈"]
  ConsonantMap := us!["k", "kh", "g", "gh", "ṅ", "c", "ch", "j", "jh", "ñ", "ṭ", "ṭh", "ḍ", "ḍh", "ṇ", "t", "th", "d", "dh", "n", "p", "ph", "b", "bh", "m", "y", "r", "l", "v", "ś", "ṣ", "s", "h", "b̤", "k̤", "f̈", "s̤", "h̤", "ÿ", "ẗ", "ṅ˂", "ñ˂", "m˂", "p˂", "y˂", "r˂", "v˂", "p˂", "s˂", "h˂", "k˂", "k˂", "ññ"]
  SouthConsonantMap := us!["ḷ", "ḻ", "ṟ", "ṉ"]
  NuktaConsonantMap := us!["q", "k͟h", "ġ", "z", "r̤", "r̤h", "f", "ẏ"]
  SinhalaConsonantMap := us!["n̆g", "n̆j", "n̆ḍ", "n̆d", "m̆b"]
  SignMap := us!["'ʽ", ".", "..", "!˂˂˂˂", "!!˂", "!!!˂", "læ", "læ"]
  NumeralMap := us!["0", "1", "2", "3", "4", "5", "6", "7", "8", "9"]
  Aytham := us!["ḵ"]
  OmMap := us!["oṃ"]

/-- ScriptMap/Roman/TibetanLoCRomanLoC.py -/
def TibetanLoCRomanLoC : Tbl where
  VowelMap := us!["a", "ā", "i", "ī", "u", "ū", "r̥", "r̥̄", "l̥", "l̥̄", "e", "ai", "o", "au", "u˂", "ū˂", "ā˂", "ā˂", "e˂", "u˂", "ū˂", "ū˂", "ai˂", "ai˂", "o˂", "o˂", "ai˂", "u˂", "i˂", "ī˂", "u˂", "o˂", "a˂", "a˂", "ā˂", "a˂", "a˂", "au˂", "o˂", "o˂", "o˂", "ī˂", "u˂", "ū˂", "ai˂", "ai˂", "o˂", "au˂"]
  SouthVowelMap := us!["ĕ", "ŏ"]
  ModernVowelMap := us!["æ", "ô", "æ˂", "æ˂", "ô˂", "ô˂"]
  SinhalaVowelMap := us!["ǣ"]
  VowelSignMap := us!["ā", "i", "ī", "u", "ū", "r̥", "r̥̄", "l̥", "l̥̄", "e", "ai", "o", "au", "u˂", "ū˂", "ā˂", "ā˂", "e˂", "u˂", "ū˂", "ū˂", "ai˂", "ai˂", "o˂", "o˂", "ai˂", "ū˂", "i˂", "ī˂", "u˂", "o˂", "˂", "˂", "ā˂", "˂", "e˂", "u˂˂", "o˂", "o˂", "o˂", "o˂", "u˂", "ū˂", "ai˂", "ai˂", "o˂", "au˂"]
  SouthVowelSignMap := us!["ĕ", "ŏ"]
  ModernVowelSignMap := us!["æ", "ô", "æ˂", "æ˂", "ô˂", "ô˂"]
  SinhalaVowelSignMap := us!["ǣ"]
  ViramaMap := us!["×"]
  AyogavahaMap := us!["m̐", "ṃ", "ḥ", "ḥ˂", "ḥ˂", "˂", "˂˂", "˂˂˂", "˂˂˂˂", "˂˂˂", "˂˂˂", "˂˂˂", "˂", "˂", "˂", "˂˂˂˂˂", "˂˂˂˂˂", "˂˂˂˂˂", "˂˂˂˂˂", "˂˂˂˂˂"]
  NuktaMap := us!["̈"]
  ConsonantMap := us!["k", "kh", "g", "gh", "ng", "c", "ch", "j", "jh", "ny", "ṭ", "ṭh", "ḍ", "ḍh", "ṇ", "tʹ", "th", "d", "dh", "nʹ", "p", "ph", "b", "bh", "m", "y", "r", "l", "w", "sh", "ṣ", "s", "h", "b˂", "k˂", "ph˂", "s˂", "h˂", "y˂", "tʹ̈", "ng˂", "ny˂", "m˂", "p˂", "y˂", "r˂", "w˂", "p˂", "s˂", "h˂", "k˂", "k˂", "ny˂"]
  SouthConsonantMap := us!["ḷ", "ḻ", "ṟ", "ṉ"]
  NuktaConsonantMap := us!["ts", "tsh", "dz", "dzh", "’", "zh", "z", "ẏ"]
  SinhalaConsonantMap := us!["n̆g", "n̆j", "n̆ḍ", "n̆d", "m̆b"]
  SignMap := us!["`", ".", "..", "!˂˂˂˂", "!!˂", "!!!˂", "!!!˂", "!!!˂"]
  NumeralMap := us!["0", "1", "2", "3", "4", "5", "6", "7", "8", "9"]
  Aytham := us!["ḵ"]
  OmMap := us!["oṃ"]

/-- ScriptMap/Roman/Titus.py -/
def Titus : Tbl where
  VowelMap := us!["a", "ā", "i", "ī", "u", "ū", "r̥", "r̥̄", "l̥", "l̥̄", "e", "ai", "o", "au", "u˂", "ū˂", "ā˂", "ā˂", "e˂", "u˂", "ū˂", "ū˂", "ai˂", "ai˂", "o˂", "o˂", "ai˂", "u˂", "i˂", "ī˂", "u˂", "o˂", "a˂", "a˂", "ā˂", "a˂", "a˂", "au˂", "o˂", "o˂", "o˂", "ī˂", "u˂", "ū˂", "ai˂", "ai˂", "o˂", "au˂"]
  SouthVowelMap := us!["ĕ", "ŏ"]
  ModernVowelMap := us!["æ", "ô", "æ˂", "æ˂", "ô˂", "ô˂"]
  SinhalaVowelMap := us!["ǣ"]
  VowelSignMap := us!["ā", "i", "ī", "u", "ū", "r̥", "r̥̄", "l̥", "l̥̄", "e", "ai", "o", "au", "u˂", "ū˂", "ā˂", "ā˂", "e˂", "u˂", "ū˂", "ū˂", "ai˂", "ai˂", "o˂", "o˂", "ai˂", "ū˂", "i˂", "ī˂", "u˂", "o˂", "˂", "˂", "ā˂", "˂", "e˂", "u˂˂", "o˂", "o˂", "o˂", "o˂", "u˂", "ū˂", "ai˂", "ai˂", "o˂", "au˂"]
  SouthVowelSignMap := us!["ĕ", "ŏ"]
  ModernVowelSignMap := us!["æ", "ô", "æ˂", "æ˂", "ô˂", "ô˂"]
  SinhalaVowelSignMap := us!["ǣ"]
  ViramaMap := us!["×"]
  AyogavahaMap := us!["m̐", "ṃ", "ḥ", "ẖ", "ḫ", "˂", "˂˂", "˂˂˂", "˂˂˂˂", "˂˂˂", "˂˂˂", "˂˂˂", "˂", "˂", "˂", "˂˂˂˂˂", "˂˂˂˂˂", "˂˂˂˂˂", "˂˂˂˂˂", "˂˂˂˂˂"]
  NuktaMap := us!["̈"]
  ConsonantMap := us!["k", "kʰ", "g", "gʰ", "ṅ", "c", "cʰ", "j", "jʰ", "ñ", "ṭ", "ṭʰ", "ḍ", "ḍʰ", "ṇ", "t", "tʰ", "d", "dʰ", "n", "p", "pʰ", "b", "bʰ", "m", "y", "r", "l", "v", "ś", "ṣ", "s", "h", "b˂", "k˂", "pʰ˂", "s˂", "h˂", "y˂", "ẗ", "ṅ˂", "ñ˂", "m˂", "p˂", "y˂", "r˂", "v˂", "p˂", "s˂", "h˂", "k˂", "k˂", "ñ˂"]
  SouthConsonantMap := us!["ḷ", "ḻ", "ṟ", "ṉ"]
  NuktaConsonantMap := us!["q", "k͟ʰ", "ġ", "z", "ṛ", "ṛʰ", "f", "ẏ"]
  SinhalaConsonantMap := us!["n̆g", "n̆j", "n̆ḍ", "n̆d", "m̆b"]
  SignMap := us!["'", ".", "..", "!˂˂˂˂", "!!˂", "!!!˂", "!!!˂", "!!!˂"]
  NumeralMap := us!["0", "1", "2", "3", "4", "5", "6", "7", "8", "9"]
  Aytham := us!["ḵ"]
  OmMap := us!["oṃ"]

/-- ScriptMap/Roman/TolongSiki.py -/
def TolongSiki : Tbl where
  VowelMap := us!["a", "A", "i", "iʽ", "u", "uʽ", "ruʽ", "ruʽ", "luʽ", "luʽ", "e", "ai", "o", "au", "u˂", "uʽ˂", "A˂", "A˂", "e˂", "u˂", "uʽ˂", "uʽ˂", "ai˂", "ai˂", "o˂", "o˂", "ai˂", "u˂", "i˂", "iʽ˂", "u˂", "o˂", "a˂", "a˂", "A˂", "a˂", "a˂", "au˂", "o˂", "o˂", "o˂", "iʽ˂", "u˂", "uʽ˂", "ai˂", "ai˂", "o˂", "au˂"]
  SouthVowelMap := us!["eʽ", "aʽ"]
  ModernVowelMap := us!["eʽ", "Aʽ", "eʽ˂", "eʽ˂", "Aʽ˂", "Aʽ˂"]
  SinhalaVowelMap := us!["Aʽ"]
  VowelSignMap := us!["A", "i", "iʽ", "u", "uʽ", "ruʽ", "ruʽ", "luʽ", "luʽ", "e", "ai", "o", "au", "u˂", "uʽ˂", "A˂", "A˂", "e˂", "u˂", "uʽ˂", "uʽ˂", "ai˂", "ai˂", "o˂", "o˂", "ai˂", "uʽ˂", "i˂", "iʽ˂", "u˂", "o˂", "˂", "˂", "A˂", "˂", "e˂", "u˂˂", "o˂", "o˂", "o˂", "o˂", "u˂", "uʽ˂", "ai˂", "ai˂", "o˂", "au˂"]
  SouthVowelSignMap := us!["eʽ", "aʽ"]
  ModernVowelSignMap := us!["eʽ", "Aʽ", "eʽ˂", "eʽ˂", "Aʽ˂", "Aʽ˂"]
  SinhalaVowelSignMap := us!["Aʽ"]
  ViramaMap := us!["×"]
  AyogavahaMap := us!["Mʽ", "M", "hʽ", "hʽ˂", "hʽ˂", "˂", "˂˂", "˂˂˂", "˂˂˂˂", "˂˂˂", "˂˂˂", "˂˂˂", "˂", "˂", "˂", "˂˂˂˂˂", "˂˂˂˂˂", "˂˂˂˂˂", "˂˂˂˂˂", "˂˂˂˂˂"]
  NuktaMap := us!["ʽʽʽʽ"]
  ConsonantMap := us!["k", "K", "g", "G", "W", "c", "C", "j", "J", "Y", "t", "T", "d", "D", "N", "q", "Q", "v", "V", "n", "p", "P", "b", "B", "m", "y", "r", "l", "w", "sʽ", "sʽ", "s", "h", "b˂", "k˂", "P˂", "s˂", "h˂", "y˂", "qʽʽʽʽ", "W˂", "Y˂", "m˂", "p˂", "y˂", "r˂", "w˂", "p˂", "s˂", "h˂", "k˂", "k˂", "Y˂"]
  SouthConsonantMap := us!["lʽ", "lʽ", "rʽ", "nʽ"]
  NuktaConsonantMap := us!["kʽ", "x", "gʽ", "jʽ", "z", "Z", "Pʽ", "yʽ"]
  SinhalaConsonantMap := us!["Mg", "Mj", "Md", "Mv", "Mb"]
  SignMap := us!["'", ".", "..", "!˂˂˂˂", "!!˂", "!!!˂", "!!!˂", "!!!˂"]
  NumeralMap := us!["0", "¡", "¢", "£", "¤", "¥", "¦", "§", "¨", "©"]
  Aytham := us!["hʽ"]
  OmMap := us!["oM"]

/-- ScriptMap/Roman/Velthuis.py -/
def Velthuis : Tbl where
  VowelMap := us!["a", "aa", "i", "ii", "u", "uu", ".r", ".R", ".l", ".L", "e", "ai", "o", "au", "u˂", "uu˂", "aa˂", "aa˂", "e˂", "u˂", "uu˂", "uu˂", "ai˂", "ai˂", "o˂", "o˂", "ai˂", "u˂", "i˂", "ii˂", "u˂", "o˂", "a˂", "a˂", "aa˂", "a˂", "a˂", "au˂", "o˂", "o˂", "o˂", "ii˂", "u˂", "uu˂", "ai˂", "ai˂", "o˂", "au˂"]
  SouthVowelMap := us!["E", "O"]
  ModernVowelMap := us!["aE", "aO", "aE˂", "aE˂", "aO˂", "aO˂"]
  SinhalaVowelMap := us!["AE"]
  VowelSignMap := us!["aa", "i", "ii", "u", "uu", ".r", ".R", ".l", ".L", "e", "ai", "o", "au", "u˂", "uu˂", "aa˂", "aa˂", "e˂", "u˂", "uu˂", "uu˂", "ai˂", "ai˂", "o˂", "o˂", "ai˂", "uu˂", "i˂", "ii˂", "u˂", "o˂", "˂", "˂", "aa˂", "˂", "e˂", "u˂˂", "o˂", "o˂", "o˂", "o˂", "u˂", "uu˂", "ai˂", "ai˂", "o˂", "au˂"]
  SouthVowelSignMap := us!["E", "O"]
  ModernVowelSignMap := us!["aE", "aO", "aE˂", "aE˂", "aO˂", "aO˂"]
  SinhalaVowelSignMap := us!["AE"]
  ViramaMap := us!["×"]
  AyogavahaMap := us!["~m", ".m", ".h", ".h˂", ".h˂", "˂", "˂˂", "˂˂˂", "˂˂˂˂", "˂˂˂", "˂˂˂", "˂˂˂", "˂", "˂", "˂", "˂˂˂˂˂", "˂˂˂˂˂", "˂˂˂˂˂", "˂˂˂˂˂", "˂˂˂˂˂"]
  NuktaMap := us!["Q"]
  ConsonantMap := us!["k", "kh", "g", "gh", "\"n", "c", "ch", "j", "jh", "~n", ".t", ".th", ".d", ".dh", ".n", "t", "th", "d", "dh", "n", "p", "ph", "b", "bh", "m", "y", "r", "l", "v", "\"s", ".s", "s", "h", "b˂", "k˂", "ph˂", "s˂", "h˂", "y˂", "tQ", "\"n˂", "~n˂", "m˂", "p˂", "y˂", "r˂", "v˂", "p˂", "s˂", "h˂", "k˂", "k˂", "~n˂"]
  SouthConsonantMap := us!["..l", "_l", "_r", "_n"]
  NuktaConsonantMap := us!["q", "_kh", ".g", "z", "..r", "..rh", "f", ".y"]
  SinhalaConsonantMap := us!["n*g", "n*j", "n*.d", "n*d", "m*b"]
  SignMap := us![".a", ".", "..", "!˂˂˂˂", "!!˂", "!!!˂", "!!!˂", "!!!˂"]
  NumeralMap := us!["0", "1", "2", "3", "4", "5", "6", "7", "8", "9"]
  Aytham := us!["_k"]
  OmMap := us!["o.m"]

/-- ScriptMap/Roman/WX-kok.py -/
def WX_kok : Tbl where
  VowelMap := us!["a", "A", "i", "I", "u", "U", "q", "qVY", "LY", "LVY", "E", "Y", "O", "Q", "u˂", "U˂", "A˂", "A˂", "E˂", "u˂", "U˂", "U˂", "Y˂", "Y˂", "O˂", "O˂", "Y˂", "u˂", "i˂", "I˂", "u˂", "O˂", "a˂", "a˂", "A˂", "a˂", "a˂", "Q˂", "O˂", "O˂", "O˂", "I˂", "u˂", "U˂", "Y˂", "Y˂", "O˂", "Q˂"]
  SouthVowelMap := us!["e", "o"]
  ModernVowelMap := us!["Z", "V", "Z˂", "Z˂", "V˂", "V˂"]
  SinhalaVowelMap := us!["AEVY"]
  VowelSignMap := us!["A", "i", "I", "u", "U", "q", "qVY", "LY", "LVY", "E", "Y", "O", "Q", "u˂", "U˂", "A˂", "A˂", "E˂", "u˂", "U˂", "U˂", "Y˂", "Y˂", "O˂", "O˂", "Y˂", "U˂", "i˂", "I˂", "u˂", "O˂", "˂", "˂", "A˂", "˂", "E˂", "u˂˂", "O˂", "O˂", "O˂", "O˂", "u˂", "U˂", "Y˂", "Y˂", "O˂", "Q˂"]
  SouthVowelSignMap := us!["e", "o"]
  ModernVowelSignMap := us!["Z", "V", "Z˂", "Z˂", "V˂", "V˂"]
  SinhalaVowelSignMap := us!["AEVY"]
  ViramaMap := us!["×"]
  AyogavahaMap := us!["~", "M", "H", "H˂", "H˂", "˂", "˂˂", "˂˂˂", "˂˂˂˂", "˂˂˂", "˂˂˂", "˂˂˂", "˂", "˂", "˂", "˂˂˂˂˂", "˂˂˂˂˂", "˂˂˂˂˂", "˂˂˂˂˂", "˂˂˂˂˂"]
  NuktaMap := us!["QY"]
  ConsonantMap := us!["k", "K", "g", "G", "f", "c", "C", "j", "J", "F", "t", "T", "d", "D", "N", "w", "W", "x", "X", "n", "p", "P", "b", "B", "m", "y", "r", "l", "v", "z", "S", "s", "h", "b˂", "k˂", "P˂", "s˂", "h˂", "y˂", "wQY", "f˂", "F˂", "m˂", "p˂", "y˂", "r˂", "v˂", "p˂", "s˂", "h˂", "k˂", "k˂", "F˂"]
  SouthConsonantMap := us!["L", "lYYY", "R", "nYY"]
  NuktaConsonantMap := us!["kYY", "KYY", "GYY", "zYY", "dYY", "DYY", "PYY", "yYY"]
  SinhalaConsonantMap := us!["nYYgY", "nYYjY", "nYYdY", "nYYxY", "mYYbY"]
  SignMap := us!["'Y", ".Y", "..Y", "!˂˂˂˂", "!!˂", "!!!˂", "!!!˂", "!!!˂"]
  NumeralMap := us!["0", "1", "2", "3", "4", "5", "6", "7", "8", "9"]
  Aytham := us!["kYYY"]
  OmMap := us!["oMY"]

/-- ScriptMap/Roman/WX.py -/
def WX : Tbl where
  VowelMap := us!["a", "A", "i", "I", "u", "U", "q", "qV", "L", "LV", "e", "E", "o", "O", "u˂", "U˂", "A˂", "A˂", "e˂", "u˂", "U˂", "U˂", "E˂", "E˂", "o˂", "o˂", "E˂", "u˂", "i˂", "I˂", "u˂", "o˂", "a˂", "a˂", "A˂", "a˂", "a˂", "O˂", "o˂", "o˂", "o˂", "I˂", "u˂", "U˂", "E˂", "E˂", "o˂", "O˂"]
  SouthVowelMap := us!["eV", "oV"]
  ModernVowelMap := us!["aEV", "aOV", "aEV˂", "aEV˂", "aOV˂", "aOV˂"]
  SinhalaVowelMap := us!["AEV"]
  VowelSignMap := us!["A", "i", "I", "u", "U", "q", "qV", "L", "LV", "e", "E", "o", "O", "u˂", "U˂", "A˂", "A˂", "e˂", "u˂", "U˂", "U˂", "E˂", "E˂", "o˂", "o˂", "E˂", "U˂", "i˂", "I˂", "u˂", "o˂", "˂", "˂", "A˂", "˂", "e˂", "u˂˂", "o˂", "o˂", "o˂", "o˂", "u˂", "U˂", "E˂", "E˂", "o˂", "O˂"]
  SouthVowelSignMap := us!["eV", "oV"]
  ModernVowelSignMap := us!["aEV", "aOV", "aEV˂", "aEV˂", "aOV˂", "aOV˂"]
  SinhalaVowelSignMap := us!["AEV"]
  ViramaMap := us!["×"]
  AyogavahaMap := us!["z", "M", "H", "H˂", "H˂", "˂", "˂˂", "˂˂˂", "˂˂˂˂", "˂˂˂", "˂˂˂", "˂˂˂", "˂", "˂", "˂", "˂˂˂˂˂", "˂˂˂˂˂", "˂˂˂˂˂", "˂˂˂˂˂", "˂˂˂˂˂"]
  NuktaMap := us!["Q"]
  ConsonantMap := us!["k", "K", "g", "G", "f", "c", "C", "j", "J", "F", "t", "T", "d", "D", "N", "w", "W", "x", "X", "n", "p", "P", "b", "B", "m", "y", "r", "l", "v", "S", "R", "s", "h", "b˂", "k˂", "P˂", "s˂", "h˂", "y˂", "wQ", "f˂", "F˂", "m˂", "p˂", "y˂", "r˂", "v˂", "p˂", "s˂", "h˂", "k˂", "k˂", "F˂"]
  SouthConsonantMap := us!["lY", "lYY", "rY", "nY"]
  NuktaConsonantMap := us!["kY", "KY", "GY", "zY", "dY", "DY", "PY", "yY"]
  SinhalaConsonantMap := us!["nYYg", "nYYj", "nYYd", "nYYx", "mYYb"]
  SignMap := us!["Z", ".", "..", "!˂˂˂˂", "!!˂", "!!!˂", "!!!˂", "!!!˂"]
  NumeralMap := us!["0", "1", "2", "3", "4", "5", "6", "7", "8", "9"]
  Aytham := us!["kYY"]
  OmMap := us!["oM"]

/-- ScriptMap/Roman/Wancho.py -/
def Wancho : Tbl where
  VowelMap := us!["𞋁", "𞋀", "𞋜", "𞋜ʽ", "𞋞", "𞋞ʽ", "𞋗𞋞ʽ", "𞋗𞋞ʽ", "𞋈𞋞ʽ", "𞋈𞋞ʽ", "𞋛", "𞋀𞋜", "𞋕", "𞋖", "𞋞˂", "𞋞ʽ˂", "𞋀˂", "𞋀˂", "𞋛˂", "𞋞˂", "𞋞ʽ˂", "𞋞ʽ˂", "𞋀𞋜˂", "𞋀𞋜˂", "𞋕˂", "𞋕˂", "𞋀𞋜˂", "𞋞˂", "𞋜˂", "𞋜ʽ˂", "𞋞˂", "𞋕˂", "𞋁˂", "𞋁˂", "𞋀˂", "𞋁˂", "𞋁˂", "𞋖˂", "𞋕˂", "𞋕˂", "𞋕˂", "𞋜ʽ˂", "𞋞˂", "𞋞ʽ˂", "𞋀𞋜˂", "𞋀𞋜˂", "𞋕˂", "𞋖˂"]
  SouthVowelMap := us!["𞋛ʽ", "𞋕ʽ"]
  ModernVowelMap := us!["𞋛ʽ", "𞋀ʽ", "𞋛ʽ˂", "𞋛ʽ˂", "𞋀ʽ˂", "𞋀ʽ˂"]
  SinhalaVowelMap := us!["𞋛ʽ"]
  VowelSignMap := us!["𞋀", "𞋜", "𞋜ʽ", "𞋞", "𞋞ʽ", "𞋗𞋞ʽ", "𞋗𞋞ʽ", "𞋈𞋞ʽ", "𞋈𞋞ʽ", "𞋛", "𞋀𞋜", "𞋕", "𞋖", "𞋞˂", "𞋞ʽ˂", "𞋀˂", "𞋀˂", "𞋛˂", "𞋞˂", "𞋞ʽ˂", "𞋞ʽ˂", "𞋀𞋜˂", "𞋀𞋜˂", "𞋕˂", "𞋕˂", "𞋀𞋜˂", "𞋞ʽ˂", "𞋜˂", "𞋜ʽ˂", "𞋞˂", "𞋕˂", "˂", "˂", "𞋀˂", "˂", "𞋛˂", "𞋞˂˂", "𞋕˂", "𞋕˂", "𞋕˂", "𞋕˂", "𞋞˂", "𞋞ʽ˂", "𞋀𞋜˂", "𞋀𞋜˂", "𞋕˂", "𞋖˂"]
  SouthVowelSignMap := us!["𞋛ʽ", "𞋕ʽ"]
  ModernVowelSignMap := us!["𞋛ʽ", "𞋀ʽ", "𞋛ʽ˂", "𞋛ʽ˂", "𞋀ʽ˂", "𞋀ʽ˂"]
  SinhalaVowelSignMap := us!["𞋛ʽ"]
  ViramaMap := us!["×"]
  AyogavahaMap := us!["ʿ", "ʾ", "𞋫", "𞋫˂", "𞋫˂", "˂", "˂˂", "˂˂˂", "˂˂˂˂", "˂˂˂", "˂˂˂", "˂˂˂", "˂", "˂", "˂", "˂˂˂˂˂", "˂˂˂˂˂", "˂˂˂˂˂", "˂˂˂˂˂", "˂˂˂˂˂"]
  NuktaMap := us!["Ø"]
  ConsonantMap := us!["𞋔", "𞋙", "𞋅", "𞋅ʽ", "𞋝", "𞋃", "𞋃ʽ", "𞋐", "𞋐ʽ", "𞋩", "𞋋ʽ", "𞋌ʽ", "𞋄ʽ", "𞋄ʽ", "𞋉ʽ", "𞋋", "𞋌", "𞋄", "𞋄ʽ", "𞋉", "𞋊", "𞋇", "𞋂", "𞋂ʽ", "𞋘", "𞋆", "𞋗", "𞋈", "𞋓", "𞋏", "𞋏ʽ", "𞋎", "𞋚", "𞋂˂", "𞋔˂", "𞋇˂", "𞋎˂", "𞋚˂", "𞋆˂", "𞋋Ø", "𞋝˂", "𞋩˂", "𞋘˂", "𞋊˂", "𞋆˂", "𞋗˂", "𞋓˂", "𞋊˂", "𞋎˂", "𞋚˂", "𞋔˂", "𞋔˂", "𞋩˂"]
  SouthConsonantMap := us!["𞋟", "𞋟ʽ", "𞋗ʽ", "𞋉ʽ"]
  NuktaConsonantMap := us!["𞋔ʽ", "𞋙ʽ", "𞋅ʽ", "𞋑", "𞋄ʽ", "𞋄ʽ", "𞋍", "𞋆ʽ"]
  SinhalaConsonantMap := us!["𞋝𞋅ʽ", "𞋩𞋐ʽ", "𞋉𞋄ʽ", "𞋉𞋄ʽ", "𞋘𞋂ʽ"]
  SignMap := us!["ʽʽ", ".", "..", "!˂˂˂˂", "!!˂", "!!!˂", "!!!˂", "!!!˂"]
  NumeralMap := us!["𞋰", "𞋱", "𞋲", "𞋳", "𞋴", "𞋵", "𞋶", "𞋷", "𞋸", "𞋹"]
  Aytham := us!["𞋔ʽ"]
  OmMap := us!["𞋦ʽ"]

/-- ScriptMap/Roman/WarangCiti.py -/
def WarangCiti : Tbl where
  VowelMap := us!["𑣁", "𑣁𑣙ʾ", "𑣂", "𑣆", "𑣃", "𑣇", "𑣜𑣃ʽ", "𑣜𑣇ʽ", "𑣚𑣃ʽ", "𑣚𑣇ʽ", "𑣈", "𑣆ʽ", "𑣉", "𑣇ʽ", "𑣃˂", "𑣇˂", "𑣁𑣙ʾ˂", "𑣁𑣙ʾ˂", "𑣈˂", "𑣃˂", "𑣇˂", "𑣇˂", "𑣆ʽ˂", "𑣆ʽ˂", "𑣉˂", "𑣉˂", "𑣆ʽ˂", "𑣃˂", "𑣂˂", "𑣆˂", "𑣃˂", "𑣉˂", "𑣁˂", "𑣁˂", "𑣁𑣙ʾ˂", "𑣁˂", "𑣁˂", "𑣇ʽ˂", "𑣉˂", "𑣉˂", "𑣉˂", "𑣆˂", "𑣃˂", "𑣇˂", "𑣆ʽ˂", "𑣆ʽ˂", "𑣉˂", "𑣇ʽ˂"]
  SouthVowelMap := us!["𑣈ʽ", "𑣉ʽ"]
  ModernVowelMap := us!["𑣈ʽ", "𑣁𑣙ʽ", "𑣈ʽ˂", "𑣈ʽ˂", "𑣁𑣙ʽ˂", "𑣁𑣙ʽ˂"]
  SinhalaVowelMap := us!["𑣈ʽ"]
  VowelSignMap := us!["𑣁𑣙ʾ", "𑣂", "𑣆", "𑣃", "𑣇", "𑣜𑣃ʽ", "𑣜𑣇ʽ", "𑣚𑣃ʽ", "𑣚𑣇ʽ", "𑣈", "𑣆ʽ", "𑣉", "𑣇ʽ", "𑣃˂", "𑣇˂", "𑣁𑣙ʾ˂", "𑣁𑣙ʾ˂", "𑣈˂", "𑣃˂", "𑣇˂", "𑣇˂", "𑣆ʽ˂", "𑣆ʽ˂", "𑣉˂", "𑣉˂", "𑣆ʽ˂", "𑣇˂", "𑣂˂", "𑣆˂", "𑣃˂", "𑣉˂", "˂", "˂", "𑣁𑣙ʾ˂", "˂", "𑣈˂", "𑣃˂˂", "𑣉˂", "𑣉˂", "𑣉˂", "𑣉˂", "𑣃˂", "𑣇˂", "𑣆ʽ˂", "𑣆ʽ˂", "𑣉˂", "𑣇ʽ˂"]
  SouthVowelSignMap := us!["𑣈ʽ", "𑣉ʽ"]
  ModernVowelSignMap := us!["𑣈ʽ", "𑣁𑣙ʽ", "𑣈ʽ˂", "𑣈ʽ˂", "𑣁𑣙ʽ˂", "𑣁𑣙ʽ˂"]
  SinhalaVowelSignMap := us!["𑣈ʽ"]
  ViramaMap := us!["×"]
  AyogavahaMap := us!["𑣀ʽ", "𑣀", "𑣄", "𑣄˂", "𑣄˂", "˂", "˂˂", "˂˂˂", "˂˂˂˂", "˂˂˂", "˂˂˂", "˂˂˂", "˂", "˂", "˂", "˂˂˂˂˂", "˂˂˂˂˂", "˂˂˂˂˂", "˂˂˂˂˂", "˂˂˂˂˂"]
  NuktaMap := us!["ʿ"]
  ConsonantMap := us!["𑣌", "𑣌\u200d𑣙", "𑣋", "𑣋\u200d𑣙", "𑣊", "𑣏", "𑣏\u200d𑣙", "𑣎", "𑣎\u200d𑣙", "𑣍", "𑣒", "𑣒\u200d𑣙", "𑣑", "𑣑\u200d𑣙", "𑣐", "𑣕", "𑣕\u200d𑣙", "𑣔", "𑣔\u200d𑣙", "𑣓", "𑣘", "𑣘\u200d𑣙", "𑣗", "𑣗\u200d𑣙", "𑣖", "𑣅", "𑣜", "𑣚", "𑣟", "𑣝ʽ", "𑣝", "𑣞", "𑣙", "𑣗˂", "𑣌˂", "𑣘\u200d𑣙˂", "𑣞˂", "𑣙˂", "𑣅˂", "𑣕ʿ", "𑣊˂", "𑣍˂", "𑣖˂", "𑣘˂", "𑣅˂", "𑣜˂", "𑣟˂", "𑣘˂", "𑣞˂", "𑣙˂", "𑣌˂", "𑣌˂", "𑣍˂"]
  SouthConsonantMap := us!["𑣚ʽ", "𑣚ʽ", "𑣜ʽ", "𑣓ʽ"]
  NuktaConsonantMap := us!["𑣌ʽ", "𑣌\u200d𑣙ʽ", "𑣋ʽ", "𑣎ʽ", "𑣛", "𑣛\u200d𑣙", "𑣘ʽ", "𑣅ʽ"]
  SinhalaConsonantMap := us!["𑣀𑣋ʽ", "𑣀𑣎ʽ", "𑣀𑣑ʽ", "𑣀𑣔ʽ", "𑣀𑣗ʽ"]
  SignMap := us!["'", ".", "..", "!˂˂˂˂", "!!˂", "!!!˂", "!!!˂", "!!!˂"]
  NumeralMap := us!["𑣠", "𑣡", "𑣢", "𑣣", "𑣤", "𑣥", "𑣦", "𑣧", "𑣨", "𑣩"]
  Aytham := us!["𑣄ʽ"]
  OmMap := us!["𑣿ʽ"]

/-- ScriptMap/NonIndic/Hebrew.py -/
def Hebrew : Tbl where
  VowelMap := us!["אַ", "אָ", "אִ", "אִי", "אֻ", "אוּ", "רֻʽ", "רוּʽ", "לֻʽ", "לוּʽ", "אֵ", "אַײְʽ", "אוֹ", "אַוְʽ", "אֻ˂", "אוּ˂", "אָ˂", "אָ˂", "אֵ˂", "אֻ˂", "אוּ˂", "אוּ˂", "אַײְʽ˂", "אַײְʽ˂", "אוֹ˂", "אוֹ˂", "אַײְʽ˂", "אֻ˂", "אִ˂", "אִי˂", "אֻ˂", "אוֹ˂", "אַ˂", "אַ˂", "אָ˂", "אַ˂", "אַ˂", "אַוְʽ˂", "אוֹ˂", "אוֹ˂", "אוֹ˂", "אִי˂", "אֻ˂", "אוּ˂", "אַײְʽ˂", "אַײְʽ˂", "אוֹ˂", "אַוְʽ˂"]
  SouthVowelMap := us!["אֶ", "אֹ"]
  ModernVowelMap := us!["אָʽ", "אֹʽ", "אָʽ˂", "אָʽ˂", "אֹʽ˂", "אֹʽ˂"]
  SinhalaVowelMap := us!["אֵʽ"]
  VowelSignMap := us!["ָ", "ִ", "ִי", "ֻ", "וּ", "ְרֻʽ", "ְרוּʽ", "ְלֻʽ", "ְלוּʽ", "ֵ", "ַײְʽ", "וֹ", "ַוְʽ", "ֻ˂", "וּ˂", "ָ˂", "ָ˂", "ֵ˂", "ֻ˂", "וּ˂", "וּ˂", "ַײְʽ˂", "ַײְʽ˂", "וֹ˂", "וֹ˂", "ַײְʽ˂", "וּ˂", "ִ˂", "ִי˂", "ֻ˂", "וֹ˂", "˂", "˂", "ָ˂", "˂", "ֵ˂", "ֻ˂˂", "וֹ˂", "וֹ˂", "וֹ˂", "וֹ˂", "ֻ˂", "וּ˂", "ַײְʽ˂", "ַײְʽ˂", "וֹ˂", "ַוְʽ˂"]
  SouthVowelSignMap := us!["ֶ", "ֹ"]
  ModernVowelSignMap := us!["ָʽ", "ֹʽ", "ָʽ˂", "ָʽ˂", "ֹʽ˂", "ֹʽ˂"]
  SinhalaVowelSignMap := us!["ֵʽ"]
  ViramaMap := us!["ְ"]
  AyogavahaMap := us!["מְʼ", "מְʼ", "הְּʽ", "הְּʽ˂", "הְּʽ˂", "˂", "˂˂", "˂˂˂", "˂˂˂˂", "˂˂˂", "˂˂˂", "˂˂˂", "˂", "˂", "˂", "˂˂˂˂˂", "˂˂˂˂˂", "˂˂˂˂˂", "˂˂˂˂˂", "˂˂˂˂˂"]
  NuktaMap := us!["ʾ"]
  ConsonantMap := us!["כּ", "כʽ", "ג", "גʽ", "נʽ", "צ׳", "צ׳ʽ", "ג׳", "ג׳ʽ", "נʽ", "טʽ", "טʽ", "דʽ", "דʽ", "נʽ", "ט", "טʽ", "ד", "דʽ", "נ", "פּ", "פּʽ", "בּ", "בּʽ", "מ", "ײ", "ר", "ל", "װ", "שׁʽ", "שׁ", "ס", "ה", "בּ˂", "כּ˂", "פּʽ˂", "ס˂", "ה˂", "ײ˂", "טʾ", "נʽ˂", "נʽ˂", "מ˂", "פּ˂", "ײ˂", "ר˂", "װ˂", "פּ˂", "ס˂", "ה˂", "כּ˂", "כּ˂", "נʽ˂"]
  SouthConsonantMap := us!["לʽ", "לʽ", "רʽ", "נʽ"]
  NuktaConsonantMap := us!["ק", "כ", "גּ", "ז", "דʽ", "דʽ", "פ", "ײʽ"]
  SinhalaConsonantMap := us!["נְגַʽ", "נְגַ׳ʽ", "נְדַʽ", "נְדַʽ", "מְבַּʽ"]
  SignMap := us!["'ʽ", ".", "..", "!˂˂˂˂", "!!˂", "!!!˂", "!!!˂", "!!!˂"]
  NumeralMap := us!["0", "1", "2", "3", "4", "5", "6", "7", "8", "9"]
  Aytham := us!["הְʽ"]
  OmMap := us!["אוֹמְʽ"]

/-- ScriptMap/NonIndic/OldPersian.py -/
def OldPersian : Tbl where
  VowelMap := us!["𐎠", "𐎠ʽ", "𐎡", "𐎡ʽ", "𐎢", "𐎢ʽ", "𐎽𐎢ʽ", "𐎽𐎢ʽ", "𐎾𐎢ʽ", "𐎾𐎢ʽ", "𐎡ʽ", "𐎠𐎡", "𐎢ʽ", "𐎠𐎢", "𐎢˂", "𐎢ʽ˂", "𐎠ʽ˂", "𐎠ʽ˂", "𐎡ʽ˂", "𐎢˂", "𐎢ʽ˂", "𐎢ʽ˂", "𐎠𐎡˂", "𐎠𐎡˂", "𐎢ʽ˂", "𐎢ʽ˂", "𐎠𐎡˂", "𐎢˂", "𐎡˂", "𐎡ʽ˂", "𐎢˂", "𐎢ʽ˂", "𐎠˂", "𐎠˂", "𐎠ʽ˂", "𐎠˂", "𐎠˂", "𐎠𐎢˂", "𐎢ʽ˂", "𐎢ʽ˂", "𐎢ʽ˂", "𐎡ʽ˂", "𐎢˂", "𐎢ʽ˂", "𐎠𐎡˂", "𐎠𐎡˂", "𐎢ʽ˂", "𐎠𐎢˂"]
  SouthVowelMap := us!["𐎡ʽ", "𐎢ʽ"]
  ModernVowelMap := us!["𐎡ʽ", "𐎠ʽ", "𐎡ʽ˂", "𐎡ʽ˂", "𐎠ʽ˂", "𐎠ʽ˂"]
  SinhalaVowelMap := us!["𐎡ʽ"]
  VowelSignMap := us!["_𐎠", "_𐎡", "𐎡𐎹ʽ", "_𐎢", "𐎢𐎺ʽ", "𐎽𐎢ʽ", "𐎽𐎢ʽ", "𐎾𐎢ʽ", "𐎾𐎢ʽ", "𐎡ʽ", "<𐎠𐎡", "𐎢ʽ", "<𐎠𐎢", "_𐎢˂", "𐎢𐎺ʽ˂", "_𐎠˂", "_𐎠˂", "𐎡ʽ˂", "_𐎢˂", "𐎢𐎺ʽ˂", "𐎢𐎺ʽ˂", "<𐎠𐎡˂", "<𐎠𐎡˂", "𐎢ʽ˂", "𐎢ʽ˂", "<𐎠𐎡˂", "𐎢𐎺ʽ˂", "_𐎡˂", "𐎡𐎹ʽ˂", "_𐎢˂", "𐎢ʽ˂", "˂", "˂", "_𐎠˂", "˂", "𐎡ʽ˂", "_𐎢˂˂", "𐎢ʽ˂", "𐎢ʽ˂", "𐎢ʽ˂", "𐎢ʽ˂", "_𐎢˂", "𐎢𐎺ʽ˂", "<𐎠𐎡˂", "<𐎠𐎡˂", "𐎢ʽ˂", "<𐎠𐎢˂"]
  SouthVowelSignMap := us!["𐎡ʽ", "𐎢ʽ"]
  ModernVowelSignMap := us!["𐎡ʽ", "𐎠ʽ", "𐎡ʽ˂", "𐎡ʽ˂", "𐎠ʽ˂", "𐎠ʽ˂"]
  SinhalaVowelSignMap := us!["𐎡ʽ"]
  ViramaMap := us!["ʽʽ"]
  AyogavahaMap := us!["𐎶ʽ", "𐎶ʽ", "𐏃ʽ", "𐏃ʽ˂", "𐏃ʽ˂", "˂", "˂˂", "˂˂˂", "˂˂˂˂", "˂˂˂", "˂˂˂", "˂˂˂", "˂", "˂", "˂", "˂˂˂˂˂", "˂˂˂˂˂", "˂˂˂˂˂", "˂˂˂˂˂", "˂˂˂˂˂"]
  NuktaMap := us!["ʽʽʽʽ"]
  ConsonantMap := us!["𐎣", "𐎧ʽ", "𐎥", "𐎥ʽ", "𐎴ʽ", "𐎨", "𐎨ʽ", "𐎩", "𐎩ʽ", "𐎴ʽ", "𐎫ʽ", "𐎫ʽ", "𐎭ʽ", "𐎭ʽ", "𐎴ʽ", "𐎫", "𐎰", "𐎭", "𐎭ʽ", "𐎴", "𐎱", "𐎱ʽ", "𐎲", "𐎲", "𐎶", "𐎹", "𐎼", "𐎾", "𐎺", "𐏁", "𐏂", "𐎿", "𐏃", "𐎲˂", "𐎣˂", "𐎱ʽ˂", "𐎿˂", "𐏃˂", "𐎹˂", "𐎫ʽʽʽʽ", "𐎴ʽ˂", "𐎴ʽ˂", "𐎶˂", "𐎱˂", "𐎹˂", "𐎼˂", "𐎺˂", "𐎱˂", "𐎿˂", "𐏃˂", "𐎣˂", "𐎣˂", "𐎴ʽ˂"]
  SouthConsonantMap := us!["𐎾ʽ", "𐎾ʽ", "𐎼ʽ", "𐎴ʽ"]
  NuktaConsonantMap := us!["𐎣ʽ", "𐎧", "𐎥ʽ", "𐏀", "𐎭ʽ", "𐎭ʽ", "𐎳", "𐎹ʽ"]
  SinhalaConsonantMap := us!["𐎴𐎥ʽ", "𐎴𐎩ʽ", "𐎴𐎭ʽ", "𐎴𐎭ʽ", "𐎶𐎲ʽ"]
  SignMap := us!["ʽʽ", "𐏐𐏐", "𐏐𐏐ʽ", "!˂˂˂˂", "!!˂", "!!!˂", "!!!˂", "!!!˂"]
  NumeralMap := us!["0", "1", "2", "3", "4", "5", "6", "7", "8", "9"]
  Aytham := us!["𐎧ʽ"]
  OmMap := us!["𐎢𐎶ʽ"]

end Verif.Ext
