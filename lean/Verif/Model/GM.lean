import Verif.Model.Sec

/-!
# Constants of /repo/aksharamukha/GeneralMap.py

Generated by tools/gentables.py.
-/

namespace Verif.GM

/-- GeneralMap.py:51-51 -/
def Vowels : List Sec := [.VowelMap, .SouthVowelMap, .ModernVowelMap, .SinhalaVowelMap]

/-- GeneralMap.py:52-52 -/
def VowelSignsNV : List Sec := [.VowelSignMap, .SouthVowelSignMap, .ModernVowelSignMap, .SinhalaVowelSignMap]

/-- GeneralMap.py:53-53 -/
def VowelSigns : List Sec := [.ViramaMap, .VowelSignMap, .SouthVowelSignMap, .ModernVowelSignMap, .SinhalaVowelSignMap]

/-- GeneralMap.py:54-54 -/
def CombiningSigns : List Sec := [.AyogavahaMap, .NuktaMap]

/-- GeneralMap.py:55-55 -/
def Consonants : List Sec := [.ConsonantMap, .SouthConsonantMap, .NuktaConsonantMap, .SinhalaConsonantMap]

/-- GeneralMap.py:57-57 -/
def Signs : List Sec := [.SignMap]

/-- GeneralMap.py:58-58 -/
def Numerals : List Sec := [.NumeralMap]

/-- GeneralMap.py:59-59 -/
def Aytham : List Sec := [.Aytham]

/-- GeneralMap.py:60-60 -/
def om : List Sec := [.OmMap]

/-- GeneralMap.py:61-61 -/
def virama : List Sec := [.ViramaMap]

/-- GeneralMap.py:83-83 -/
def Characters : List Sec := [.VowelMap, .SouthVowelMap, .ModernVowelMap, .SinhalaVowelMap, .ViramaMap, .VowelSignMap, .SouthVowelSignMap, .ModernVowelSignMap, .SinhalaVowelSignMap, .AyogavahaMap, .NuktaMap, .ConsonantMap, .SouthConsonantMap, .NuktaConsonantMap, .SinhalaConsonantMap]

/-- GeneralMap.py:84-84 -/
def CharactersNV : List Sec := [.VowelMap, .SouthVowelMap, .ModernVowelMap, .SinhalaVowelMap, .VowelSignMap, .SouthVowelSignMap, .ModernVowelSignMap, .SinhalaVowelSignMap, .AyogavahaMap, .NuktaMap, .ConsonantMap, .SouthConsonantMap, .NuktaConsonantMap, .SinhalaConsonantMap]

/-- GeneralMap.py:64-64 -/
def MainIndic : List PyStr := us!["GurmukhiLoC", "LimbuLoC", "BengaliRaBa", "Nandinagari", "Shahmukhi", "TamilExtended", "MasaramGondi", "GunjalaGondi", "Dogra", "Ranjana", "Khojki", "GranthaGrantamil", "Multani", "Ahom", "Mahajani", "SiddhamDevanagari", "Vatteluttu", "GranthaPandya", "Khudawadi", "Bhaiksuki", "Sharada", "Newa", "SylotiNagri", "Takri", "Tirhuta", "Modi", "Kaithi", "Kharoshthi", "Lepcha", "Chakma", "Brahmi", "MeeteiMayek", "Limbu", "Assamese", "Bengali", "Devanagari", "Grantha", "Gujarati", "Gurmukhi", "Kannada", "Malayalam", "Oriya", "Saurashtra", "Sinhala", "Tamil", "TamilBrahmi", "TamilGrantha", "Telugu", "Urdu"]

/-- GeneralMap.py:65-65 -/
def EastIndic : List PyStr := us!["DivesAkuru", "TibetanLoC", "BatakLoC", "ThamLoC", "KhmerLoC", "ShanLoC", "Makasar", "Kawi", "Pallava", "LaoTham", "LueTham", "KhuenTham", "Marchen", "Soyombo", "KhomThai", "KhamtiShan", "TaiLaing", "Mon", "Shan", "ZanabazarSquare", "Rejang", "Lao2", "Buhid", "Hanunoo", "Siddham", "Tibetan", "Lao", "TaiTham", "Cham", "BatakKaro", "BatakPakpak", "BatakSima", "BatakToba", "BatakManda", "LaoPali", "PhagsPa", "Buginese", "Tagbanwa", "Tagalog", "Sundanese", "Balinese", "Burmese", "Javanese", "Khmer", "Siddham", "Ranjana", "Thaana", "Thai", "BurmeseALALC"]

/-- GeneralMap.py:66-66 -/
def NonIndic : List PyStr := us!["OldPersian", "Hebrew"]

/-- GeneralMap.py:67-67 -/
def Roman : List PyStr := us!["BatakLoCRomanLoC", "GurmukhiLoCRomanLoC", "TibetanLoCRomanLoC", "LimbuLoCRomanLoC", "BalineseSimpleRomanLoC", "BalineseRomanLoC", "JavaneseSimpleRomanLoC", "JavaneseRomanLoC", "BatakKaroRomanLoC", "BatakMandaRomanLoC", "BatakPakpakRomanLoC", "BatakSimaRomanLoC", "BatakTobaRomanLoC", "GurmukhiRomanLoC", "TibetanRomanLoC", "LimbuRomanLoC", "KannadaRomanLoC", "TeluguRomanLoC", "SinhalaRomanLoC", "OriyaRomanLoC", "AssameseRomanLoC", "BengaliRomanLoC", "GujaratiRomanLoC", "DevanagariRomanLoC", "ThamLoCRomanLoC", "KhmerLoCRomanLoC", "RomanLoC", "ShanLoCRomanLoC", "ThamLoCRomanLoC", "KhmerLoCRomanLoC", "ShanLoCRomanLoC", "BurmeseRomanLoC", "RomanSemitic", "RomanColloquial", "ISOPali", "RomanKana", "BarahaNorth", "BarahaSouth", "Mongolian", "SLP1", "Wancho", "Mro", "IASTPali", "HanifiRohingya", "Ariyaka", "RomanReadable", "Aksharaa", "WarangCiti", "SoraSompeng", "WX-kok", "Avestan", "HK", "IAST", "ISO", "Itrans", "Titus", "Titus", "Velthuis", "WX", "Inter", "IPA", "TolongSiki", "Santali", "RussianCyrillic"]

/-- GeneralMap.py:68-68 -/
def RomanDiacritic : List PyStr := us!["IAST", "Titus", "ISO", "IPA", "IASTPali", "ISOPali", "BurmeseRomanLoC", "ISOLOC", "RomanSemitic", "ShanLoCRomanLoC", "KhmerLoCRomanLoC"]

/-- GeneralMap.py:49-49 -/
def VedicSvarasList : List PyStr := us!["᳚", "॑", "॒"]

/-- GeneralMap.py:86-86 -/
def Diacritics : List PyStr := us!["ʽ", "·", "¹", "²", "³", "⁴", "₁", "₂", "₃", "₄"]

/-- GeneralMap.py:87-87 -/
def DiacriticsRemovable : List PyStr := us!["ʼ", "ˇ", "ˆ", "˘", "·"]

/-- GeneralMap.py:88-88 -/
def DiacriticsRemovableTamil : List PyStr := us!["ˇ", "ˆ", "˘", "·"]

/-- GeneralMap.py:90-90 -/
def ScriptAll : List PyStr := us!["Aytham", "Signs", "CombiningSigns", "VowelSigns", "Vowels", "Consonants", "Numerals"]

/-- GeneralMap.py:92-187 -/
def IndicScripts : List PyStr := us!["DivesAkuru", "TibetanLoC", "GurmukhiLoC", "LimbuLoC", "ThamLoC", "KhmerLoC", "ShanLoC", "BengaliRaBa", "RomanSemitic", "Makasar", "Nandinagari", "Kawi", "Shahmukhi", "Pallava", "Hebrew", "LaoTham", "LueTham", "KhuenTham", "TamilExtended", "Marchen", "MasaramGondi", "GunjalaGondi", "Soyombo", "Dogra", "KhomThai", "KhamtiShan", "TaiLaing", "Mon", "Khojki", "Shan", "Ranjana", "ZanabazarSquare", "Rejang", "GranthaGrantamil", "Devanagari", "Multani", "Ahom", "Mahajani", "Lao2", "Hanunoo", "Buhid", "Siddham", "SiddhamDevanagari", "GranthaPandya", "Vatteluttu", "Khudawadi", "Bhaiksuki", "Sharada", "Newa", "Takri", "SylotiNagri", "Tirhuta", "Modi", "Kaithi", "Kharoshthi", "Telugu", "Kannada", "Malayalam", "Gujarati", "Bengali", "Oriya", "Gurmukhi", "Tamil", "Assamese", "Saurashtra", "TamilBrahmi", "Grantha", "TamilGrantha", "Sinhala", "Khmer", "Burmese", "Urdu", "Balinese", "Javanese", "Thaana", "Tibetan", "Thai", "OldPersian", "Limbu", "Lepcha", "Sundanese", "Tagalog", "Tagbanwa", "Buginese", "Chakma", "PhagsPa", "MeeteiMayek", "LaoPali", "BatakKaro", "BatakPakpak", "BatakSima", "BatakToba", "BatakManda", "Cham", "TaiTham", "Lao", "Brahmi"]

/-- GeneralMap.py:189-189 -/
def SiddhamRanjana : List PyStr := us!["Ranjana"]

/-- GeneralMap.py:191-192 -/
def LatinScripts : List PyStr := us!["GurmukhiLoCRomanLoC", "TibetanLoCRomanLoC", "LimbuLoCRomanLoC", "BalineseSimpleRomanLoC", "BalineseRomanLoC", "JavaneseSimpleRomanLoC", "JavaneseRomanLoC", "KannadaRomanLoC", "TeluguRomanLoC", "SinhalaRomanLoC", "OriyaRomanLoC", "AssameseRomanLoC", "BengaliRomanLoC", "GujaratiRomanLoC", "DevanagariRomanLoC", "ThamLoCRomanLoC", "KhmerLoCRomanLoC", "RomanLoC", "ShanLoCRomanLoC", "BurmeseRomanLoC", "RomanColloquial", "ISOPali", "RomanKana", "BarahaNorth", "BarahaSouth", "Mongolian", "SLP1", "Wancho", "Mro", "IASTPali", "HanifiRohingya", "Ariyaka", "RomanReadable", "Aksharaa", "WarangCiti", "SoraSompeng", "WX-kok", "Avestan", "ISO", "IAST", "HK", "Titus", "Itrans", "Velthuis", "WX", "Inter", "IPA", "TolongSiki", "Santali", "RussianCyrillic"]

/-- GeneralMap.py:208-208 -/
def pipeScripts : List PyStr := us!["HK", "IASTPali", "IAST", "ISO", "Itrans", "ISOPali"]

/-- GeneralMap.py:210-210 -/
def Transliteration : List PyStr := us!["IASTPali", "RomanReadable", "Aksharaa", "ISO", "IAST", "HK", "Titus", "Itrans", "Velthuis", "WX", "IPA", "RussianCyrillic", "IASTPali", "ISOPali", "RomanLoC"]

/-- GeneralMap.py:213-213 -/
def romanNumeralScripts : List PyStr := us!["Tamil", "Gurmukhi", "Malayalam", "Telugu"]

/-- GeneralMap.py:215-215 -/
def romanPunctscripts : List PyStr := us!["Tamil", "Kannada", "Malayalam", "Telugu", "Gujarati"]

/-- GeneralMap.py:218-218 -/
def LoCScripts : List PyStr := us!["Burmese", "Shan", "Khmer", "KhuenTham", "TaiTham", "LaoTham", "LueTham", "Kannada", "Tamil", "Malayalam", "Sinhala", "Telugu", "Kannada", "Oriya", "Assamese", "Bengali", "Gujarati", "Devanagari", "Balinese", "Javanese", "BatakKaro", "BatakManda", "BatakPakpak", "BatakSima", "BatakToba", "Gurmukhi", "Tibetan", "Limbu"]

/-- GeneralMap.py:222-222 -/
def LocPostPre : List PyStr := us!["Burmese", "Shan", "Khmer", "ThamLoC", "ShanLoC", "KhmerLoC"]

/-- GeneralMap.py:224-224 -/
def LoCSrcMap : List PyStr := us!["Shan", "Khmer", "Gurmukhi", "Limbu", "Tibetan"]

/-- GeneralMap.py:226-226 -/
def LoCTgtMap : List PyStr := us!["Burmese", "Shan", "Khmer", "KhuenTham", "TaiTham", "LaoTham", "LueTham", "ThamLoC", "ShanLoC", "KhmerLoC", "Kannada", "Telugu", "Sinhala", "Oriya", "Assamese", "Bengali", "Gujarati", "Devanagari", "Balinese", "Javanese", "Batak", "Gurmukhi", "GurmukhiLoC", "Tibetan", "Limbu", "LimbuLoC", "Tibetan", "TibetanLoC"]

/-- GeneralMap.py:229-229 -/
def LoCTgtISO : List PyStr := us!["Tamil", "Malayalam"]

/-- GeneralMap.py:277-277 -/
def SemiticScripts : List PyStr := us!["Arab-Pa", "Syrj", "Syrn", "Syre", "Thaa", "Arab-Ur", "Type", "Hebr-Ar", "Arab-Fa", "Latn", "Arab", "Ethi", "Armi", "Brah", "Chrs", "Egyp", "Elym", "Grek", "Hatr", "Hebr", "Mani", "Narb", "Nbat", "Palm", "Phli", "Phlp", "Phnx", "Prti", "Samr", "Sarb", "Sogd", "Sogo", "Ugar"]

/-- GeneralMap.py:281-281 -/
def SemiticConsonants : List PyStr := us!["ʾ", "b", "v", "g", "j", "d", "h", "w", "z", "ḥ", "ṭ", "y", "k", "l", "m", "n", "s", "ʿ", "f", "ṣ", "q", "r", "š", "t", "ḍ", "ḏ", "ḫ", "ġ", "ṯ", "ẓ", "p", "č", "ž", "ɖ", "ʈ", "ʂ", "ɭ", "ɲ", "ɳ", "ɽ", "ʰ"]

/-- GeneralMap.py:283-283 -/
def SemiticVowels : List PyStr := us!["a", "ā", "i", "ī", "u", "ū", "ē", "ō", "e", "o", "#", "̽"]

/-- GeneralMap.py:285-285 -/
def semiticVowelsAll : List PyStr := us!["꞉", "a", "ā", "i", "ī", "u", "ū", "e", "ē", "o", "ō", "a̮", "̽", "ā̮", "ĕ", "ă", "ŏ", "aŷ", "aŵ", "a", "aⁿ", "uⁿ", "iⁿ"]

/-- GeneralMap.py:286-286 -/
def vowelsInitialAll : List PyStr := us!["ˀā̮̂", "ā̮̂", "â", "ā̂", "î", "ī̂", "û", "ū̂", "ê", "ē̂", "ô", "ō̂", "âŷ", "âŵ", "ˀâ", "ˀî"]

/-- GeneralMap.py:295-295 -/
def ReversibleScripts : List PyStr := us!["Devanagari", "Tamil", "Telugu", "Kannada", "Sinhala", "Oriya", "Gujarati", "Bengali", "Assamese", "Malayalam", "Gurmukhi"]

/-- GeneralMap.py:297-297 -/
def RomanReversible : List PyStr := us!["IAST", "HK", "Itrans", "Velthuis", "Titus", "WX", "RussianCyrillic", "ISO"]

/-- GeneralMap.py:299-299 -/
def CharmapLists : List PyStr := us!["VowelMap", "VowelSignMap", "ConsonantMap", "SignMap", "AyogavahaMap", "ModernVowelMap", "ModernVowelSignMap"]

/-- GeneralMap.py:48-48 -/
def VedicSvaras : PyStr := (u! "(᳚|॑|॒)?")

/-- GeneralMap.py:81-81 -/
def Inter : PyStr := (u! "Inter")

/-- GeneralMap.py:194-206 -/
def Gemination : List (PyStr × PyStr) := [((u! "Gurmukhi"), (u! "ੱ")), ((u! "Thaana"), (u! "އް")), ((u! "Urdu"), (u! "ّ")), ((u! "Shahmukhi"), (u! "ّ")), ((u! "Grantha"), (u! "𑌂")), ((u! "Malayalam"), (u! "ം")), ((u! "Khojki"), (u! "𑈷")), ((u! "Buginese"), (u! "")), ((u! "Buhid"), (u! "")), ((u! "Tagbanwa"), (u! "")), ((u! "Makasar"), (u! ""))]

/-- GeneralMap.py:288-293 -/
def semiticISO : List (PyStr × PyStr) := [((u! "ISO259"), (u! "Hebrew")), ((u! "HebrewSBL"), (u! "Hebrew")), ((u! "ISO233"), (u! "Arab")), ((u! "PersianDMG"), (u! "Arab-Fa"))]

/-- GeneralMap.py:300-300 -/
def InterAdd : List (PyStr × PyStr) := [((u! "VowelMap"), (u! "󰀀")), ((u! "VowelSignMap"), (u! "󰀀")), ((u! "ConsonantMap"), (u! "󲀀")), ((u! "SignMap"), (u! "󳀀")), ((u! "AyogavahaMap"), (u! "󴀀")), ((u! "ModernVowelMap"), (u! "󵀀")), ((u! "ModernVowelSignMap"), (u! "󵀀"))]

/-- GeneralMap.py:232-246 -/
def LoCTgtPostOptions : List (PyStr × List PyStr) := [((u! "Telugu"), us!["AnusvaratoNasalASTISO", "RomanLoCChandrabindu"]), ((u! "Kannada"), us!["AnusvaratoNasalASTISO", "RomanLoCChandrabindu"]), ((u! "Malayalam"), us!["AnusvaratoNasalASTISO", "RomanLoCChandrabindu", "MalayalamRomanLoCFix", "mDotBelowToAbove"]), ((u! "Sinhala"), us!["AnusvaratoNasalASTISO", "SinhalaSannakaNasalization", "RomanLoCChandrabindu"]), ((u! "Oriya"), us!["AnusvaratoNasalASTISO", "RomanLoCChandrabindu"]), ((u! "Assamese"), us!["RomanLoCChandrabindu"]), ((u! "GurmukhiLoC"), us!["GurmukhiRomanLoCFix"]), ((u! "Bengali"), us!["RomanLoCChandrabindu"]), ((u! "Gujarati"), us!["AnusvaratoNasalASTISO", "RomanLoCChandrabindu"]), ((u! "Devanagari"), us!["AnusvaratoNasalASTISO", "RomanLoCChandrabindu", "DevanagariRomanLoCFix"]), ((u! "Balinese"), us!["BalineseRomanLoCFix"]), ((u! "Javanese"), us!["JavaneseRomanLoCFix"]), ((u! "TibetanLoC"), us!["TibetanLoCRomanLoCFix"])]

/-- GeneralMap.py:249-252 -/
def LoCTgtPreOptions : List (PyStr × List PyStr) := [((u! "Assamese"), us!["KhandaTaRomanLoC"]), ((u! "Bengali"), us!["KhandaTaRomanLoC", "BengaliSubojinedVa"])]

/-- GeneralMap.py:255-259 -/
def LoCSrcPostOptions : List (PyStr × List PyStr) := [((u! "Assamese"), us!["KhandaTaRomanLoC"]), ((u! "Bengali"), us!["KhandaTaRomanLoC"]), ((u! "Telugu"), us!["TeluguArasunnaChandrabindu"])]

/-- GeneralMap.py:262-275 -/
def LoCSrcPreOptions : List (PyStr × List PyStr) := [((u! "Telugu"), us!["RomanLoCChandrabindu"]), ((u! "Kannada"), us!["RomanLoCChandrabindu"]), ((u! "Malayalam"), us!["RomanLoCChandrabindu", "MalayalamRomanLoCFix"]), ((u! "Sinhala"), us!["RomanLoCChandrabindu"]), ((u! "Oriya"), us!["RomanLoCChandrabindu"]), ((u! "Assamese"), us!["RomanLoCChandrabindu"]), ((u! "Bengali"), us!["RomanLoCChandrabindu"]), ((u! "Gujarati"), us!["RomanLoCChandrabindu"]), ((u! "Devanagari"), us!["RomanLoCChandrabindu", "DevanagariRomanLoCFix"]), ((u! "Balinese"), us!["BalineseRomanLoCFix"]), ((u! "Javanese"), us!["JavaneseRomanLoCFix"]), ((u! "TibetanLoC"), us!["TibetanLoCRomanLoCFix"])]

end Verif.GM
