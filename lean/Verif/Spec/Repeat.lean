import Verif.Core.Str

/-!
# Options that may be repeated
-/

namespace Verif

/-- Post-options (transliterate.py, `post_options`) that replace letters or spellings by others that they do not replace
themselves: giving them twice is giving them once. -/
def repeatablePost : List PyStr :=
  us!["AnusvaraAsN", "ArabAtoAleph", "ArabRemoveAdditions", "ArabicGimelGaGha", "ArabicGimelPaBa",
    "BalineseArchaicJNA", "BalineseAvowels", "BengaliOldRA", "BengaliYYA", "BhaiksukiRetainSpace",
    "ChakmaVowelsIndependent", "DevanagariACandra", "DevanagariAVowels", "DograShaKha", "Dot2Dandas", "Dot2Pipes",
    "GranthaOldau", "GurmukhiCandrabindu", "GurmukhiYakaash", "HeberewQoph", "HebrewKatevMalei", "IASTPali",
    "IPARemoveCross", "JavaneseArchaicJNA", "KaithiRetainSpace", "KannadaSpacingCandrabindu", "KawiAltAiAU",
    "KawiArchaicJNA", "KawiDecomposedVowel", "KhamiShanMyanmarNumerals", "KhamtiShanRa", "KhandaTaRomanLoC",
    "KhojkiQa", "KhojkiRRI", "KhojkiRetainSpace", "LimbuDevanagariConvention", "LimburemoveHistorical",
    "MalayalamCircVirama", "MalayalamLineVirama", "MalayalamRomanLoCFix", "MalayalamremoveHistorical",
    "MarchenSanskritPalatals", "MeeteiMayekremoveHistorical", "ModiRemoveLong", "NewaMurmurConsonants", "OriyaVaAlt",
    "OriyaYYA", "RemoveDiacriticsTamil", "RetainGujaratiDanda", "RetainKannadaDanda", "RetainMalayalamDanda",
    "RetainTamilDanda", "RetainTeluguDanda", "RomanLoCLaUnderscoreDoubleDot", "RomanLoCSasha", "RomanLoCVaWa",
    "SinhalaChandrbinduAnusvara", "SinhalaPali", "SogdReshAyin", "SogoReshAyinDaleth", "SoyomboInitials",
    "SoyomboSanskritPalatals", "SoyomboSpaceTscheg", "SundaneseRemoveHistoric", "TaiThamHighNga", "TaiThamO",
    "TakriArchaicKha", "TamilGranthaVisarga", "TamilOmDisable", "TamilRemoveApostrophe", "TamilRemoveNumbers",
    "TamilSHADisable", "TamilSubScript", "TeluguArasunnaChandrabindu", "TeluguRemoveNukta", "ThaanaRemoveHistorical",
    "ThaiVisargaSaraA", "ThamTallADisable", "TibetanNada", "TibetanRemoveVirama", "TibetanSanskritPalatals",
    "TibetanTsheg", "UrduAlternateUU", "UrduRemoveShortVowels", "UseAlternateI1", "UseAlternateI2", "UseAlternateII",
    "UseAlternateU", "UseAlternateVSU", "UseAlternateVSUU", "UseAlternateYA", "UseAlternateo1", "UseAlternateo2",
    "ZanabazarSanskritPalatals", "ZanabazarSquareAiAu", "ZanabazarSquareMongolianFinal", "ZanzabarSpaceTsheg",
    "alephAyinLatnAlternate", "alephAyinLatnAlternate2", "arabChaSa", "arabPaFa", "archaicAIAU", "inherentAO",
    "jainomDevangari", "mDotAboveToBelow", "mDotBelowToAbove", "noLongEO", "persianPaGaFaJa",
    "removeDiacriticsArabic", "removeMajliyana", "removePaliAhom", "removeQussaya", "removeRukkaka",
    "removeSemiticLetters", "syriacRoman"]

/-- Pre-options of the same kind. -/
def repeatablePre : List PyStr :=
  us!["AnuChandraEqDeva", "ArabicGimelJa", "ArabizePersian", "ArchaicJnaSimplifyRomanLOC", "BalineseRomanLoCFix",
    "BengaliTargetVa", "HatrDalethResh", "HebrewSBLTarget", "IASTLDotRetroflex", "IASTPali", "ISO233Source",
    "ISO233Target", "ISO259Target", "JavaneseRomanLoCFix", "KhandaTaRomanLoC", "LimbuDevanagariConvention",
    "LimbuSpellingSaI", "MalayalamRomanLoCFix", "OriyaTargetVa", "PersianDMGTarget", "PhliWawAyinResh",
    "PhlpMemQoph", "PhlpWawAyinResh", "RemoveJoiners", "RetainDevangariDanda", "RomanLoCLaUnderscoreDoubleDot",
    "RomanLoCSasha", "RomanLoCVaWa", "ShowKhandaTa", "SinhalaPali", "SogdReshAyin", "SogoReshAyinDaleth",
    "TakriArchaicKha", "longEOISO", "perisanizeArab", "removeChillus", "semiticizeUrdu"]

end Verif
