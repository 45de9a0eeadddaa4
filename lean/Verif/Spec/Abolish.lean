import Verif.Core.Str

/-!
# Options that abolish characters
-/

namespace Verif

/-- Options (transliterate.py, `post_options`) that replace or remove characters, with the characters that are not to be found in
the result: `removeNikkud` the Hebrew points, `TamilRemoveNumbers` the superscript and subscript numbers, and so on. -/
def abolished : List (PyStr × PyStr) := [
  ((u! "BalineseAvowels"), [0x1B07, 0x1B08, 0x1B09, 0x1B0A, 0x1B0B, 0x1B0C, 0x1B0D, 0x1B0E, 0x1B0F, 0x1B10, 0x1B11, 0x1B12]),
  ((u! "BengaliOldRA"), [0x9B0]),
  ((u! "DevanagariACandra"), [0x90D]),
  ((u! "DevanagariAVowels"), [0x907, 0x908, 0x909, 0x90A, 0x90B, 0x90C, 0x90E, 0x90F, 0x910, 0x960, 0x961]),
  ((u! "DevanagariPrishtamatra"), [0x948, 0x94C]),
  ((u! "DivesAkuruAlternateIndVowels"), [0x11900, 0x11901, 0x11902, 0x11903, 0x11904, 0x11905, 0x11906, 0x11909]),
  ((u! "DograShaKha"), [0x11828]),
  ((u! "GranthaOldau"), [0x11357]),
  ((u! "GurmukhiCandrabindu"), [0xA01]),
  ((u! "IPARemoveCross"), [0xD7]),
  ((u! "JavaneseAvowels"), [0xA986, 0xA987, 0xA988, 0xA989, 0xA98A, 0xA98B, 0xA98C, 0xA98D, 0xA98E]),
  ((u! "KannadaSpacingCandrabindu"), [0xC81]),
  ((u! "KawiDecomposedVowel"), [0x11F05, 0x11F07, 0x11F09]),
  ((u! "KhamiShanMyanmarNumerals"), [0x1090, 0x1091, 0x1092, 0x1093, 0x1094, 0x1095, 0x1096, 0x1097, 0x1098, 0x1099]),
  ((u! "KhamtiShanRa"), [0x101B]),
  ((u! "KhojkiRRI"), [0x11240, 0x11241]),
  ((u! "LimburemoveHistorical"), [0x1909, 0x190A, 0x191A, 0x1932]),
  ((u! "MalayalamCircVirama"), [0xD4D]),
  ((u! "MalayalamLineVirama"), [0xD4D]),
  ((u! "MalayalamremoveHistorical"), [0xD29]),
  ((u! "MarchenSanskritPalatals"), [0x11C82, 0x11C83, 0x11C84]),
  ((u! "MedievalTamilOrthography"), [0xB8F, 0xB93, 0xBC7, 0xBCB]),
  ((u! "MeeteiMayekremoveHistorical"), [0xAAE2, 0xAAE3, 0xAAE4, 0xAAE5, 0xAAE6, 0xAAE7, 0xAAE8, 0xAAE9, 0xAAEA, 0xAAEB, 0xAAEC, 0xAAF5]),
  ((u! "ModiRemoveLong"), [0x11602, 0x11605, 0x11606, 0x11607, 0x11608, 0x11609, 0x11631, 0x11634, 0x11635, 0x11636, 0x11637, 0x11638]),
  ((u! "NandinagariPrishtamatra"), [0x119DB, 0x119DD]),
  ((u! "OriyaVaAlt"), [0xB71]),
  ((u! "SinhalaChandrbinduAnusvara"), [0xD81]),
  ((u! "SinhalaPali"), [0xD92, 0xD95, 0xDDA, 0xDDD]),
  ((u! "SoyomboSanskritPalatals"), [0x11A75, 0x11A76, 0x11A77]),
  ((u! "SundaneseRemoveHistoric"), [0x1BBB, 0x1BBC, 0x1BBD]),
  ((u! "TakriArchaicKha"), [0x116B8]),
  ((u! "TamilExtendedAnusvara"), [0xD02]),
  ((u! "TamilOmDisable"), [0xBD0]),
  ((u! "TamilRemoveApostrophe"), [0x2BC, 0x2EE]),
  ((u! "TamilRemoveNumbers"), [0xB2, 0xB3, 0xB9, 0x2074, 0x2081, 0x2082, 0x2083, 0x2084]),
  ((u! "TamilSHADisable"), [0xBB6]),
  ((u! "TamilSubScript"), [0xB2, 0xB3, 0xB9, 0x2074]),
  ((u! "TeluguArasunnaChandrabindu"), [0xC00]),
  ((u! "TeluguRemoveNukta"), [0xC3C]),
  ((u! "ThaanaRemoveHistorical"), [0x7B1]),
  ((u! "ThamTallADisable"), [0x1A64]),
  ((u! "TibetanNada"), [0xF83]),
  ((u! "TibetanRemoveBa"), [0xF5D]),
  ((u! "TibetanRemoveVirama"), [0xF84]),
  ((u! "TibetanSanskritPalatals"), [0xF59, 0xF5A, 0xF5B, 0xF5C]),
  ((u! "UrduRemoveShortVowels"), [0x64E, 0x64F, 0x650, 0x652, 0x658]),
  ((u! "UseAlternateI1"), [0x11582]),
  ((u! "UseAlternateI2"), [0x11582]),
  ((u! "UseAlternateII"), [0x11583]),
  ((u! "UseAlternateU"), [0x11584]),
  ((u! "UseAlternateVSU"), [0x115B2]),
  ((u! "UseAlternateVSUU"), [0x115B3]),
  ((u! "UseAlternateYA"), [0x11925]),
  ((u! "UseAlternateo2"), [0x1A70]),
  ((u! "WarangCitiModernOrthogaphy"), [0x200D, 0x118DD]),
  ((u! "ZanabazarSanskritPalatals"), [0x11A23, 0x11A24, 0x11A25]),
  ((u! "arabChaSa"), [0x686]),
  ((u! "arabPaFa"), [0x67E]),
  ((u! "archaicAIAU"), [0xD08, 0xD57]),
  ((u! "jainomDevangari"), [0x950]),
  ((u! "mDotAboveToBelow"), [0x1E43]),
  ((u! "mDotBelowToAbove"), [0x1E41]),
  ((u! "removeDiacriticsArabic"), [0x64E, 0x64F, 0x650, 0x652]),
  ((u! "removeMajliyana"), [0x330]),
  ((u! "removeNikkud"), [0x5B0, 0x5B1, 0x5B2, 0x5B3, 0x5B4, 0x5B5, 0x5B6, 0x5B7, 0x5B8, 0x5B9, 0x5BB, 0x5BC, 0x5C1, 0x5C2, 0x5C7]),
  ((u! "removePaliAhom"), [0x11741, 0x11742, 0x11743, 0x11744, 0x11745, 0x11746]),
  ((u! "removeQussaya"), [0x742]),
  ((u! "removeRukkaka"), [0x741])]

end Verif
