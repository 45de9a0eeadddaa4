import Verif.Core.Str

/-!
# The data of json/gimeltra_data.json

Generated by tools/gendata.py.  Dictionaries are association lists in insertion order.
-/

set_option maxRecDepth 100000

namespace Verif.Gim

/-- json/gimeltra_data.json `ssub.Latn.Type` -/
def ssub_Latn_Type : List (PyStr × PyStr) := [((u! "ʾ"), (u! "@")), ((u! "b"), (u! "b")), ((u! "v"), (u! "v")), ((u! "g"), (u! "g")), ((u! "j"), (u! "j")), ((u! "d"), (u! "d")), ((u! "h"), (u! "h")), ((u! "w"), (u! "w")), ((u! "z"), (u! "z")), ((u! "ḥ"), (u! "H")), ((u! "ṭ"), (u! "T")), ((u! "y"), (u! "y")), ((u! "ḵ"), (u! "k_")), ((u! "k"), (u! "k")), ((u! "l"), (u! "l")), ((u! "m"), (u! "m")), ((u! "n"), (u! "n")), ((u! "s"), (u! "s")), ((u! "ʿ"), (u! "#")), ((u! "f"), (u! "f")), ((u! "ṣ"), (u! "S")), ((u! "q"), (u! "q")), ((u! "r"), (u! "r")), ((u! "š"), (u! "s_")), ((u! "t"), (u! "t")), ((u! "ḍ"), (u! "D")), ((u! "ḏ"), (u! "d_")), ((u! "ḫ"), (u! "h_")), ((u! "ġ"), (u! "G")), ((u! "ṯ"), (u! "t_")), ((u! "ẓ"), (u! "z_")), ((u! "p"), (u! "p")), ((u! "č"), (u! "c")), ((u! "ž"), (u! "Z")), ((u! "ȳ"), (u! "y_")), ((u! "a"), (u! "a")), ((u! "ā"), (u! "A")), ((u! "e"), (u! "e")), ((u! "ē"), (u! "E")), ((u! "u"), (u! "u")), ((u! "o"), (u! "o")), ((u! "i"), (u! "i")), ((u! "ī"), (u! "I")), ((u! "ū"), (u! "U")), ((u! "ō"), (u! "O")), ((u! "â"), (u! "a^")), ((u! "î"), (u! "i^")), ((u! "û"), (u! "u^")), ((u! "ô"), (u! "o^")), ((u! "ā̂"), (u! "A^")), ((u! "ī̂"), (u! "I^")), ((u! "ū̂"), (u! "U^")), ((u! "ō̂"), (u! "O^")), ((u! "ê"), (u! "e^")), ((u! "ē̂"), (u! "E^")), ((u! "ŵ"), (u! "w^")), ((u! "ŷ"), (u! "y^")), ((u! "ɖ"), (u! "d~")), ((u! "ʈ"), (u! "t~")), ((u! "ʂ"), (u! "s~")), ((u! "ɭ"), (u! "l~")), ((u! "ɲ"), (u! "y~")), ((u! "ɳ"), (u! "n~")), ((u! "ɽ"), (u! "r~")), ((u! "ḧ"), (u! "h~")), ((u! "ʰ"), (u! "h^")), ((u! "ₘ"), (u! "m^")), ((u! "aⁿ"), (u! "an^")), ((u! "iⁿ"), (u! "in^")), ((u! "uⁿ"), (u! "un^")), ((u! "ĕ̂"), (u! "e~^")), ((u! "ă̂"), (u! "a~^")), ((u! "ŏ̂"), (u! "o~^")), ((u! "ĕ"), (u! "e~")), ((u! "ă"), (u! "a~")), ((u! "ŏ"), (u! "o~")), ((u! "ˀw"), (u! "?^w")), ((u! "ˀy"), (u! "?^y")), ((u! "ˀh"), (u! "?^h")), ((u! "ʔ"), (u! "??")), ((u! "̽"), (u! "x")), ((u! "꞉"), (u! ":"))]

/-- json/gimeltra_data.json `ssub.Latn.Arab` -/
def ssub_Latn_Arab : List (PyStr × PyStr) := [((u! "ʾ"), (u! "ا")), ((u! "b"), (u! "ب")), ((u! "v"), (u! "ڤ")), ((u! "g"), (u! "ڨ")), ((u! "j"), (u! "ج")), ((u! "d"), (u! "د")), ((u! "h"), (u! "ه")), ((u! "w"), (u! "و")), ((u! "z"), (u! "ز")), ((u! "ḥ"), (u! "ح")), ((u! "ṭ"), (u! "ط")), ((u! "y"), (u! "ي")), ((u! "k"), (u! "ك")), ((u! "l"), (u! "ل")), ((u! "m"), (u! "م")), ((u! "n"), (u! "ن")), ((u! "s"), (u! "س")), ((u! "ʿ"), (u! "ع")), ((u! "f"), (u! "ف")), ((u! "p"), (u! "پ")), ((u! "ṣ"), (u! "ص")), ((u! "q"), (u! "ق")), ((u! "r"), (u! "ر")), ((u! "š"), (u! "ش")), ((u! "t"), (u! "ت")), ((u! "ḍ"), (u! "ض")), ((u! "ḏ"), (u! "ذ")), ((u! "ḫ"), (u! "خ")), ((u! "ġ"), (u! "غ")), ((u! "ṯ"), (u! "ث")), ((u! "ẓ"), (u! "ظ")), ((u! "ḧ"), (u! "ة")), ((u! "ˀy"), (u! "ئ")), ((u! "ˀw"), (u! "ؤ")), ((u! "ʔ"), (u! "ء")), ((u! "ˀâ"), (u! "أ")), ((u! "ˀî"), (u! "إ")), ((u! "â"), (u! "أَ")), ((u! "ā̂"), (u! "آ")), ((u! "î"), (u! "إِ")), ((u! "ī̂"), (u! "إِي")), ((u! "û"), (u! "أُ")), ((u! "ū̂"), (u! "أُو")), ((u! "ê"), (u! "إِ")), ((u! "ē̂"), (u! "إِي")), ((u! "ô"), (u! "أُ")), ((u! "ō̂"), (u! "أُو")), ((u! "âŷ"), (u! "أَيْ")), ((u! "âŵ"), (u! "أَوْ")), ((u! "a"), (u! "َ")), ((u! "ā"), (u! "َا")), ((u! "i"), (u! "ِ")), ((u! "ī"), (u! "ِي")), ((u! "e"), (u! "ِ")), ((u! "ē"), (u! "ِي")), ((u! "u"), (u! "ُ")), ((u! "ū"), (u! "ُو")), ((u! "o"), (u! "ُ")), ((u! "ō"), (u! "ُو")), ((u! "aŷ"), (u! "َيْ")), ((u! "aŵ"), (u! "َوْ")), ((u! "a̮"), (u! "ى")), ((u! "ā̮"), (u! "َى")), ((u! "ā̮̂"), (u! "أَى")), ((u! "ˀā̮̂"), (u! "أى")), ((u! "̽"), (u! "ْ")), ((u! "꞉"), (u! "ّ")), ((u! "aⁿ"), (u! "ً")), ((u! "iⁿ"), (u! "ٍ")), ((u! "uⁿ"), (u! "ٌ")), ((u! "0"), (u! "٠")), ((u! "1"), (u! "١")), ((u! "2"), (u! "٢")), ((u! "3"), (u! "٣")), ((u! "4"), (u! "٤")), ((u! "5"), (u! "٥")), ((u! "6"), (u! "٦")), ((u! "7"), (u! "٧")), ((u! "8"), (u! "٨")), ((u! "9"), (u! "٩"))]

/-- json/gimeltra_data.json `ssub.Latn.Arab-Fa` -/
def ssub_Latn_Arab_Fa : List (PyStr × PyStr) := [((u! "ʾ"), (u! "ا")), ((u! "b"), (u! "ب")), ((u! "j"), (u! "ج")), ((u! "d"), (u! "د")), ((u! "h"), (u! "ه")), ((u! "w"), (u! "و")), ((u! "z"), (u! "ز")), ((u! "ḥ"), (u! "ح")), ((u! "ṭ"), (u! "ط")), ((u! "y"), (u! "ی")), ((u! "k"), (u! "ک")), ((u! "l"), (u! "ل")), ((u! "m"), (u! "م")), ((u! "n"), (u! "ن")), ((u! "s"), (u! "س")), ((u! "ʿ"), (u! "ع")), ((u! "f"), (u! "ف")), ((u! "ṣ"), (u! "ص")), ((u! "q"), (u! "ق")), ((u! "r"), (u! "ر")), ((u! "š"), (u! "ش")), ((u! "t"), (u! "ت")), ((u! "ḍ"), (u! "ض")), ((u! "ḏ"), (u! "ذ")), ((u! "ḫ"), (u! "خ")), ((u! "ġ"), (u! "غ")), ((u! "ṯ"), (u! "ث")), ((u! "ẓ"), (u! "ظ")), ((u! "g"), (u! "گ")), ((u! "p"), (u! "پ")), ((u! "č"), (u! "چ")), ((u! "ž"), (u! "ژ")), ((u! "ḧ"), (u! "ة")), ((u! "̽"), (u! "ْ")), ((u! "aŷ"), (u! "َیْ")), ((u! "aŵ"), (u! "َوْ")), ((u! "âŷ"), (u! "اَیْ")), ((u! "âŵ"), (u! "اَوْ")), ((u! "a"), (u! "َ")), ((u! "e"), (u! "ِ")), ((u! "i"), (u! "ِ")), ((u! "o"), (u! "ُ")), ((u! "u"), (u! "ُ")), ((u! "â"), (u! "اَ")), ((u! "ā̂"), (u! "آ")), ((u! "ā"), (u! "َا")), ((u! "î"), (u! "اِ")), ((u! "ī̂"), (u! "اِی")), ((u! "ī"), (u! "ِی")), ((u! "û"), (u! "اُ")), ((u! "ū̂"), (u! "اُو")), ((u! "ū"), (u! "ُو")), ((u! "ō"), (u! "ُو")), ((u! "ō̂"), (u! "اُو")), ((u! "ô"), (u! "اُ")), ((u! "ē"), (u! "ِی")), ((u! "ê"), (u! "اِ")), ((u! "ē̂"), (u! "اِی")), ((u! "꞉"), (u! "ّ")), ((u! "ˀy"), (u! "ئ")), ((u! "ˀw"), (u! "ؤ")), ((u! "ˀh"), (u! "هٔ")), ((u! "ʔ"), (u! "ء")), ((u! "ˀâ"), (u! "أ")), ((u! "ˀî"), (u! "إ")), ((u! "uⁿ"), (u! "ٌ")), ((u! "iⁿ"), (u! "ٍ")), ((u! "aⁿ"), (u! "ً")), ((u! "ȳ"), (u! "ۀ")), ((u! "v"), (u! "و")), ((u! "0"), (u! "۰")), ((u! "1"), (u! "۱")), ((u! "2"), (u! "۲")), ((u! "3"), (u! "۳")), ((u! "4"), (u! "۴")), ((u! "5"), (u! "۵")), ((u! "6"), (u! "۶")), ((u! "7"), (u! "۷")), ((u! "8"), (u! "۸")), ((u! "9"), (u! "۹"))]

/-- json/gimeltra_data.json `ssub.Latn.Thaa` -/
def ssub_Latn_Thaa : List (PyStr × PyStr) := [((u! "ʾ"), (u! "އ")), ((u! "b"), (u! "ބ")), ((u! "j"), (u! "ޖ")), ((u! "d"), (u! "ދ")), ((u! "h"), (u! "ހ")), ((u! "w"), (u! "ޥ")), ((u! "z"), (u! "ޒ")), ((u! "ḥ"), (u! "ޙ")), ((u! "ṭ"), (u! "ޠ")), ((u! "y"), (u! "ޔ")), ((u! "k"), (u! "ކ")), ((u! "l"), (u! "ލ")), ((u! "m"), (u! "މ")), ((u! "n"), (u! "ނ")), ((u! "s"), (u! "ސ")), ((u! "ʿ"), (u! "ޢ")), ((u! "f"), (u! "ފ")), ((u! "ṣ"), (u! "ޞ")), ((u! "q"), (u! "ޤ")), ((u! "r"), (u! "ރ")), ((u! "š"), (u! "ޝ")), ((u! "t"), (u! "ތ")), ((u! "ḍ"), (u! "ޟ")), ((u! "ḏ"), (u! "ޛ")), ((u! "ḫ"), (u! "ޚ")), ((u! "ġ"), (u! "ޣ")), ((u! "ṯ"), (u! "ޘ")), ((u! "ẓ"), (u! "ޡ")), ((u! "g"), (u! "ގ")), ((u! "p"), (u! "ޕ")), ((u! "č"), (u! "ޗ")), ((u! "ž"), (u! "ޜ")), ((u! "ɖ"), (u! "ޑ")), ((u! "ʈ"), (u! "ޓ")), ((u! "ʂ"), (u! "ށ")), ((u! "ɭ"), (u! "ޅ")), ((u! "ɲ"), (u! "ޏ")), ((u! "v"), (u! "ވ")), ((u! "ɳ"), (u! "ޱ")), ((u! "̽"), (u! "ް")), ((u! "âŷ"), (u! "އައި")), ((u! "âŵ"), (u! "އައު")), ((u! "aŷ"), (u! "ައި")), ((u! "aŵ"), (u! "ައު")), ((u! "â"), (u! "އަ")), ((u! "a"), (u! "ަ")), ((u! "ā̂"), (u! "އާ")), ((u! "ā"), (u! "ާ")), ((u! "î"), (u! "އި")), ((u! "i"), (u! "ި")), ((u! "ī̂"), (u! "އީ")), ((u! "ī"), (u! "ީ")), ((u! "û"), (u! "އު")), ((u! "u"), (u! "ު")), ((u! "ū̂"), (u! "އޫ")), ((u! "ū"), (u! "ޫ")), ((u! "ê"), (u! "އެ")), ((u! "e"), (u! "ެ")), ((u! "ē̂"), (u! "އޭ")), ((u! "ē"), (u! "ޭ")), ((u! "ô"), (u! "އޮ")), ((u! "o"), (u! "ޮ")), ((u! "ō̂"), (u! "އޯ")), ((u! "ō"), (u! "ޯ")), ((u! "꞉"), (u! "އް")), ((u! "ʔ"), (u! "އް")), ((u! "0"), (u! "0")), ((u! "1"), (u! "1")), ((u! "2"), (u! "2")), ((u! "3"), (u! "3")), ((u! "4"), (u! "4")), ((u! "5"), (u! "5")), ((u! "6"), (u! "6")), ((u! "7"), (u! "7")), ((u! "8"), (u! "8")), ((u! "9"), (u! "9"))]

/-- json/gimeltra_data.json `ssub.Latn.Arab-Ur` -/
def ssub_Latn_Arab_Ur : List (PyStr × PyStr) := [((u! "ʾ"), (u! "ا")), ((u! "b"), (u! "ب")), ((u! "j"), (u! "ج")), ((u! "d"), (u! "د")), ((u! "h"), (u! "ہ")), ((u! "w"), (u! "و")), ((u! "z"), (u! "ز")), ((u! "ḥ"), (u! "ح")), ((u! "ṭ"), (u! "ط")), ((u! "y"), (u! "ی")), ((u! "k"), (u! "ک")), ((u! "l"), (u! "ل")), ((u! "m"), (u! "م")), ((u! "n"), (u! "ن")), ((u! "s"), (u! "س")), ((u! "ʿ"), (u! "ع")), ((u! "f"), (u! "ف")), ((u! "ṣ"), (u! "ص")), ((u! "q"), (u! "ق")), ((u! "r"), (u! "ر")), ((u! "š"), (u! "ش")), ((u! "t"), (u! "ت")), ((u! "ḍ"), (u! "ض")), ((u! "ḏ"), (u! "ذ")), ((u! "ḫ"), (u! "خ")), ((u! "ġ"), (u! "غ")), ((u! "ṯ"), (u! "ث")), ((u! "ẓ"), (u! "ظ")), ((u! "g"), (u! "گ")), ((u! "p"), (u! "پ")), ((u! "č"), (u! "چ")), ((u! "ž"), (u! "ژ")), ((u! "ɖ"), (u! "ڈ")), ((u! "ʈ"), (u! "ٹ")), ((u! "ɽ"), (u! "ڑ")), ((u! "ḧ"), (u! "ة")), ((u! "ʰ"), (u! "ھ")), ((u! "ₘ"), (u! "ں")), ((u! "̽"), (u! "ْ")), ((u! "aŷ"), (u! "َیْ")), ((u! "aŵ"), (u! "َوْ")), ((u! "âŷ"), (u! "اَيْ")), ((u! "âŵ"), (u! "اَوْ")), ((u! "uⁿ"), (u! "ٌ")), ((u! "iⁿ"), (u! "ٍ")), ((u! "aⁿ"), (u! "ً")), ((u! "â"), (u! "اَ")), ((u! "a"), (u! "َ")), ((u! "ā̂"), (u! "آ")), ((u! "ā"), (u! "َا")), ((u! "î"), (u! "اِ")), ((u! "i"), (u! "ِ")), ((u! "ī̂"), (u! "اِی")), ((u! "ī"), (u! "ِی")), ((u! "û"), (u! "اُ")), ((u! "u"), (u! "ُ")), ((u! "ū̂"), (u! "اُو")), ((u! "ū"), (u! "ُو")), ((u! "ē̂"), (u! "اے")), ((u! "ē"), (u! "ے")), ((u! "ê"), (u! "اے")), ((u! "e"), (u! "ے")), ((u! "ō̂"), (u! "او")), ((u! "ō"), (u! "و")), ((u! "ô"), (u! "او")), ((u! "o"), (u! "و")), ((u! "꞉"), (u! "ّ")), ((u! "ˀy"), (u! "ئ")), ((u! "ˀē"), (u! "ۓ")), ((u! "ˀw"), (u! "ؤ")), ((u! "ʔ"), (u! "ء")), ((u! "ˀâ"), (u! "أ")), ((u! "ˀî"), (u! "إ")), ((u! "0"), (u! "٠")), ((u! "1"), (u! "١")), ((u! "2"), (u! "٢")), ((u! "3"), (u! "٣")), ((u! "4"), (u! "٤")), ((u! "5"), (u! "٥")), ((u! "6"), (u! "٦")), ((u! "7"), (u! "٧")), ((u! "8"), (u! "٨")), ((u! "9"), (u! "٩"))]

/-- json/gimeltra_data.json `ssub.Latn.Arab-Pa` -/
def ssub_Latn_Arab_Pa : List (PyStr × PyStr) := [((u! "ʾ"), (u! "ا")), ((u! "b"), (u! "ب")), ((u! "j"), (u! "ج")), ((u! "d"), (u! "د")), ((u! "h"), (u! "ہ")), ((u! "w"), (u! "و")), ((u! "z"), (u! "ز")), ((u! "ḥ"), (u! "ح")), ((u! "ṭ"), (u! "ط")), ((u! "y"), (u! "ی")), ((u! "k"), (u! "ک")), ((u! "l"), (u! "ل")), ((u! "m"), (u! "م")), ((u! "n"), (u! "ن")), ((u! "s"), (u! "س")), ((u! "ʿ"), (u! "ع")), ((u! "f"), (u! "ف")), ((u! "ṣ"), (u! "ص")), ((u! "q"), (u! "ق")), ((u! "r"), (u! "ر")), ((u! "š"), (u! "ش")), ((u! "t"), (u! "ت")), ((u! "ḍ"), (u! "ض")), ((u! "ḏ"), (u! "ذ")), ((u! "ḫ"), (u! "خ")), ((u! "ġ"), (u! "غ")), ((u! "ṯ"), (u! "ث")), ((u! "ẓ"), (u! "ظ")), ((u! "g"), (u! "گ")), ((u! "p"), (u! "پ")), ((u! "č"), (u! "چ")), ((u! "ž"), (u! "ژ")), ((u! "ɖ"), (u! "ڈ")), ((u! "ʈ"), (u! "ٹ")), ((u! "ɽ"), (u! "ڑ")), ((u! "ɭ"), (u! "لؕ")), ((u! "ɳ"), (u! "ݨ")), ((u! "ḧ"), (u! "ة")), ((u! "ʰ"), (u! "ھ")), ((u! "ₘ"), (u! "ں")), ((u! "̽"), (u! "ْ")), ((u! "aŷ"), (u! "َیْ")), ((u! "aŵ"), (u! "َوْ")), ((u! "âŷ"), (u! "اَيْ")), ((u! "âŵ"), (u! "اَوْ")), ((u! "uⁿ"), (u! "ٌ")), ((u! "iⁿ"), (u! "ٍ")), ((u! "aⁿ"), (u! "ً")), ((u! "â"), (u! "اَ")), ((u! "a"), (u! "َ")), ((u! "ā̂"), (u! "آ")), ((u! "ā"), (u! "َا")), ((u! "î"), (u! "اِ")), ((u! "i"), (u! "ِ")), ((u! "ī̂"), (u! "اِی")), ((u! "ī"), (u! "ِی")), ((u! "û"), (u! "اُ")), ((u! "u"), (u! "ُ")), ((u! "ū̂"), (u! "اُو")), ((u! "ū"), (u! "ُو")), ((u! "ē̂"), (u! "اے")), ((u! "ē"), (u! "ے")), ((u! "ê"), (u! "اے")), ((u! "e"), (u! "ے")), ((u! "ō̂"), (u! "او")), ((u! "ō"), (u! "و")), ((u! "ô"), (u! "او")), ((u! "o"), (u! "و")), ((u! "꞉"), (u! "ّ")), ((u! "ˀy"), (u! "ئ")), ((u! "ˀē"), (u! "ۓ")), ((u! "ˀw"), (u! "ؤ")), ((u! "ʔ"), (u! "ء")), ((u! "ˀâ"), (u! "أ")), ((u! "ˀî"), (u! "إ")), ((u! "0"), (u! "٠")), ((u! "1"), (u! "١")), ((u! "2"), (u! "٢")), ((u! "3"), (u! "٣")), ((u! "4"), (u! "٤")), ((u! "5"), (u! "٥")), ((u! "6"), (u! "٦")), ((u! "7"), (u! "٧")), ((u! "8"), (u! "٨")), ((u! "9"), (u! "٩"))]

/-- json/gimeltra_data.json `ssub.Latn.Ethi` -/
def ssub_Latn_Ethi : List (PyStr × PyStr) := [((u! "ʾ"), (u! "አ")), ((u! "b"), (u! "በ")), ((u! "g"), (u! "ገ")), ((u! "d"), (u! "ደ")), ((u! "h"), (u! "ሀ")), ((u! "w"), (u! "ወ")), ((u! "z"), (u! "ዘ")), ((u! "ḥ"), (u! "ሐ")), ((u! "ṭ"), (u! "ጠ")), ((u! "y"), (u! "የ")), ((u! "k"), (u! "ከ")), ((u! "l"), (u! "ለ")), ((u! "m"), (u! "መ")), ((u! "n"), (u! "ነ")), ((u! "s"), (u! "ሰ")), ((u! "ʿ"), (u! "ዐ")), ((u! "p"), (u! "ፐ")), ((u! "ṣ"), (u! "ጸ")), ((u! "q"), (u! "ቀ")), ((u! "r"), (u! "ረ")), ((u! "š"), (u! "ሠ")), ((u! "t"), (u! "ተ")), ((u! "f"), (u! "ፈ")), ((u! "ḫ"), (u! "ኀ")), ((u! "č"), (u! "ፀ")), ((u! "p̣"), (u! "ጰ"))]

/-- json/gimeltra_data.json `ssub.Latn.Armi` -/
def ssub_Latn_Armi : List (PyStr × PyStr) := [((u! "ʾ"), (u! "𐡀")), ((u! "b"), (u! "𐡁")), ((u! "g"), (u! "𐡂")), ((u! "d"), (u! "𐡃")), ((u! "h"), (u! "𐡄")), ((u! "w"), (u! "𐡅")), ((u! "z"), (u! "𐡆")), ((u! "ḥ"), (u! "𐡇")), ((u! "ṭ"), (u! "𐡈")), ((u! "y"), (u! "𐡉")), ((u! "k"), (u! "𐡊")), ((u! "l"), (u! "𐡋")), ((u! "m"), (u! "𐡌")), ((u! "n"), (u! "𐡍")), ((u! "s"), (u! "𐡎")), ((u! "ʿ"), (u! "𐡏")), ((u! "p"), (u! "𐡐")), ((u! "ṣ"), (u! "𐡑")), ((u! "q"), (u! "𐡒")), ((u! "r"), (u! "𐡓")), ((u! "š"), (u! "𐡔")), ((u! "t"), (u! "𐡕"))]

/-- json/gimeltra_data.json `ssub.Latn.Brah` -/
def ssub_Latn_Brah : List (PyStr × PyStr) := [((u! "ʾ"), (u! "𑀅")), ((u! "b"), (u! "𑀩")), ((u! "g"), (u! "𑀕")), ((u! "d"), (u! "𑀥")), ((u! "h"), (u! "𑀳")), ((u! "w"), (u! "𑀯")), ((u! "z"), (u! "𑀚")), ((u! "ḥ"), (u! "𑀖")), ((u! "ṭ"), (u! "𑀣")), ((u! "y"), (u! "𑀬")), ((u! "k"), (u! "𑀓")), ((u! "l"), (u! "𑀮")), ((u! "m"), (u! "𑀫")), ((u! "n"), (u! "𑀦")), ((u! "s"), (u! "𑀱")), ((u! "ʿ"), (u! "𑀏")), ((u! "p"), (u! "𑀧")), ((u! "ṣ"), (u! "𑀘")), ((u! "q"), (u! "𑀔")), ((u! "r"), (u! "𑀭")), ((u! "š"), (u! "𑀰")), ((u! "t"), (u! "𑀢"))]

/-- json/gimeltra_data.json `ssub.Latn.Chrs` -/
def ssub_Latn_Chrs : List (PyStr × PyStr) := [((u! "ʾ"), (u! "𐾰")), ((u! "b"), (u! "𐾲")), ((u! "g"), (u! "𐾳")), ((u! "d"), (u! "𐾴")), ((u! "h"), (u! "𐾵")), ((u! "w"), (u! "𐾶")), ((u! "z"), (u! "𐾸")), ((u! "ḥ"), (u! "𐾹")), ((u! "ṭ"), (u! "𐿄")), ((u! "y"), (u! "𐾺")), ((u! "k"), (u! "𐾻")), ((u! "l"), (u! "𐾼")), ((u! "m"), (u! "𐾽")), ((u! "n"), (u! "𐾾")), ((u! "s"), (u! "𐾿")), ((u! "ʿ"), (u! "𐿀")), ((u! "p"), (u! "𐿁")), ((u! "ṣ"), (u! "𐾿")), ((u! "q"), (u! "𐾻")), ((u! "r"), (u! "𐿂")), ((u! "š"), (u! "𐿃")), ((u! "t"), (u! "𐿄"))]

/-- json/gimeltra_data.json `ssub.Latn.Egyp` -/
def ssub_Latn_Egyp : List (PyStr × PyStr) := [((u! "ʾ"), (u! "𓃾")), ((u! "b"), (u! "𓉐")), ((u! "g"), (u! "𓌙")), ((u! "d"), (u! "𓇯")), ((u! "h"), (u! "𓀠")), ((u! "w"), (u! "𓏲")), ((u! "z"), (u! "𓏭")), ((u! "ḥ"), (u! "𓉗")), ((u! "ṭ"), (u! "𓄤")), ((u! "y"), (u! "𓂝")), ((u! "k"), (u! "𓂧")), ((u! "l"), (u! "𓌅")), ((u! "m"), (u! "𓈖")), ((u! "n"), (u! "𓆓")), ((u! "s"), (u! "𓊽")), ((u! "ʿ"), (u! "𓁹")), ((u! "p"), (u! "𓂋")), ((u! "ṣ"), (u! "𓇑")), ((u! "q"), (u! "𓃻")), ((u! "r"), (u! "𓁶")), ((u! "š"), (u! "𓌓")), ((u! "t"), (u! "𓏴"))]

/-- json/gimeltra_data.json `ssub.Latn.Elym` -/
def ssub_Latn_Elym : List (PyStr × PyStr) := [((u! "ʾ"), (u! "𐿠")), ((u! "b"), (u! "𐿡")), ((u! "g"), (u! "𐿢")), ((u! "d"), (u! "𐿣")), ((u! "h"), (u! "𐿤")), ((u! "w"), (u! "𐿥")), ((u! "z"), (u! "𐿦")), ((u! "ḥ"), (u! "𐿧")), ((u! "ṭ"), (u! "𐿨")), ((u! "y"), (u! "𐿩")), ((u! "k"), (u! "𐿪")), ((u! "l"), (u! "𐿫")), ((u! "m"), (u! "𐿬")), ((u! "n"), (u! "𐿭")), ((u! "s"), (u! "𐿮")), ((u! "ʿ"), (u! "𐿯")), ((u! "p"), (u! "𐿰")), ((u! "ṣ"), (u! "𐿱")), ((u! "q"), (u! "𐿲")), ((u! "r"), (u! "𐿳")), ((u! "š"), (u! "𐿴")), ((u! "t"), (u! "𐿵"))]

/-- json/gimeltra_data.json `ssub.Latn.Grek` -/
def ssub_Latn_Grek : List (PyStr × PyStr) := [((u! "ʾ"), (u! "α")), ((u! "b"), (u! "β")), ((u! "g"), (u! "γ")), ((u! "d"), (u! "δ")), ((u! "h"), (u! "ε")), ((u! "w"), (u! "υ")), ((u! "z"), (u! "ζ")), ((u! "ḥ"), (u! "η")), ((u! "ṭ"), (u! "θ")), ((u! "y"), (u! "ι")), ((u! "k"), (u! "κ")), ((u! "l"), (u! "λ")), ((u! "m"), (u! "μ")), ((u! "n"), (u! "ν")), ((u! "s"), (u! "σ")), ((u! "ʿ"), (u! "ο")), ((u! "p"), (u! "π")), ((u! "ṣ"), (u! "ϻ")), ((u! "q"), (u! "ϙ")), ((u! "r"), (u! "ρ")), ((u! "š"), (u! "ξ")), ((u! "t"), (u! "τ")), ((u! "f"), (u! "φ"))]

/-- json/gimeltra_data.json `ssub.Latn.Hatr` -/
def ssub_Latn_Hatr : List (PyStr × PyStr) := [((u! "ʾ"), (u! "𐣠")), ((u! "b"), (u! "𐣡")), ((u! "g"), (u! "𐣢")), ((u! "d"), (u! "𐣣")), ((u! "h"), (u! "𐣤")), ((u! "w"), (u! "𐣥")), ((u! "z"), (u! "𐣦")), ((u! "ḥ"), (u! "𐣧")), ((u! "ṭ"), (u! "𐣨")), ((u! "y"), (u! "𐣩")), ((u! "k"), (u! "𐣪")), ((u! "l"), (u! "𐣫")), ((u! "m"), (u! "𐣬")), ((u! "n"), (u! "𐣭")), ((u! "s"), (u! "𐣮")), ((u! "ʿ"), (u! "𐣯")), ((u! "p"), (u! "𐣰")), ((u! "ṣ"), (u! "𐣱")), ((u! "q"), (u! "𐣲")), ((u! "r"), (u! "𐣣")), ((u! "š"), (u! "𐣴")), ((u! "t"), (u! "𐣵"))]

/-- json/gimeltra_data.json `ssub.Latn.Hebr` -/
def ssub_Latn_Hebr : List (PyStr × PyStr) := [((u! "ʾ"), (u! "א")), ((u! "b"), (u! "בּ")), ((u! "g"), (u! "ג")), ((u! "d"), (u! "ד")), ((u! "h"), (u! "ה")), ((u! "w"), (u! "ו")), ((u! "z"), (u! "ז")), ((u! "ḥ"), (u! "ח")), ((u! "ṭ"), (u! "ט")), ((u! "y"), (u! "י")), ((u! "k"), (u! "כּ")), ((u! "ḵ"), (u! "כ")), ((u! "l"), (u! "ל")), ((u! "m"), (u! "מ")), ((u! "n"), (u! "נ")), ((u! "s"), (u! "ס")), ((u! "ʿ"), (u! "ע")), ((u! "p"), (u! "פּ")), ((u! "ṣ"), (u! "צ")), ((u! "q"), (u! "ק")), ((u! "r"), (u! "ר")), ((u! "š"), (u! "ש")), ((u! "š̪"), (u! "שׂ")), ((u! "š̮"), (u! "שׁ")), ((u! "t"), (u! "ת")), ((u! "v"), (u! "ב")), ((u! "f"), (u! "פ")), ((u! "ġ"), (u! "ע׳")), ((u! "ḏ"), (u! "ד׳")), ((u! "ḫ"), (u! "ח׳")), ((u! "j"), (u! "ג׳")), ((u! "č"), (u! "צ׳")), ((u! "ṯ"), (u! "ת׳")), ((u! "ž"), (u! "ז׳")), ((u! "ẓ"), (u! "ט׳")), ((u! "â"), (u! "אַ")), ((u! "ā̂"), (u! "אָ")), ((u! "î"), (u! "אִ")), ((u! "ī̂"), (u! "אִי")), ((u! "û"), (u! "אֻ")), ((u! "ū̂"), (u! "אוּ")), ((u! "ê"), (u! "אֶ")), ((u! "ē̂"), (u! "אֵ")), ((u! "ô"), (u! "אֹ")), ((u! "ō̂"), (u! "אוֹ")), ((u! "a"), (u! "ַ")), ((u! "ā"), (u! "ָ")), ((u! "i"), (u! "ִ")), ((u! "ī"), (u! "ִי")), ((u! "u"), (u! "ֻ")), ((u! "ū"), (u! "וּ")), ((u! "e"), (u! "ֶ")), ((u! "ē"), (u! "ֵ")), ((u! "o"), (u! "ֹ")), ((u! "ō"), (u! "וֹ")), ((u! "ĕ̂"), (u! "אֱ")), ((u! "ă̂"), (u! "אֲ")), ((u! "ŏ̂"), (u! "אֳ")), ((u! "ĕ"), (u! "ֱ")), ((u! "ă"), (u! "ֲ")), ((u! "ŏ"), (u! "ֳ")), ((u! "꞉"), (u! "ּ")), ((u! "̽"), (u! "ְ"))]

/-- json/gimeltra_data.json `ssub.Latn.Hebr-Ar` -/
def ssub_Latn_Hebr_Ar : List (PyStr × PyStr) := [((u! "ʾ"), (u! "א")), ((u! "b"), (u! "ב")), ((u! "j"), (u! "גׄ")), ((u! "d"), (u! "ד")), ((u! "h"), (u! "ה")), ((u! "w"), (u! "ו")), ((u! "z"), (u! "ז")), ((u! "ḥ"), (u! "ח")), ((u! "ṭ"), (u! "ט")), ((u! "y"), (u! "י")), ((u! "k"), (u! "כ")), ((u! "l"), (u! "ל")), ((u! "m"), (u! "מ")), ((u! "n"), (u! "נ")), ((u! "s"), (u! "ס")), ((u! "ʿ"), (u! "ע")), ((u! "f"), (u! "פׄ")), ((u! "ṣ"), (u! "צ")), ((u! "q"), (u! "ק")), ((u! "r"), (u! "ר")), ((u! "š"), (u! "ש")), ((u! "t"), (u! "ת")), ((u! "ḍ"), (u! "צׄ")), ((u! "ḏ"), (u! "דׄ")), ((u! "ḫ"), (u! "חׄ")), ((u! "ġ"), (u! "עׄ")), ((u! "ṯ"), (u! "תׄ")), ((u! "ẓ"), (u! "טׄ")), ((u! "ḧ"), (u! "ה̈"))]

/-- json/gimeltra_data.json `ssub.Latn.Mani` -/
def ssub_Latn_Mani : List (PyStr × PyStr) := [((u! "ʾ"), (u! "𐫀")), ((u! "b"), (u! "𐫁")), ((u! "g"), (u! "𐫃")), ((u! "d"), (u! "𐫅")), ((u! "h"), (u! "𐫆")), ((u! "w"), (u! "𐫇")), ((u! "z"), (u! "𐫉")), ((u! "ḥ"), (u! "𐫍")), ((u! "ṭ"), (u! "𐫎")), ((u! "y"), (u! "𐫏")), ((u! "k"), (u! "𐫐")), ((u! "l"), (u! "𐫓")), ((u! "m"), (u! "𐫖")), ((u! "n"), (u! "𐫗")), ((u! "s"), (u! "𐫘")), ((u! "ʿ"), (u! "𐫙")), ((u! "p"), (u! "𐫛")), ((u! "ṣ"), (u! "𐫝")), ((u! "q"), (u! "𐫞")), ((u! "r"), (u! "𐫡")), ((u! "š"), (u! "𐫢")), ((u! "t"), (u! "𐫤"))]

/-- json/gimeltra_data.json `ssub.Latn.Narb` -/
def ssub_Latn_Narb : List (PyStr × PyStr) := [((u! "ʾ"), (u! "𐪑")), ((u! "b"), (u! "𐪈")), ((u! "g"), (u! "𐪔")), ((u! "d"), (u! "𐪕")), ((u! "h"), (u! "𐪀")), ((u! "w"), (u! "𐪅")), ((u! "z"), (u! "𐪘")), ((u! "ḥ"), (u! "𐪂")), ((u! "ṭ"), (u! "𐪗")), ((u! "y"), (u! "𐪚")), ((u! "k"), (u! "𐪋")), ((u! "l"), (u! "𐪁")), ((u! "m"), (u! "𐪃")), ((u! "n"), (u! "𐪌")), ((u! "s"), (u! "𐪏")), ((u! "s²"), (u! "𐪊")), ((u! "ʿ"), (u! "𐪒")), ((u! "p"), (u! "𐪐")), ((u! "ṣ"), (u! "𐪎")), ((u! "q"), (u! "𐪄")), ((u! "r"), (u! "𐪇")), ((u! "š"), (u! "𐪆")), ((u! "t"), (u! "𐪉")), ((u! "ḍ"), (u! "𐪓")), ((u! "f"), (u! "𐪐")), ((u! "ġ"), (u! "𐪖")), ((u! "ḫ"), (u! "𐪍")), ((u! "ḏ"), (u! "𐪙")), ((u! "ẓ"), (u! "𐪜")), ((u! "ṯ"), (u! "𐪛\u200e"))]

/-- json/gimeltra_data.json `ssub.Latn.Nbat` -/
def ssub_Latn_Nbat : List (PyStr × PyStr) := [((u! "ʾ"), (u! "𐢁")), ((u! "b"), (u! "𐢃")), ((u! "g"), (u! "𐢄")), ((u! "d"), (u! "𐢅")), ((u! "h"), (u! "𐢇")), ((u! "w"), (u! "𐢈")), ((u! "z"), (u! "𐢉")), ((u! "ḥ"), (u! "𐢊")), ((u! "ṭ"), (u! "𐢋")), ((u! "y"), (u! "𐢍")), ((u! "k"), (u! "𐢏")), ((u! "l"), (u! "𐢑")), ((u! "m"), (u! "𐢓")), ((u! "n"), (u! "𐢕")), ((u! "s"), (u! "𐢖")), ((u! "ʿ"), (u! "𐢗")), ((u! "p"), (u! "𐢘")), ((u! "ṣ"), (u! "𐢙")), ((u! "q"), (u! "𐢚")), ((u! "r"), (u! "𐢛")), ((u! "š"), (u! "𐢝")), ((u! "t"), (u! "𐢞"))]

/-- json/gimeltra_data.json `ssub.Latn.Palm` -/
def ssub_Latn_Palm : List (PyStr × PyStr) := [((u! "ʾ"), (u! "𐡠")), ((u! "b"), (u! "𐡡")), ((u! "g"), (u! "𐡢")), ((u! "d"), (u! "𐡣")), ((u! "h"), (u! "𐡤")), ((u! "w"), (u! "𐡥")), ((u! "z"), (u! "𐡦")), ((u! "ḥ"), (u! "𐡧")), ((u! "ṭ"), (u! "𐡨")), ((u! "y"), (u! "𐡩")), ((u! "k"), (u! "𐡪")), ((u! "l"), (u! "𐡫")), ((u! "m"), (u! "𐡬")), ((u! "n"), (u! "𐡮")), ((u! "s"), (u! "𐡯")), ((u! "ʿ"), (u! "𐡰")), ((u! "p"), (u! "𐡱")), ((u! "ṣ"), (u! "𐡲")), ((u! "q"), (u! "𐡳")), ((u! "r"), (u! "𐡴")), ((u! "š"), (u! "𐡵")), ((u! "t"), (u! "𐡶"))]

/-- json/gimeltra_data.json `ssub.Latn.Phli` -/
def ssub_Latn_Phli : List (PyStr × PyStr) := [((u! "ʾ"), (u! "𐭠")), ((u! "b"), (u! "𐭡")), ((u! "g"), (u! "𐭢")), ((u! "d"), (u! "𐭣")), ((u! "h"), (u! "𐭤")), ((u! "w"), (u! "𐭥")), ((u! "z"), (u! "𐭦")), ((u! "ḥ"), (u! "𐭧")), ((u! "ṭ"), (u! "𐭨")), ((u! "y"), (u! "𐭩")), ((u! "k"), (u! "𐭪")), ((u! "l"), (u! "𐭫")), ((u! "m"), (u! "𐭬")), ((u! "n"), (u! "𐭭")), ((u! "s"), (u! "𐭮")), ((u! "ʿ"), (u! "𐭥")), ((u! "p"), (u! "𐭯")), ((u! "ṣ"), (u! "𐭰")), ((u! "q"), (u! "𐭬")), ((u! "r"), (u! "𐭥")), ((u! "š"), (u! "𐭱")), ((u! "t"), (u! "𐭲"))]

/-- json/gimeltra_data.json `ssub.Latn.Phlp` -/
def ssub_Latn_Phlp : List (PyStr × PyStr) := [((u! "ʾ"), (u! "𐮀")), ((u! "b"), (u! "𐮁")), ((u! "g"), (u! "𐮂")), ((u! "d"), (u! "𐮃")), ((u! "h"), (u! "𐮄")), ((u! "w"), (u! "𐮅")), ((u! "z"), (u! "𐮆")), ((u! "ḥ"), (u! "𐮇")), ((u! "ṭ"), (u! "𐮑")), ((u! "y"), (u! "𐮈")), ((u! "k"), (u! "𐮉")), ((u! "l"), (u! "𐮊")), ((u! "m"), (u! "𐮋")), ((u! "n"), (u! "𐮌")), ((u! "s"), (u! "𐮍")), ((u! "ʿ"), (u! "𐮅")), ((u! "p"), (u! "𐮎")), ((u! "ṣ"), (u! "𐮏")), ((u! "q"), (u! "𐮋")), ((u! "r"), (u! "𐮅")), ((u! "š"), (u! "𐮐")), ((u! "t"), (u! "𐮑"))]

/-- json/gimeltra_data.json `ssub.Latn.Phnx` -/
def ssub_Latn_Phnx : List (PyStr × PyStr) := [((u! "ʾ"), (u! "𐤀")), ((u! "b"), (u! "𐤁")), ((u! "g"), (u! "𐤂")), ((u! "d"), (u! "𐤃")), ((u! "h"), (u! "𐤄")), ((u! "w"), (u! "𐤅")), ((u! "z"), (u! "𐤆")), ((u! "ḥ"), (u! "𐤇")), ((u! "ṭ"), (u! "𐤈")), ((u! "y"), (u! "𐤉")), ((u! "k"), (u! "𐤊")), ((u! "l"), (u! "𐤋")), ((u! "m"), (u! "𐤌")), ((u! "n"), (u! "𐤍")), ((u! "s"), (u! "𐤎")), ((u! "ʿ"), (u! "𐤏")), ((u! "p"), (u! "𐤐")), ((u! "ṣ"), (u! "𐤑")), ((u! "q"), (u! "𐤒")), ((u! "r"), (u! "𐤓")), ((u! "š"), (u! "𐤔")), ((u! "t"), (u! "𐤕"))]

/-- json/gimeltra_data.json `ssub.Latn.Prti` -/
def ssub_Latn_Prti : List (PyStr × PyStr) := [((u! "ʾ"), (u! "𐭀")), ((u! "b"), (u! "𐭁")), ((u! "g"), (u! "𐭂")), ((u! "d"), (u! "𐭃")), ((u! "h"), (u! "𐭄")), ((u! "w"), (u! "𐭅")), ((u! "z"), (u! "𐭆")), ((u! "ḥ"), (u! "𐭇")), ((u! "ṭ"), (u! "𐭈")), ((u! "y"), (u! "𐭉")), ((u! "k"), (u! "𐭊")), ((u! "l"), (u! "𐭋")), ((u! "m"), (u! "𐭌")), ((u! "n"), (u! "𐭍")), ((u! "s"), (u! "𐭎")), ((u! "ʿ"), (u! "𐭏")), ((u! "p"), (u! "𐭐")), ((u! "ṣ"), (u! "𐭑")), ((u! "q"), (u! "𐭒")), ((u! "r"), (u! "𐭓")), ((u! "š"), (u! "𐭔")), ((u! "t"), (u! "𐭕"))]

/-- json/gimeltra_data.json `ssub.Latn.Samr` -/
def ssub_Latn_Samr : List (PyStr × PyStr) := [((u! "ʾ"), (u! "ࠀ")), ((u! "b"), (u! "ࠁ")), ((u! "g"), (u! "ࠂ")), ((u! "d"), (u! "ࠃ")), ((u! "h"), (u! "ࠄ")), ((u! "w"), (u! "ࠅ")), ((u! "z"), (u! "ࠆ")), ((u! "ḥ"), (u! "ࠇ")), ((u! "ṭ"), (u! "ࠈ")), ((u! "y"), (u! "ࠉ")), ((u! "k"), (u! "ࠊ")), ((u! "l"), (u! "ࠋ")), ((u! "m"), (u! "ࠌ")), ((u! "n"), (u! "ࠍ")), ((u! "s"), (u! "ࠎ")), ((u! "ʿ"), (u! "ࠏ")), ((u! "f"), (u! "ࠐ")), ((u! "ṣ"), (u! "ࠑ")), ((u! "q"), (u! "ࠒ")), ((u! "r"), (u! "ࠓ")), ((u! "š"), (u! "ࠔ")), ((u! "t"), (u! "ࠕ"))]

/-- json/gimeltra_data.json `ssub.Latn.Sarb` -/
def ssub_Latn_Sarb : List (PyStr × PyStr) := [((u! "ʾ"), (u! "𐩱")), ((u! "b"), (u! "𐩨")), ((u! "g"), (u! "𐩴")), ((u! "d"), (u! "𐩵")), ((u! "h"), (u! "𐩠")), ((u! "w"), (u! "𐩥")), ((u! "z"), (u! "𐩸")), ((u! "ḥ"), (u! "𐩢")), ((u! "ṭ"), (u! "𐩷")), ((u! "y"), (u! "𐩺")), ((u! "k"), (u! "𐩫")), ((u! "l"), (u! "𐩡")), ((u! "m"), (u! "𐩣")), ((u! "n"), (u! "𐩬")), ((u! "s"), (u! "𐩯")), ((u! "s²"), (u! "𐩪")), ((u! "ʿ"), (u! "𐩲")), ((u! "p"), (u! "𐩰")), ((u! "ṣ"), (u! "𐩮")), ((u! "q"), (u! "𐩤")), ((u! "r"), (u! "𐩧")), ((u! "š"), (u! "𐩦")), ((u! "t"), (u! "𐩩")), ((u! "f"), (u! "𐩰")), ((u! "ḏ"), (u! "𐩹")), ((u! "ḫ"), (u! "𐩭")), ((u! "ḍ"), (u! "𐩳")), ((u! "ġ"), (u! "𐩶")), ((u! "ṯ"), (u! "𐩻")), ((u! "ẓ"), (u! "𐩼"))]

/-- json/gimeltra_data.json `ssub.Latn.Sogd` -/
def ssub_Latn_Sogd : List (PyStr × PyStr) := [((u! "ʾ"), (u! "𐼰")), ((u! "b"), (u! "𐼱")), ((u! "g"), (u! "𐼲")), ((u! "h"), (u! "𐼳")), ((u! "w"), (u! "𐼴")), ((u! "z"), (u! "𐼵")), ((u! "ḥ"), (u! "𐼶")), ((u! "y"), (u! "𐼷")), ((u! "k"), (u! "𐼸")), ((u! "l"), (u! "𐼹")), ((u! "m"), (u! "𐼺")), ((u! "n"), (u! "𐼻")), ((u! "s"), (u! "𐼼")), ((u! "ʿ"), (u! "𐼽")), ((u! "p"), (u! "𐼾")), ((u! "ṣ"), (u! "𐼿")), ((u! "r"), (u! "𐽀")), ((u! "š"), (u! "𐽁")), ((u! "t"), (u! "𐽂")), ((u! "f"), (u! "𐽃")), ((u! "l²"), (u! "𐽄"))]

/-- json/gimeltra_data.json `ssub.Latn.Sogo` -/
def ssub_Latn_Sogo : List (PyStr × PyStr) := [((u! "ʾ"), (u! "𐼀")), ((u! "b"), (u! "𐼂")), ((u! "g"), (u! "𐼄")), ((u! "d"), (u! "𐼘")), ((u! "h"), (u! "𐼅")), ((u! "w"), (u! "𐼇")), ((u! "z"), (u! "𐼈")), ((u! "ḥ"), (u! "𐼉")), ((u! "y"), (u! "𐼊")), ((u! "k"), (u! "𐼋")), ((u! "l"), (u! "𐼌")), ((u! "m"), (u! "𐼍")), ((u! "n"), (u! "𐼎")), ((u! "s"), (u! "𐼑")), ((u! "ʿ"), (u! "𐼓")), ((u! "p"), (u! "𐼔")), ((u! "ṣ"), (u! "𐼕")), ((u! "r"), (u! "𐼘")), ((u! "š"), (u! "𐼙")), ((u! "t"), (u! "𐼚"))]

/-- json/gimeltra_data.json `ssub.Latn.Syre` -/
def ssub_Latn_Syre : List (PyStr × PyStr) := [((u! "ʾ"), (u! "ܐ")), ((u! "b"), (u! "ܒ")), ((u! "g"), (u! "ܓ")), ((u! "d"), (u! "ܕ")), ((u! "h"), (u! "ܗ")), ((u! "w"), (u! "ܘ")), ((u! "z"), (u! "ܙ")), ((u! "ḥ"), (u! "ܚ")), ((u! "ṭ"), (u! "ܛ")), ((u! "y"), (u! "ܝ")), ((u! "k"), (u! "ܟ")), ((u! "l"), (u! "ܠ")), ((u! "m"), (u! "ܡ")), ((u! "n"), (u! "ܢ")), ((u! "s"), (u! "ܣ")), ((u! "ʿ"), (u! "ܥ")), ((u! "p"), (u! "ܦ")), ((u! "ṣ"), (u! "ܨ")), ((u! "q"), (u! "ܩ")), ((u! "r"), (u! "ܪ")), ((u! "š"), (u! "ܫ")), ((u! "t"), (u! "ܬ݁"))]

/-- json/gimeltra_data.json `ssub.Latn.Syrn` -/
def ssub_Latn_Syrn : List (PyStr × PyStr) := [((u! "ʾ"), (u! "ܐ")), ((u! "b"), (u! "ܒ݁")), ((u! "v"), (u! "ܒ݂")), ((u! "g"), (u! "ܓ݁")), ((u! "ġ"), (u! "ܓ݂")), ((u! "d"), (u! "ܕ݁")), ((u! "ḏ"), (u! "ܕ݂")), ((u! "h"), (u! "ܗ")), ((u! "w"), (u! "ܘ")), ((u! "z"), (u! "ܙ")), ((u! "ḥ"), (u! "ܚ")), ((u! "ṭ"), (u! "ܛ")), ((u! "y"), (u! "ܝ")), ((u! "k"), (u! "ܟ݁")), ((u! "ḫ"), (u! "ܟ݂")), ((u! "l"), (u! "ܠ")), ((u! "m"), (u! "ܡ")), ((u! "n"), (u! "ܢ")), ((u! "s"), (u! "ܣ")), ((u! "ʿ"), (u! "ܥ")), ((u! "p"), (u! "ܦ݁")), ((u! "f"), (u! "ܦ݂")), ((u! "ṣ"), (u! "ܨ")), ((u! "q"), (u! "ܩ")), ((u! "r"), (u! "ܪ")), ((u! "š"), (u! "ܫ")), ((u! "t"), (u! "ܬ݁")), ((u! "ṯ"), (u! "ܬ݂")), ((u! "č"), (u! "ܟ̰")), ((u! "j"), (u! "ܓ̰")), ((u! "ž"), (u! "ܙ̰")), ((u! "a"), (u! "ܲ")), ((u! "ā"), (u! "ܵ")), ((u! "e"), (u! "ܸ")), ((u! "ē"), (u! "ܹ")), ((u! "ū"), (u! "ܘܼ")), ((u! "ō"), (u! "ܘܿ")), ((u! "ī"), (u! "ܝܼ")), ((u! "u"), (u! "ܘܼ")), ((u! "o"), (u! "ܘܿ")), ((u! "i"), (u! "ܝܼ")), ((u! "â"), (u! "ܐܲ")), ((u! "ā̂"), (u! "ܐܵ")), ((u! "ī̂"), (u! "ܝܼ")), ((u! "ū̂"), (u! "ܘܼ")), ((u! "ō̂"), (u! "ܘܿ")), ((u! "î"), (u! "ܝܼ")), ((u! "û"), (u! "ܘܼ")), ((u! "ô"), (u! "ܘܿ")), ((u! "ê"), (u! "ܐܸ")), ((u! "ē̂"), (u! "ܐܹ"))]

/-- json/gimeltra_data.json `ssub.Latn.Syrj` -/
def ssub_Latn_Syrj : List (PyStr × PyStr) := [((u! "ʾ"), (u! "ܐ")), ((u! "b"), (u! "ܒ݁")), ((u! "v"), (u! "ܒ݂")), ((u! "g"), (u! "ܓ݁")), ((u! "ġ"), (u! "ܓ݂")), ((u! "d"), (u! "ܕ݁")), ((u! "ḏ"), (u! "ܕ݂")), ((u! "h"), (u! "ܗ")), ((u! "w"), (u! "ܘ")), ((u! "z"), (u! "ܙ")), ((u! "ḥ"), (u! "ܚ")), ((u! "ṭ"), (u! "ܛ")), ((u! "y"), (u! "ܝ")), ((u! "k"), (u! "ܟ݁")), ((u! "ḫ"), (u! "ܟ݂")), ((u! "l"), (u! "ܠ")), ((u! "m"), (u! "ܡ")), ((u! "n"), (u! "ܢ")), ((u! "s"), (u! "ܣ")), ((u! "ʿ"), (u! "ܥ")), ((u! "p"), (u! "ܦ݁")), ((u! "f"), (u! "ܦ݂")), ((u! "ṣ"), (u! "ܨ")), ((u! "q"), (u! "ܩ")), ((u! "r"), (u! "ܪ")), ((u! "š"), (u! "ܫ")), ((u! "t"), (u! "ܬ݁")), ((u! "ṯ"), (u! "ܬ݂")), ((u! "č"), (u! "ܟ̰")), ((u! "j"), (u! "ܓ̰")), ((u! "ž"), (u! "ܙ̰")), ((u! "a"), (u! "ܰ")), ((u! "ā"), (u! "ܳ")), ((u! "e"), (u! "ܶ")), ((u! "ē"), (u! "ܶ")), ((u! "ī"), (u! "ܺ")), ((u! "i"), (u! "ܺ")), ((u! "ū"), (u! "ܽ")), ((u! "u"), (u! "ܽ")), ((u! "ō"), (u! "ّ")), ((u! "o"), (u! "ّ")), ((u! "â"), (u! "ܐܰ")), ((u! "ā̂"), (u! "ܐܳ")), ((u! "î"), (u! "ܐܺ")), ((u! "ī̂"), (u! "ܐܺ")), ((u! "û"), (u! "ܐܽ")), ((u! "ū̂"), (u! "ܐܽ")), ((u! "ê"), (u! "ܐܶ")), ((u! "ē̂"), (u! "ܐܶ")), ((u! "ō̂"), (u! "ܐّ")), ((u! "ô"), (u! "ܐّ"))]

/-- json/gimeltra_data.json `ssub.Latn.Ugar` -/
def ssub_Latn_Ugar : List (PyStr × PyStr) := [((u! "s₂"), (u! "𐎝")), ((u! "ʾ"), (u! "𐎀")), ((u! "b"), (u! "𐎁")), ((u! "g"), (u! "𐎂")), ((u! "d"), (u! "𐎄")), ((u! "h"), (u! "𐎅")), ((u! "w"), (u! "𐎆")), ((u! "z"), (u! "𐎇")), ((u! "ḥ"), (u! "𐎈")), ((u! "ṭ"), (u! "𐎉")), ((u! "y"), (u! "𐎊")), ((u! "k"), (u! "𐎋")), ((u! "l"), (u! "𐎍")), ((u! "m"), (u! "𐎎")), ((u! "n"), (u! "𐎐")), ((u! "s"), (u! "𐎒")), ((u! "ʿ"), (u! "𐎓")), ((u! "p"), (u! "𐎔")), ((u! "ṣ"), (u! "𐎕")), ((u! "q"), (u! "𐎖")), ((u! "r"), (u! "𐎗")), ((u! "š"), (u! "𐎌")), ((u! "t"), (u! "𐎚")), ((u! "ġ"), (u! "𐎙")), ((u! "û"), (u! "𐎜")), ((u! "î"), (u! "𐎛")), ((u! "ṯ"), (u! "𐎘")), ((u! "ẓ"), (u! "𐎑")), ((u! "ḫ"), (u! "𐎃")), ((u! "ḏ"), (u! "𐎏"))]

/-- json/gimeltra_data.json `ssub.Type.Latn` -/
def ssub_Type_Latn : List (PyStr × PyStr) := [((u! "@"), (u! "ʾ")), ((u! "b"), (u! "b")), ((u! "v"), (u! "v")), ((u! "g"), (u! "g")), ((u! "j"), (u! "j")), ((u! "d"), (u! "d")), ((u! "h"), (u! "h")), ((u! "w"), (u! "w")), ((u! "z"), (u! "z")), ((u! "H"), (u! "ḥ")), ((u! "T"), (u! "ṭ")), ((u! "y"), (u! "y")), ((u! "k"), (u! "k")), ((u! "l"), (u! "l")), ((u! "m"), (u! "m")), ((u! "n"), (u! "n")), ((u! "s"), (u! "s")), ((u! "#"), (u! "ʿ")), ((u! "f"), (u! "f")), ((u! "S"), (u! "ṣ")), ((u! "q"), (u! "q")), ((u! "r"), (u! "r")), ((u! "k_"), (u! "ḵ")), ((u! "s_"), (u! "š")), ((u! "t"), (u! "t")), ((u! "D"), (u! "ḍ")), ((u! "d_"), (u! "ḏ")), ((u! "h_"), (u! "ḫ")), ((u! "G"), (u! "ġ")), ((u! "t_"), (u! "ṯ")), ((u! "z_"), (u! "ẓ")), ((u! "p"), (u! "p")), ((u! "c"), (u! "č")), ((u! "Z"), (u! "ž")), ((u! "y_"), (u! "ȳ")), ((u! "a"), (u! "a")), ((u! "A"), (u! "ā")), ((u! "e"), (u! "e")), ((u! "E"), (u! "ē")), ((u! "u"), (u! "u")), ((u! "o"), (u! "o")), ((u! "i"), (u! "i")), ((u! "I"), (u! "ī")), ((u! "U"), (u! "ū")), ((u! "O"), (u! "ō")), ((u! "a^"), (u! "â")), ((u! "i^"), (u! "î")), ((u! "u^"), (u! "û")), ((u! "o^"), (u! "ô")), ((u! "A^"), (u! "ā̂")), ((u! "I^"), (u! "ī̂")), ((u! "U^"), (u! "ū̂")), ((u! "O^"), (u! "ō̂")), ((u! "e^"), (u! "ê")), ((u! "E^"), (u! "ē̂")), ((u! "w^"), (u! "ŵ")), ((u! "y^"), (u! "ŷ")), ((u! "d~"), (u! "ɖ")), ((u! "t~"), (u! "ʈ")), ((u! "s~"), (u! "ʂ")), ((u! "l~"), (u! "ɭ")), ((u! "y~"), (u! "ɲ")), ((u! "n~"), (u! "ɳ")), ((u! "r~"), (u! "ɽ")), ((u! "h~"), (u! "ḧ")), ((u! "h^"), (u! "ʰ")), ((u! "m^"), (u! "ₘ")), ((u! "un^"), (u! "uⁿ")), ((u! "in^"), (u! "iⁿ")), ((u! "an^"), (u! "aⁿ")), ((u! "e~^"), (u! "ĕ̂")), ((u! "a~^"), (u! "ă̂")), ((u! "o~^"), (u! "ŏ̂")), ((u! "e~"), (u! "ĕ")), ((u! "a~"), (u! "ă")), ((u! "o~"), (u! "ŏ")), ((u! "?^w"), (u! "ˀw")), ((u! "?^y"), (u! "ˀy")), ((u! "?^h"), (u! "ˀh")), ((u! "??"), (u! "ʔ")), ((u! "x"), (u! "̽")), ((u! ":"), (u! "꞉"))]

/-- json/gimeltra_data.json `ssub.Arab.Latn` -/
def ssub_Arab_Latn : List (PyStr × PyStr) := [((u! "ا"), (u! "ʾ")), ((u! "ب"), (u! "b")), ((u! "ڤ"), (u! "v")), ((u! "ڨ"), (u! "g")), ((u! "ج"), (u! "j")), ((u! "د"), (u! "d")), ((u! "ه"), (u! "h")), ((u! "و"), (u! "w")), ((u! "ز"), (u! "z")), ((u! "ح"), (u! "ḥ")), ((u! "ط"), (u! "ṭ")), ((u! "ي"), (u! "y")), ((u! "ك"), (u! "k")), ((u! "ل"), (u! "l")), ((u! "م"), (u! "m")), ((u! "ن"), (u! "n")), ((u! "س"), (u! "s")), ((u! "ع"), (u! "ʿ")), ((u! "ف"), (u! "f")), ((u! "پ"), (u! "p")), ((u! "ص"), (u! "ṣ")), ((u! "ق"), (u! "q")), ((u! "ر"), (u! "r")), ((u! "ش"), (u! "š")), ((u! "ت"), (u! "t")), ((u! "ض"), (u! "ḍ")), ((u! "ذ"), (u! "ḏ")), ((u! "خ"), (u! "ḫ")), ((u! "غ"), (u! "ġ")), ((u! "ث"), (u! "ṯ")), ((u! "ظ"), (u! "ẓ")), ((u! "ة"), (u! "ḧ")), ((u! "ى"), (u! "a̮")), ((u! "َيْ"), (u! "aŷ")), ((u! "َوْ"), (u! "aŵ")), ((u! "أَيْ"), (u! "âŷ")), ((u! "أَوْ"), (u! "âŵ")), ((u! "ْ"), (u! "̽")), ((u! "َ"), (u! "a")), ((u! "ِ"), (u! "i")), ((u! "ُ"), (u! "u")), ((u! "أَ"), (u! "â")), ((u! "َى"), (u! "ā̮")), ((u! "أَى"), (u! "ā̮̂")), ((u! "أى"), (u! "ˀā̮̂")), ((u! "آ"), (u! "ā̂")), ((u! "َا"), (u! "ā")), ((u! "إِ"), (u! "î")), ((u! "إِي"), (u! "ī̂")), ((u! "ِي"), (u! "ī")), ((u! "أُ"), (u! "û")), ((u! "أُو"), (u! "ū̂")), ((u! "ُو"), (u! "ū")), ((u! "ٱ"), (u! "ʾ")), ((u! "ٰ"), (u! "ā")), ((u! "ّ"), (u! "꞉")), ((u! "ئ"), (u! "ˀy")), ((u! "ؤ"), (u! "ˀw")), ((u! "ء"), (u! "ʔ")), ((u! "أ"), (u! "ˀâ")), ((u! "إ"), (u! "ˀî")), ((u! "ٌ"), (u! "uⁿ")), ((u! "ٍ"), (u! "iⁿ")), ((u! "ً"), (u! "aⁿ")), ((u! "٠"), (u! "0")), ((u! "١"), (u! "1")), ((u! "٢"), (u! "2")), ((u! "٣"), (u! "3")), ((u! "٤"), (u! "4")), ((u! "٥"), (u! "5")), ((u! "٦"), (u! "6")), ((u! "٧"), (u! "7")), ((u! "٨"), (u! "8")), ((u! "٩"), (u! "9"))]

/-- json/gimeltra_data.json `ssub.Arab-Fa.Latn` -/
def ssub_Arab_Fa_Latn : List (PyStr × PyStr) := [((u! "ا"), (u! "ʾ")), ((u! "ب"), (u! "b")), ((u! "ج"), (u! "j")), ((u! "د"), (u! "d")), ((u! "ه"), (u! "h")), ((u! "و"), (u! "w")), ((u! "ز"), (u! "z")), ((u! "ح"), (u! "ḥ")), ((u! "ط"), (u! "ṭ")), ((u! "ی"), (u! "y")), ((u! "ک"), (u! "k")), ((u! "ل"), (u! "l")), ((u! "م"), (u! "m")), ((u! "ن"), (u! "n")), ((u! "س"), (u! "s")), ((u! "ع"), (u! "ʿ")), ((u! "ف"), (u! "f")), ((u! "ص"), (u! "ṣ")), ((u! "ق"), (u! "q")), ((u! "ر"), (u! "r")), ((u! "ش"), (u! "š")), ((u! "ت"), (u! "t")), ((u! "ض"), (u! "ḍ")), ((u! "ذ"), (u! "ḏ")), ((u! "خ"), (u! "ḫ")), ((u! "غ"), (u! "ġ")), ((u! "ث"), (u! "ṯ")), ((u! "ظ"), (u! "ẓ")), ((u! "گ"), (u! "g")), ((u! "پ"), (u! "p")), ((u! "چ"), (u! "č")), ((u! "ژ"), (u! "ž")), ((u! "ة"), (u! "ḧ")), ((u! "َیْ"), (u! "aŷ")), ((u! "َوْ"), (u! "aŵ")), ((u! "اَیْ"), (u! "âŷ")), ((u! "اَوْ"), (u! "âŵ")), ((u! "ْ"), (u! "̽")), ((u! "َ"), (u! "a")), ((u! "ِ"), (u! "e")), ((u! "ُ"), (u! "o")), ((u! "اَ"), (u! "â")), ((u! "آ"), (u! "ā̂")), ((u! "َا"), (u! "ā")), ((u! "اِ"), (u! "ê")), ((u! "اِی"), (u! "ī̂")), ((u! "ِی"), (u! "ī")), ((u! "اُ"), (u! "ô")), ((u! "اُو"), (u! "ū̂")), ((u! "ُو"), (u! "ū")), ((u! "ٱ"), (u! "")), ((u! "ٰ"), (u! "ā")), ((u! "ّ"), (u! "꞉")), ((u! "ئ"), (u! "ˀy")), ((u! "ؤ"), (u! "ˀw")), ((u! "ء"), (u! "ʔ")), ((u! "أ"), (u! "ˀâ")), ((u! "إ"), (u! "ˀî")), ((u! "هٔ"), (u! "ˀh")), ((u! "ٌ"), (u! "uⁿ")), ((u! "ٍ"), (u! "iⁿ")), ((u! "ً"), (u! "aⁿ")), ((u! "ۀ"), (u! "ȳ")), ((u! "۰"), (u! "0")), ((u! "۱"), (u! "1")), ((u! "۲"), (u! "2")), ((u! "۳"), (u! "3")), ((u! "۴"), (u! "4")), ((u! "۵"), (u! "5")), ((u! "۶"), (u! "6")), ((u! "۷"), (u! "7")), ((u! "۸"), (u! "8")), ((u! "۹"), (u! "9"))]

/-- json/gimeltra_data.json `ssub.Arab-Ur.Latn` -/
def ssub_Arab_Ur_Latn : List (PyStr × PyStr) := [((u! "ا"), (u! "ʾ")), ((u! "ب"), (u! "b")), ((u! "ج"), (u! "j")), ((u! "د"), (u! "d")), ((u! "ہ"), (u! "h")), ((u! "و"), (u! "w")), ((u! "ز"), (u! "z")), ((u! "ح"), (u! "ḥ")), ((u! "ط"), (u! "ṭ")), ((u! "ی"), (u! "y")), ((u! "ک"), (u! "k")), ((u! "ل"), (u! "l")), ((u! "م"), (u! "m")), ((u! "ن"), (u! "n")), ((u! "س"), (u! "s")), ((u! "ع"), (u! "ʿ")), ((u! "ف"), (u! "f")), ((u! "ص"), (u! "ṣ")), ((u! "ق"), (u! "q")), ((u! "ر"), (u! "r")), ((u! "ش"), (u! "š")), ((u! "ت"), (u! "t")), ((u! "ض"), (u! "ḍ")), ((u! "ذ"), (u! "ḏ")), ((u! "خ"), (u! "ḫ")), ((u! "غ"), (u! "ġ")), ((u! "ث"), (u! "ṯ")), ((u! "ظ"), (u! "ẓ")), ((u! "گ"), (u! "g")), ((u! "پ"), (u! "p")), ((u! "چ"), (u! "č")), ((u! "ژ"), (u! "ž")), ((u! "ڈ"), (u! "ɖ")), ((u! "ٹ"), (u! "ʈ")), ((u! "ڑ"), (u! "ɽ")), ((u! "ۃ"), (u! "ḧ")), ((u! "ھ"), (u! "ʰ")), ((u! "ں"), (u! "ₘ")), ((u! "َیْ"), (u! "aŷ")), ((u! "َوْ"), (u! "aŵ")), ((u! "اَیْ"), (u! "âŷ")), ((u! "اَوْ"), (u! "âŵ")), ((u! "ْ"), (u! "̽")), ((u! "اَ"), (u! "â")), ((u! "َ"), (u! "a")), ((u! "آ"), (u! "ā̂")), ((u! "َا"), (u! "ā")), ((u! "اِ"), (u! "î")), ((u! "ِ"), (u! "i")), ((u! "اِی"), (u! "ī̂")), ((u! "ِی"), (u! "ī")), ((u! "اُ"), (u! "û")), ((u! "ُ"), (u! "u")), ((u! "اُو"), (u! "ū̂")), ((u! "ُو"), (u! "ū")), ((u! "اے"), (u! "ē̂")), ((u! "ے"), (u! "ē")), ((u! "ٱ"), (u! "")), ((u! "ٰ"), (u! "ā")), ((u! "ّ"), (u! "꞉")), ((u! "ئ"), (u! "ˀy")), ((u! "ۓ"), (u! "ˀē")), ((u! "ؤ"), (u! "ˀw")), ((u! "ء"), (u! "ʔ")), ((u! "أ"), (u! "ˀâ")), ((u! "إ"), (u! "ˀî")), ((u! "ٌ"), (u! "uⁿ")), ((u! "ٍ"), (u! "iⁿ")), ((u! "ً"), (u! "aⁿ")), ((u! "٠"), (u! "0")), ((u! "١"), (u! "1")), ((u! "٢"), (u! "2")), ((u! "٣"), (u! "3")), ((u! "٤"), (u! "4")), ((u! "٥"), (u! "5")), ((u! "٦"), (u! "6")), ((u! "٧"), (u! "7")), ((u! "٨"), (u! "8")), ((u! "٩"), (u! "9"))]

/-- json/gimeltra_data.json `ssub.Arab-Pa.Latn` -/
def ssub_Arab_Pa_Latn : List (PyStr × PyStr) := [((u! "ا"), (u! "ʾ")), ((u! "ب"), (u! "b")), ((u! "ج"), (u! "j")), ((u! "د"), (u! "d")), ((u! "ہ"), (u! "h")), ((u! "و"), (u! "w")), ((u! "ز"), (u! "z")), ((u! "ح"), (u! "ḥ")), ((u! "ط"), (u! "ṭ")), ((u! "ی"), (u! "y")), ((u! "ک"), (u! "k")), ((u! "ل"), (u! "l")), ((u! "م"), (u! "m")), ((u! "ن"), (u! "n")), ((u! "س"), (u! "s")), ((u! "ع"), (u! "ʿ")), ((u! "ف"), (u! "f")), ((u! "ص"), (u! "ṣ")), ((u! "ق"), (u! "q")), ((u! "ر"), (u! "r")), ((u! "ش"), (u! "š")), ((u! "ت"), (u! "t")), ((u! "ض"), (u! "ḍ")), ((u! "ذ"), (u! "ḏ")), ((u! "خ"), (u! "ḫ")), ((u! "غ"), (u! "ġ")), ((u! "ث"), (u! "ṯ")), ((u! "ظ"), (u! "ẓ")), ((u! "گ"), (u! "g")), ((u! "پ"), (u! "p")), ((u! "چ"), (u! "č")), ((u! "ژ"), (u! "ž")), ((u! "ڈ"), (u! "ɖ")), ((u! "ٹ"), (u! "ʈ")), ((u! "ڑ"), (u! "ɽ")), ((u! "لؕ"), (u! "ɭ")), ((u! "ݨ"), (u! "ɳ")), ((u! "ۃ"), (u! "ḧ")), ((u! "ھ"), (u! "ʰ")), ((u! "ں"), (u! "ₘ")), ((u! "َیْ"), (u! "aŷ")), ((u! "َوْ"), (u! "aŵ")), ((u! "اَیْ"), (u! "âŷ")), ((u! "اَوْ"), (u! "âŵ")), ((u! "ْ"), (u! "̽")), ((u! "اَ"), (u! "â")), ((u! "َ"), (u! "a")), ((u! "آ"), (u! "ā̂")), ((u! "َا"), (u! "ā")), ((u! "اِ"), (u! "î")), ((u! "ِ"), (u! "i")), ((u! "اِی"), (u! "ī̂")), ((u! "ِی"), (u! "ī")), ((u! "اُ"), (u! "û")), ((u! "ُ"), (u! "u")), ((u! "اُو"), (u! "ū̂")), ((u! "ُو"), (u! "ū")), ((u! "اے"), (u! "ē̂")), ((u! "ے"), (u! "ē")), ((u! "ٱ"), (u! "")), ((u! "ٰ"), (u! "ā")), ((u! "ّ"), (u! "꞉")), ((u! "ئ"), (u! "ˀy")), ((u! "ۓ"), (u! "ˀē")), ((u! "ؤ"), (u! "ˀw")), ((u! "ء"), (u! "ʔ")), ((u! "أ"), (u! "ˀâ")), ((u! "إ"), (u! "ˀî")), ((u! "ٌ"), (u! "uⁿ")), ((u! "ٍ"), (u! "iⁿ")), ((u! "ً"), (u! "aⁿ")), ((u! "٠"), (u! "0")), ((u! "١"), (u! "1")), ((u! "٢"), (u! "2")), ((u! "٣"), (u! "3")), ((u! "٤"), (u! "4")), ((u! "٥"), (u! "5")), ((u! "٦"), (u! "6")), ((u! "٧"), (u! "7")), ((u! "٨"), (u! "8")), ((u! "٩"), (u! "9"))]

/-- json/gimeltra_data.json `ssub.Thaa.Latn` -/
def ssub_Thaa_Latn : List (PyStr × PyStr) := [((u! "އ"), (u! "ʾ")), ((u! "ބ"), (u! "b")), ((u! "ޖ"), (u! "j")), ((u! "ދ"), (u! "d")), ((u! "ހ"), (u! "h")), ((u! "ޥ"), (u! "w")), ((u! "ޒ"), (u! "z")), ((u! "ޙ"), (u! "ḥ")), ((u! "ޠ"), (u! "ṭ")), ((u! "ޔ"), (u! "y")), ((u! "ކ"), (u! "k")), ((u! "ލ"), (u! "l")), ((u! "މ"), (u! "m")), ((u! "ނ"), (u! "n")), ((u! "ސ"), (u! "s")), ((u! "ޢ"), (u! "ʿ")), ((u! "ފ"), (u! "f")), ((u! "ޞ"), (u! "ṣ")), ((u! "ޤ"), (u! "q")), ((u! "ރ"), (u! "r")), ((u! "ޝ"), (u! "š")), ((u! "ތ"), (u! "t")), ((u! "ޟ"), (u! "ḍ")), ((u! "ޛ"), (u! "ḏ")), ((u! "ޚ"), (u! "ḫ")), ((u! "ޣ"), (u! "ġ")), ((u! "ޘ"), (u! "ṯ")), ((u! "ޡ"), (u! "ẓ")), ((u! "ގ"), (u! "g")), ((u! "ޕ"), (u! "p")), ((u! "ޗ"), (u! "č")), ((u! "ޜ"), (u! "ž")), ((u! "ޑ"), (u! "ɖ")), ((u! "ޓ"), (u! "ʈ")), ((u! "ށ"), (u! "ʂ")), ((u! "ޅ"), (u! "ɭ")), ((u! "ޏ"), (u! "ɲ")), ((u! "ވ"), (u! "v")), ((u! "ޱ"), (u! "ɳ")), ((u! "ް"), (u! "̽")), ((u! "އަ"), (u! "â")), ((u! "ަ"), (u! "a")), ((u! "އާ"), (u! "ā̂")), ((u! "ާ"), (u! "ā")), ((u! "އި"), (u! "î")), ((u! "ި"), (u! "i")), ((u! "އީ"), (u! "ī̂")), ((u! "ީ"), (u! "ī")), ((u! "އު"), (u! "û")), ((u! "ު"), (u! "u")), ((u! "އޫ"), (u! "ū̂")), ((u! "ޫ"), (u! "ū")), ((u! "އެ"), (u! "ê")), ((u! "ެ"), (u! "e")), ((u! "އޭ"), (u! "ē̂")), ((u! "ޭ"), (u! "ē")), ((u! "އޮ"), (u! "ô")), ((u! "ޮ"), (u! "o")), ((u! "އޯ"), (u! "ō̂")), ((u! "ޯ"), (u! "ō")), ((u! "އް"), (u! "ʔ")), ((u! "0"), (u! "0")), ((u! "1"), (u! "1")), ((u! "2"), (u! "2")), ((u! "3"), (u! "3")), ((u! "4"), (u! "4")), ((u! "5"), (u! "5")), ((u! "6"), (u! "6")), ((u! "7"), (u! "7")), ((u! "8"), (u! "8")), ((u! "9"), (u! "9"))]

/-- json/gimeltra_data.json `ssub.Ethi.Latn` -/
def ssub_Ethi_Latn : List (PyStr × PyStr) := [((u! "አ"), (u! "ʾ")), ((u! "በ"), (u! "b")), ((u! "ገ"), (u! "g")), ((u! "ደ"), (u! "d")), ((u! "ሀ"), (u! "h")), ((u! "ወ"), (u! "w")), ((u! "ዘ"), (u! "z")), ((u! "ሐ"), (u! "ḥ")), ((u! "ጠ"), (u! "ṭ")), ((u! "የ"), (u! "y")), ((u! "ከ"), (u! "k")), ((u! "ለ"), (u! "l")), ((u! "መ"), (u! "m")), ((u! "ነ"), (u! "n")), ((u! "ሰ"), (u! "s")), ((u! "ዐ"), (u! "ʿ")), ((u! "ፐ"), (u! "p")), ((u! "ጸ"), (u! "ṣ")), ((u! "ቀ"), (u! "q")), ((u! "ረ"), (u! "r")), ((u! "ሠ"), (u! "š")), ((u! "ተ"), (u! "t")), ((u! "ፈ"), (u! "f")), ((u! "ኀ"), (u! "ḫ")), ((u! "ፀ"), (u! "č")), ((u! "ጰ"), (u! "p̣"))]

/-- json/gimeltra_data.json `ssub.Armi.Latn` -/
def ssub_Armi_Latn : List (PyStr × PyStr) := [((u! "𐡀"), (u! "ʾ")), ((u! "𐡁"), (u! "b")), ((u! "𐡂"), (u! "g")), ((u! "𐡃"), (u! "d")), ((u! "𐡄"), (u! "h")), ((u! "𐡅"), (u! "w")), ((u! "𐡆"), (u! "z")), ((u! "𐡇"), (u! "ḥ")), ((u! "𐡈"), (u! "ṭ")), ((u! "𐡉"), (u! "y")), ((u! "𐡊"), (u! "k")), ((u! "𐡋"), (u! "l")), ((u! "𐡌"), (u! "m")), ((u! "𐡍"), (u! "n")), ((u! "𐡎"), (u! "s")), ((u! "𐡏"), (u! "ʿ")), ((u! "𐡐"), (u! "p")), ((u! "𐡑"), (u! "ṣ")), ((u! "𐡒"), (u! "q")), ((u! "𐡓"), (u! "r")), ((u! "𐡔"), (u! "š")), ((u! "𐡕"), (u! "t"))]

/-- json/gimeltra_data.json `ssub.Brah.Latn` -/
def ssub_Brah_Latn : List (PyStr × PyStr) := [((u! "𑀅"), (u! "ʾ")), ((u! "𑀩"), (u! "b")), ((u! "𑀕"), (u! "g")), ((u! "𑀥"), (u! "d")), ((u! "𑀳"), (u! "h")), ((u! "𑀯"), (u! "w")), ((u! "𑀚"), (u! "z")), ((u! "𑀖"), (u! "ḥ")), ((u! "𑀣"), (u! "ṭ")), ((u! "𑀬"), (u! "y")), ((u! "𑀓"), (u! "k")), ((u! "𑀮"), (u! "l")), ((u! "𑀫"), (u! "m")), ((u! "𑀦"), (u! "n")), ((u! "𑀱"), (u! "s")), ((u! "𑀏"), (u! "ʿ")), ((u! "𑀧"), (u! "p")), ((u! "𑀘"), (u! "ṣ")), ((u! "𑀔"), (u! "q")), ((u! "𑀭"), (u! "r")), ((u! "𑀰"), (u! "š")), ((u! "𑀢"), (u! "t"))]

/-- json/gimeltra_data.json `ssub.Chrs.Latn` -/
def ssub_Chrs_Latn : List (PyStr × PyStr) := [((u! "𐾰"), (u! "ʾ")), ((u! "𐾱"), (u! "ʾ")), ((u! "𐾲"), (u! "b")), ((u! "𐾳"), (u! "g")), ((u! "𐾴"), (u! "d")), ((u! "𐾵"), (u! "h")), ((u! "𐾶"), (u! "w")), ((u! "𐾷"), (u! "w")), ((u! "𐾸"), (u! "z")), ((u! "𐾹"), (u! "ḥ")), ((u! "𐾺"), (u! "y")), ((u! "𐾻"), (u! "k")), ((u! "𐾼"), (u! "l")), ((u! "𐾽"), (u! "m")), ((u! "𐾾"), (u! "n")), ((u! "𐾿"), (u! "s")), ((u! "𐿀"), (u! "ʿ")), ((u! "𐿁"), (u! "p")), ((u! "𐿂"), (u! "r")), ((u! "𐿃"), (u! "š")), ((u! "𐿄"), (u! "t"))]

/-- json/gimeltra_data.json `ssub.Egyp.Latn` -/
def ssub_Egyp_Latn : List (PyStr × PyStr) := [((u! "𓃾"), (u! "ʾ")), ((u! "𓉐"), (u! "b")), ((u! "𓌙"), (u! "g")), ((u! "𓇯"), (u! "d")), ((u! "𓀠"), (u! "h")), ((u! "𓏲"), (u! "w")), ((u! "𓏭"), (u! "z")), ((u! "𓉗"), (u! "ḥ")), ((u! "𓄤"), (u! "ṭ")), ((u! "𓂝"), (u! "y")), ((u! "𓂧"), (u! "k")), ((u! "𓌅"), (u! "l")), ((u! "𓈖"), (u! "m")), ((u! "𓆓"), (u! "n")), ((u! "𓊽"), (u! "s")), ((u! "𓁹"), (u! "ʿ")), ((u! "𓂋"), (u! "p")), ((u! "𓇑"), (u! "ṣ")), ((u! "𓃻"), (u! "q")), ((u! "𓁶"), (u! "r")), ((u! "𓌓"), (u! "š")), ((u! "𓏴"), (u! "t"))]

/-- json/gimeltra_data.json `ssub.Elym.Latn` -/
def ssub_Elym_Latn : List (PyStr × PyStr) := [((u! "𐿠"), (u! "ʾ")), ((u! "𐿡"), (u! "b")), ((u! "𐿢"), (u! "g")), ((u! "𐿣"), (u! "d")), ((u! "𐿤"), (u! "h")), ((u! "𐿥"), (u! "w")), ((u! "𐿦"), (u! "z")), ((u! "𐿧"), (u! "ḥ")), ((u! "𐿨"), (u! "ṭ")), ((u! "𐿩"), (u! "y")), ((u! "𐿪"), (u! "k")), ((u! "𐿫"), (u! "l")), ((u! "𐿬"), (u! "m")), ((u! "𐿭"), (u! "n")), ((u! "𐿮"), (u! "s")), ((u! "𐿯"), (u! "ʿ")), ((u! "𐿰"), (u! "p")), ((u! "𐿱"), (u! "ṣ")), ((u! "𐿲"), (u! "q")), ((u! "𐿳"), (u! "r")), ((u! "𐿴"), (u! "š")), ((u! "𐿵"), (u! "t"))]

/-- json/gimeltra_data.json `ssub.Grek.Latn` -/
def ssub_Grek_Latn : List (PyStr × PyStr) := [((u! "α"), (u! "ʾ")), ((u! "Α"), (u! "ʾ")), ((u! "β"), (u! "b")), ((u! "Β"), (u! "b")), ((u! "γ"), (u! "g")), ((u! "Γ"), (u! "g")), ((u! "δ"), (u! "d")), ((u! "Δ"), (u! "d")), ((u! "ε"), (u! "h")), ((u! "Ε"), (u! "h")), ((u! "υ"), (u! "w")), ((u! "Υ"), (u! "w")), ((u! "ζ"), (u! "z")), ((u! "Ζ"), (u! "z")), ((u! "η"), (u! "ḥ")), ((u! "Η"), (u! "ḥ")), ((u! "θ"), (u! "ṭ")), ((u! "Θ"), (u! "ṭ")), ((u! "ι"), (u! "y")), ((u! "Ι"), (u! "y")), ((u! "κ"), (u! "k")), ((u! "Κ"), (u! "k")), ((u! "λ"), (u! "l")), ((u! "Λ"), (u! "l")), ((u! "μ"), (u! "m")), ((u! "Μ"), (u! "m")), ((u! "ν"), (u! "n")), ((u! "Ν"), (u! "n")), ((u! "σ"), (u! "s")), ((u! "ς"), (u! "s")), ((u! "Σ"), (u! "s")), ((u! "ο"), (u! "ʿ")), ((u! "ω"), (u! "ʿ")), ((u! "Ο"), (u! "ʿ")), ((u! "Ω"), (u! "ʿ")), ((u! "π"), (u! "p")), ((u! "Π"), (u! "p")), ((u! "ϻ"), (u! "ṣ")), ((u! "Ϻ"), (u! "ṣ")), ((u! "ϙ"), (u! "q")), ((u! "Ϙ"), (u! "q")), ((u! "ρ"), (u! "r")), ((u! "Ρ"), (u! "r")), ((u! "ξ"), (u! "š")), ((u! "Ξ"), (u! "š")), ((u! "τ"), (u! "t")), ((u! "Τ"), (u! "t")), ((u! "φ"), (u! "f")), ((u! "Φ"), (u! "f"))]

/-- json/gimeltra_data.json `ssub.Hatr.Latn` -/
def ssub_Hatr_Latn : List (PyStr × PyStr) := [((u! "𐣠"), (u! "ʾ")), ((u! "𐣡"), (u! "b")), ((u! "𐣢"), (u! "g")), ((u! "𐣣"), (u! "r")), ((u! "𐣤"), (u! "h")), ((u! "𐣥"), (u! "w")), ((u! "𐣦"), (u! "z")), ((u! "𐣧"), (u! "ḥ")), ((u! "𐣨"), (u! "ṭ")), ((u! "𐣩"), (u! "y")), ((u! "𐣪"), (u! "k")), ((u! "𐣫"), (u! "l")), ((u! "𐣬"), (u! "m")), ((u! "𐣭"), (u! "n")), ((u! "𐣮"), (u! "s")), ((u! "𐣯"), (u! "ʿ")), ((u! "𐣰"), (u! "p")), ((u! "𐣱"), (u! "ṣ")), ((u! "𐣲"), (u! "q")), ((u! "𐣴"), (u! "š")), ((u! "𐣵"), (u! "t"))]

/-- json/gimeltra_data.json `ssub.Hebr.Latn` -/
def ssub_Hebr_Latn : List (PyStr × PyStr) := [((u! "א"), (u! "ʾ")), ((u! "בּ"), (u! "b")), ((u! "ב"), (u! "v")), ((u! "ג"), (u! "g")), ((u! "ד"), (u! "d")), ((u! "ה"), (u! "h")), ((u! "ו"), (u! "w")), ((u! "ז"), (u! "z")), ((u! "ח"), (u! "ḥ")), ((u! "ט"), (u! "ṭ")), ((u! "י"), (u! "y")), ((u! "כּ"), (u! "k")), ((u! "כ"), (u! "ḵ")), ((u! "ךּ"), (u! "k")), ((u! "ך"), (u! "ḵ")), ((u! "ל"), (u! "l")), ((u! "מ"), (u! "m")), ((u! "ם"), (u! "m")), ((u! "נ"), (u! "n")), ((u! "ן"), (u! "n")), ((u! "ס"), (u! "s")), ((u! "ע"), (u! "ʿ")), ((u! "פּ"), (u! "p")), ((u! "ףּ"), (u! "p")), ((u! "פ"), (u! "f")), ((u! "ף"), (u! "f")), ((u! "צ"), (u! "ṣ")), ((u! "ץ"), (u! "ṣ")), ((u! "ק"), (u! "q")), ((u! "ר"), (u! "r")), ((u! "ש"), (u! "š")), ((u! "שׂ"), (u! "š̪")), ((u! "שׁ"), (u! "š̮")), ((u! "ת"), (u! "t")), ((u! "ע׳"), (u! "ġ")), ((u! "ד׳"), (u! "ḏ")), ((u! "ח׳"), (u! "ḫ")), ((u! "ג׳"), (u! "j")), ((u! "צ׳"), (u! "č")), ((u! "ץ׳"), (u! "č")), ((u! "ת׳"), (u! "ṯ")), ((u! "ז׳"), (u! "ž")), ((u! "ט׳"), (u! "ẓ")), ((u! "אַ"), (u! "â")), ((u! "אָ"), (u! "ā̂")), ((u! "אִ"), (u! "î")), ((u! "אִי"), (u! "ī̂")), ((u! "אֻ"), (u! "û")), ((u! "אוּ"), (u! "ū̂")), ((u! "אֶ"), (u! "ê")), ((u! "אֵ"), (u! "ē̂")), ((u! "אֹ"), (u! "ô")), ((u! "אוֹ"), (u! "ō̂")), ((u! "ַ"), (u! "a")), ((u! "ָ"), (u! "ā")), ((u! "ִ"), (u! "i")), ((u! "ִי"), (u! "ī")), ((u! "ֻ"), (u! "u")), ((u! "וּ"), (u! "ū")), ((u! "ֶ"), (u! "e")), ((u! "ֵ"), (u! "ē")), ((u! "ֹ"), (u! "o")), ((u! "וֹ"), (u! "ō")), ((u! "אֱ"), (u! "ĕ̂")), ((u! "אֲ"), (u! "ă̂")), ((u! "אֳ"), (u! "ŏ̂")), ((u! "ֱ"), (u! "ĕ")), ((u! "ֲ"), (u! "ă")), ((u! "ֳ"), (u! "ŏ")), ((u! "ּ"), (u! "꞉")), ((u! "ְ"), (u! "̽"))]

/-- json/gimeltra_data.json `ssub.Hebr-Ar.Latn` -/
def ssub_Hebr_Ar_Latn : List (PyStr × PyStr) := [((u! "א"), (u! "ʾ")), ((u! "ב"), (u! "b")), ((u! "גׄ"), (u! "j")), ((u! "עׄׄ"), (u! "j")), ((u! "ד"), (u! "d")), ((u! "ה"), (u! "h")), ((u! "ו"), (u! "w")), ((u! "ז"), (u! "z")), ((u! "ח"), (u! "ḥ")), ((u! "ט"), (u! "ṭ")), ((u! "י"), (u! "y")), ((u! "כ"), (u! "k")), ((u! "ך"), (u! "k")), ((u! "ל"), (u! "l")), ((u! "מ"), (u! "m")), ((u! "ם"), (u! "m")), ((u! "נ"), (u! "n")), ((u! "ן"), (u! "n")), ((u! "ס"), (u! "s")), ((u! "ע"), (u! "ʿ")), ((u! "פׄ"), (u! "f")), ((u! "פ"), (u! "f")), ((u! "ףׄ"), (u! "f")), ((u! "צ"), (u! "ṣ")), ((u! "ץ"), (u! "ṣ")), ((u! "ק"), (u! "q")), ((u! "ר"), (u! "r")), ((u! "ש"), (u! "š")), ((u! "ת"), (u! "t")), ((u! "צׄ"), (u! "ḍ")), ((u! "ץׄ"), (u! "ḍ")), ((u! "דׄ"), (u! "ḏ")), ((u! "חׄ"), (u! "ḫ")), ((u! "עׄ"), (u! "ġ")), ((u! "תׄ"), (u! "ṯ")), ((u! "טׄ"), (u! "ẓ")), ((u! "ה̈"), (u! "ḧ"))]

/-- json/gimeltra_data.json `ssub.Mani.Latn` -/
def ssub_Mani_Latn : List (PyStr × PyStr) := [((u! "𐫀"), (u! "ʾ")), ((u! "𐫁"), (u! "b")), ((u! "𐫃"), (u! "g")), ((u! "𐫅"), (u! "d")), ((u! "𐫆"), (u! "h")), ((u! "𐫇"), (u! "w")), ((u! "𐫉"), (u! "z")), ((u! "𐫍"), (u! "ḥ")), ((u! "𐫎"), (u! "ṭ")), ((u! "𐫏"), (u! "y")), ((u! "𐫐"), (u! "k")), ((u! "𐫓"), (u! "l")), ((u! "𐫖"), (u! "m")), ((u! "𐫗"), (u! "n")), ((u! "𐫘"), (u! "s")), ((u! "𐫙"), (u! "ʿ")), ((u! "𐫛"), (u! "p")), ((u! "𐫝"), (u! "ṣ")), ((u! "𐫞"), (u! "q")), ((u! "𐫡"), (u! "r")), ((u! "𐫢"), (u! "š")), ((u! "𐫤"), (u! "t"))]

/-- json/gimeltra_data.json `ssub.Narb.Latn` -/
def ssub_Narb_Latn : List (PyStr × PyStr) := [((u! "𐪑"), (u! "ʾ")), ((u! "𐪈"), (u! "b")), ((u! "𐪔"), (u! "g")), ((u! "𐪕"), (u! "d")), ((u! "𐪀"), (u! "h")), ((u! "𐪅"), (u! "w")), ((u! "𐪘"), (u! "z")), ((u! "𐪂"), (u! "ḥ")), ((u! "𐪉"), (u! "t")), ((u! "𐪚"), (u! "y")), ((u! "𐪋"), (u! "k")), ((u! "𐪁"), (u! "l")), ((u! "𐪃"), (u! "m")), ((u! "𐪌"), (u! "n")), ((u! "𐪏"), (u! "s")), ((u! "𐪊"), (u! "s²")), ((u! "𐪒"), (u! "ʿ")), ((u! "𐪎"), (u! "ṣ")), ((u! "𐪄"), (u! "q")), ((u! "𐪇"), (u! "r")), ((u! "𐪆"), (u! "š")), ((u! "𐪗"), (u! "ṭ")), ((u! "𐪓"), (u! "ḍ")), ((u! "𐪐"), (u! "f")), ((u! "𐪖"), (u! "ġ")), ((u! "𐪍"), (u! "ḫ")), ((u! "𐪙"), (u! "ḏ")), ((u! "𐪜"), (u! "ẓ")), ((u! "𐪛"), (u! "ṯ"))]

/-- json/gimeltra_data.json `ssub.Nbat.Latn` -/
def ssub_Nbat_Latn : List (PyStr × PyStr) := [((u! "𐢁"), (u! "ʾ")), ((u! "𐢀"), (u! "ʾ")), ((u! "𐢃"), (u! "b")), ((u! "𐢂"), (u! "b")), ((u! "𐢄"), (u! "g")), ((u! "𐢅"), (u! "d")), ((u! "𐢇"), (u! "h")), ((u! "𐢆"), (u! "h")), ((u! "𐢈"), (u! "w")), ((u! "𐢉"), (u! "z")), ((u! "𐢊"), (u! "ḥ")), ((u! "𐢋"), (u! "ṭ")), ((u! "𐢍"), (u! "y")), ((u! "𐢌"), (u! "y")), ((u! "𐢏"), (u! "k")), ((u! "𐢎"), (u! "k")), ((u! "𐢑"), (u! "l")), ((u! "𐢐"), (u! "l")), ((u! "𐢓"), (u! "m")), ((u! "𐢒"), (u! "m")), ((u! "𐢕"), (u! "n")), ((u! "𐢔"), (u! "n")), ((u! "𐢖"), (u! "s")), ((u! "𐢗"), (u! "ʿ")), ((u! "𐢘"), (u! "p")), ((u! "𐢙"), (u! "ṣ")), ((u! "𐢚"), (u! "q")), ((u! "𐢛"), (u! "r")), ((u! "𐢝"), (u! "š")), ((u! "𐢜"), (u! "š")), ((u! "𐢞"), (u! "t"))]

/-- json/gimeltra_data.json `ssub.Palm.Latn` -/
def ssub_Palm_Latn : List (PyStr × PyStr) := [((u! "𐡠"), (u! "ʾ")), ((u! "𐡡"), (u! "b")), ((u! "𐡢"), (u! "g")), ((u! "𐡣"), (u! "d")), ((u! "𐡤"), (u! "h")), ((u! "𐡥"), (u! "w")), ((u! "𐡦"), (u! "z")), ((u! "𐡧"), (u! "ḥ")), ((u! "𐡨"), (u! "ṭ")), ((u! "𐡩"), (u! "y")), ((u! "𐡪"), (u! "k")), ((u! "𐡫"), (u! "l")), ((u! "𐡬"), (u! "m")), ((u! "𐡭"), (u! "n")), ((u! "𐡮"), (u! "n")), ((u! "𐡯"), (u! "s")), ((u! "𐡰"), (u! "ʿ")), ((u! "𐡱"), (u! "p")), ((u! "𐡲"), (u! "ṣ")), ((u! "𐡳"), (u! "q")), ((u! "𐡴"), (u! "r")), ((u! "𐡵"), (u! "š")), ((u! "𐡶"), (u! "t"))]

/-- json/gimeltra_data.json `ssub.Phli.Latn` -/
def ssub_Phli_Latn : List (PyStr × PyStr) := [((u! "𐭠"), (u! "ʾ")), ((u! "𐭡"), (u! "b")), ((u! "𐭢"), (u! "g")), ((u! "𐭣"), (u! "d")), ((u! "𐭤"), (u! "h")), ((u! "𐭦"), (u! "z")), ((u! "𐭧"), (u! "ḥ")), ((u! "𐭨"), (u! "ṭ")), ((u! "𐭩"), (u! "y")), ((u! "𐭪"), (u! "k")), ((u! "𐭫"), (u! "l")), ((u! "𐭬"), (u! "q")), ((u! "𐭭"), (u! "n")), ((u! "𐭮"), (u! "s")), ((u! "𐭥"), (u! "ʿ")), ((u! "𐭯"), (u! "p")), ((u! "𐭰"), (u! "ṣ")), ((u! "𐭱"), (u! "š")), ((u! "𐭲"), (u! "t"))]

/-- json/gimeltra_data.json `ssub.Phlp.Latn` -/
def ssub_Phlp_Latn : List (PyStr × PyStr) := [((u! "𐮀"), (u! "ʾ")), ((u! "𐮁"), (u! "b")), ((u! "𐮂"), (u! "g")), ((u! "𐮃"), (u! "d")), ((u! "𐮄"), (u! "h")), ((u! "𐮆"), (u! "z")), ((u! "𐮇"), (u! "ḥ")), ((u! "𐮈"), (u! "y")), ((u! "𐮉"), (u! "k")), ((u! "𐮊"), (u! "l")), ((u! "𐮋"), (u! "q")), ((u! "𐮌"), (u! "n")), ((u! "𐮍"), (u! "s")), ((u! "𐮅"), (u! "ʿ")), ((u! "𐮎"), (u! "p")), ((u! "𐮏"), (u! "ṣ")), ((u! "𐮐"), (u! "š")), ((u! "𐮑"), (u! "t"))]

/-- json/gimeltra_data.json `ssub.Phnx.Latn` -/
def ssub_Phnx_Latn : List (PyStr × PyStr) := [((u! "𐤀"), (u! "ʾ")), ((u! "𐤁"), (u! "b")), ((u! "𐤂"), (u! "g")), ((u! "𐤃"), (u! "d")), ((u! "𐤄"), (u! "h")), ((u! "𐤅"), (u! "w")), ((u! "𐤆"), (u! "z")), ((u! "𐤇"), (u! "ḥ")), ((u! "𐤈"), (u! "ṭ")), ((u! "𐤉"), (u! "y")), ((u! "𐤊"), (u! "k")), ((u! "𐤋"), (u! "l")), ((u! "𐤌"), (u! "m")), ((u! "𐤍"), (u! "n")), ((u! "𐤎"), (u! "s")), ((u! "𐤏"), (u! "ʿ")), ((u! "𐤐"), (u! "p")), ((u! "𐤑"), (u! "ṣ")), ((u! "𐤒"), (u! "q")), ((u! "𐤓"), (u! "r")), ((u! "𐤔"), (u! "š")), ((u! "𐤕"), (u! "t"))]

/-- json/gimeltra_data.json `ssub.Prti.Latn` -/
def ssub_Prti_Latn : List (PyStr × PyStr) := [((u! "𐭀"), (u! "ʾ")), ((u! "𐭁"), (u! "b")), ((u! "𐭂"), (u! "g")), ((u! "𐭃"), (u! "d")), ((u! "𐭄"), (u! "h")), ((u! "𐭅"), (u! "w")), ((u! "𐭆"), (u! "z")), ((u! "𐭇"), (u! "ḥ")), ((u! "𐭈"), (u! "ṭ")), ((u! "𐭉"), (u! "y")), ((u! "𐭊"), (u! "k")), ((u! "𐭋"), (u! "l")), ((u! "𐭌"), (u! "m")), ((u! "𐭍"), (u! "n")), ((u! "𐭎"), (u! "s")), ((u! "𐭏"), (u! "ʿ")), ((u! "𐭐"), (u! "p")), ((u! "𐭑"), (u! "ṣ")), ((u! "𐭒"), (u! "q")), ((u! "𐭓"), (u! "r")), ((u! "𐭔"), (u! "š")), ((u! "𐭕"), (u! "t"))]

/-- json/gimeltra_data.json `ssub.Samr.Latn` -/
def ssub_Samr_Latn : List (PyStr × PyStr) := [((u! "ࠀ"), (u! "ʾ")), ((u! "ࠁ"), (u! "b")), ((u! "ࠂ"), (u! "g")), ((u! "ࠃ"), (u! "d")), ((u! "ࠄ"), (u! "h")), ((u! "ࠅ"), (u! "w")), ((u! "ࠆ"), (u! "z")), ((u! "ࠇ"), (u! "ḥ")), ((u! "ࠈ"), (u! "ṭ")), ((u! "ࠉ"), (u! "y")), ((u! "ࠊ"), (u! "k")), ((u! "ࠋ"), (u! "l")), ((u! "ࠌ"), (u! "m")), ((u! "ࠍ"), (u! "n")), ((u! "ࠎ"), (u! "s")), ((u! "ࠏ"), (u! "ʿ")), ((u! "ࠑ"), (u! "ṣ")), ((u! "ࠒ"), (u! "q")), ((u! "ࠓ"), (u! "r")), ((u! "ࠔ"), (u! "š")), ((u! "ࠕ"), (u! "t")), ((u! "ࠐ"), (u! "f"))]

/-- json/gimeltra_data.json `ssub.Sarb.Latn` -/
def ssub_Sarb_Latn : List (PyStr × PyStr) := [((u! "𐩱"), (u! "ʾ")), ((u! "𐩨"), (u! "b")), ((u! "𐩴"), (u! "g")), ((u! "𐩵"), (u! "d")), ((u! "𐩠"), (u! "h")), ((u! "𐩥"), (u! "w")), ((u! "𐩢"), (u! "ḥ")), ((u! "𐩷"), (u! "ṭ")), ((u! "𐩸"), (u! "z")), ((u! "𐩺"), (u! "y")), ((u! "𐩫"), (u! "k")), ((u! "𐩡"), (u! "l")), ((u! "𐩣"), (u! "m")), ((u! "𐩬"), (u! "n")), ((u! "𐩯"), (u! "s")), ((u! "𐩪"), (u! "s²")), ((u! "𐩲"), (u! "ʿ")), ((u! "𐩮"), (u! "ṣ")), ((u! "𐩤"), (u! "q")), ((u! "𐩧"), (u! "r")), ((u! "𐩦"), (u! "š")), ((u! "𐩩"), (u! "t")), ((u! "𐩰"), (u! "f")), ((u! "𐩹"), (u! "ḏ")), ((u! "𐩭"), (u! "ḫ")), ((u! "𐩳"), (u! "ḍ")), ((u! "𐩶"), (u! "ġ")), ((u! "𐩻"), (u! "ṯ")), ((u! "𐩼"), (u! "ẓ"))]

/-- json/gimeltra_data.json `ssub.Sogd.Latn` -/
def ssub_Sogd_Latn : List (PyStr × PyStr) := [((u! "𐼰"), (u! "ʾ")), ((u! "𐼱"), (u! "b")), ((u! "𐼲"), (u! "g")), ((u! "𐼹"), (u! "l")), ((u! "𐼳"), (u! "h")), ((u! "𐼴"), (u! "w")), ((u! "𐼵"), (u! "z")), ((u! "𐼶"), (u! "ḥ")), ((u! "𐼷"), (u! "y")), ((u! "𐼸"), (u! "k")), ((u! "𐽄"), (u! "l²")), ((u! "𐼺"), (u! "m")), ((u! "𐼻"), (u! "n")), ((u! "𐼼"), (u! "s")), ((u! "𐼽"), (u! "ʿ")), ((u! "𐼾"), (u! "p")), ((u! "𐼿"), (u! "ṣ")), ((u! "𐽀"), (u! "r")), ((u! "𐽁"), (u! "š")), ((u! "𐽂"), (u! "t")), ((u! "𐽃"), (u! "f"))]

/-- json/gimeltra_data.json `ssub.Sogo.Latn` -/
def ssub_Sogo_Latn : List (PyStr × PyStr) := [((u! "𐼀"), (u! "ʾ")), ((u! "𐼁"), (u! "ʾ")), ((u! "𐼂"), (u! "b")), ((u! "𐼃"), (u! "b")), ((u! "𐼄"), (u! "g")), ((u! "𐼆"), (u! "h")), ((u! "𐼅"), (u! "h")), ((u! "𐼇"), (u! "w")), ((u! "𐼈"), (u! "z")), ((u! "𐼉"), (u! "ḥ")), ((u! "𐼊"), (u! "y")), ((u! "𐼋"), (u! "k")), ((u! "𐼌"), (u! "l")), ((u! "𐼍"), (u! "m")), ((u! "𐼎"), (u! "n")), ((u! "𐼏"), (u! "n")), ((u! "𐼑"), (u! "s")), ((u! "𐼓"), (u! "ʿ")), ((u! "𐼒"), (u! "ʿ")), ((u! "𐼔"), (u! "p")), ((u! "𐼕"), (u! "ṣ")), ((u! "𐼖"), (u! "ṣ")), ((u! "𐼘"), (u! "r")), ((u! "𐼙"), (u! "š")), ((u! "𐼚"), (u! "t")), ((u! "𐼛"), (u! "t"))]

/-- json/gimeltra_data.json `ssub.Syre.Latn` -/
def ssub_Syre_Latn : List (PyStr × PyStr) := [((u! "ܐ"), (u! "ʾ")), ((u! "ܒ"), (u! "b")), ((u! "ܓ"), (u! "g")), ((u! "ܕ"), (u! "d")), ((u! "ܗ"), (u! "h")), ((u! "ܘ"), (u! "w")), ((u! "ܙ"), (u! "z")), ((u! "ܚ"), (u! "ḥ")), ((u! "ܛ"), (u! "ṭ")), ((u! "ܝ"), (u! "y")), ((u! "ܟ"), (u! "k")), ((u! "ܠ"), (u! "l")), ((u! "ܡ"), (u! "m")), ((u! "ܢ"), (u! "n")), ((u! "ܣ"), (u! "s")), ((u! "ܥ"), (u! "ʿ")), ((u! "ܦ"), (u! "p")), ((u! "ܨ"), (u! "ṣ")), ((u! "ܩ"), (u! "q")), ((u! "ܪ"), (u! "r")), ((u! "ܫ"), (u! "š")), ((u! "ܬ"), (u! "t"))]

/-- json/gimeltra_data.json `ssub.Syrn.Latn` -/
def ssub_Syrn_Latn : List (PyStr × PyStr) := [((u! "ܐ"), (u! "ʾ")), ((u! "ܒ"), (u! "b")), ((u! "ܒ݁"), (u! "b")), ((u! "ܒ݂"), (u! "v")), ((u! "ܓ"), (u! "g")), ((u! "ܓ݁"), (u! "g")), ((u! "ܓ݂"), (u! "ġ")), ((u! "ܕ"), (u! "d")), ((u! "ܕ݁"), (u! "d")), ((u! "ܕ݂"), (u! "ḏ")), ((u! "ܗ"), (u! "h")), ((u! "ܘ"), (u! "w")), ((u! "ܙ"), (u! "z")), ((u! "ܚ"), (u! "ḥ")), ((u! "ܛ"), (u! "ṭ")), ((u! "ܝ"), (u! "y")), ((u! "ܟ"), (u! "k")), ((u! "ܟ݁"), (u! "k")), ((u! "ܟ݂"), (u! "ḫ")), ((u! "ܠ"), (u! "l")), ((u! "ܡ"), (u! "m")), ((u! "ܢ"), (u! "n")), ((u! "ܣ"), (u! "s")), ((u! "ܥ"), (u! "ʿ")), ((u! "ܦ"), (u! "p")), ((u! "ܦ݁"), (u! "p")), ((u! "ܦ݂"), (u! "f")), ((u! "ܨ"), (u! "ṣ")), ((u! "ܩ"), (u! "q")), ((u! "ܪ"), (u! "r")), ((u! "ܫ"), (u! "š")), ((u! "ܬ"), (u! "t")), ((u! "ܬ݁"), (u! "t")), ((u! "ܬ݂"), (u! "ṯ")), ((u! "ܟ̰"), (u! "č")), ((u! "ܓ̰"), (u! "j")), ((u! "ܙ̰"), (u! "ž")), ((u! "ܲ"), (u! "a")), ((u! "ܵ"), (u! "ā")), ((u! "ܸ"), (u! "e")), ((u! "ܹ"), (u! "ē")), ((u! "ܘܼ"), (u! "ū")), ((u! "ܘܿ"), (u! "ō")), ((u! "ܝܼ"), (u! "ī")), ((u! "ܐܲ"), (u! "â")), ((u! "ܐܵ"), (u! "ā̂")), ((u! "ܐܸ"), (u! "ê")), ((u! "ܐܹ"), (u! "ē̂"))]

/-- json/gimeltra_data.json `ssub.Syrj.Latn` -/
def ssub_Syrj_Latn : List (PyStr × PyStr) := [((u! "ܐ"), (u! "ʾ")), ((u! "ܒ"), (u! "b")), ((u! "ܒ݁"), (u! "b")), ((u! "ܒ݂"), (u! "v")), ((u! "ܓ"), (u! "g")), ((u! "ܓ݁"), (u! "g")), ((u! "ܓ݂"), (u! "ġ")), ((u! "ܕ"), (u! "d")), ((u! "ܕ݁"), (u! "d")), ((u! "ܕ݂"), (u! "ḏ")), ((u! "ܗ"), (u! "h")), ((u! "ܘ"), (u! "w")), ((u! "ܙ"), (u! "z")), ((u! "ܚ"), (u! "ḥ")), ((u! "ܛ"), (u! "ṭ")), ((u! "ܝ"), (u! "y")), ((u! "ܟ"), (u! "k")), ((u! "ܟ݁"), (u! "k")), ((u! "ܟ݂"), (u! "ḫ")), ((u! "ܠ"), (u! "l")), ((u! "ܡ"), (u! "m")), ((u! "ܢ"), (u! "n")), ((u! "ܣ"), (u! "s")), ((u! "ܥ"), (u! "ʿ")), ((u! "ܦ"), (u! "p")), ((u! "ܦ݁"), (u! "p")), ((u! "ܦ݂"), (u! "f")), ((u! "ܨ"), (u! "ṣ")), ((u! "ܩ"), (u! "q")), ((u! "ܪ"), (u! "r")), ((u! "ܫ"), (u! "š")), ((u! "ܬ"), (u! "t")), ((u! "ܬ݁"), (u! "t")), ((u! "ܬ݂"), (u! "ṯ")), ((u! "ܟ̰"), (u! "č")), ((u! "ܓ̰"), (u! "j")), ((u! "ܙ̰"), (u! "ž")), ((u! "ܰ"), (u! "a")), ((u! "ܳ"), (u! "ā")), ((u! "ܶ"), (u! "e")), ((u! "ܺ"), (u! "ī")), ((u! "ܽ"), (u! "u")), ((u! "ّ"), (u! "ō")), ((u! "ܐܰ"), (u! "â")), ((u! "ܐܳ"), (u! "ā̂")), ((u! "ܐܺ"), (u! "ī̂")), ((u! "ܐܽ"), (u! "û")), ((u! "ܐܶ"), (u! "ê")), ((u! "ܐّ"), (u! "ō̂"))]

/-- json/gimeltra_data.json `ssub.Ugar.Latn` -/
def ssub_Ugar_Latn : List (PyStr × PyStr) := [((u! "𐎀"), (u! "ʾ")), ((u! "𐎁"), (u! "b")), ((u! "𐎂"), (u! "g")), ((u! "𐎄"), (u! "d")), ((u! "𐎅"), (u! "h")), ((u! "𐎆"), (u! "w")), ((u! "𐎇"), (u! "z")), ((u! "𐎈"), (u! "ḥ")), ((u! "𐎉"), (u! "ṭ")), ((u! "𐎊"), (u! "y")), ((u! "𐎋"), (u! "k")), ((u! "𐎍"), (u! "l")), ((u! "𐎎"), (u! "m")), ((u! "𐎐"), (u! "n")), ((u! "𐎒"), (u! "s")), ((u! "𐎓"), (u! "ʿ")), ((u! "𐎔"), (u! "p")), ((u! "𐎕"), (u! "ṣ")), ((u! "𐎖"), (u! "q")), ((u! "𐎗"), (u! "r")), ((u! "𐎌"), (u! "š")), ((u! "𐎝"), (u! "s₂")), ((u! "𐎚"), (u! "t")), ((u! "𐎙"), (u! "ġ")), ((u! "𐎜"), (u! "û")), ((u! "𐎛"), (u! "î")), ((u! "𐎘"), (u! "ṯ")), ((u! "𐎑"), (u! "ẓ")), ((u! "𐎃"), (u! "ḫ")), ((u! "𐎏"), (u! "ḏ"))]

/-- json/gimeltra_data.json `ssub` -/
def ssub : List (PyStr × List (PyStr × List (PyStr × PyStr))) := [
  ((u! "Latn"), [((u! "Type"), ssub_Latn_Type), ((u! "Arab"), ssub_Latn_Arab), ((u! "Arab-Fa"), ssub_Latn_Arab_Fa), ((u! "Thaa"), ssub_Latn_Thaa), ((u! "Arab-Ur"), ssub_Latn_Arab_Ur), ((u! "Arab-Pa"), ssub_Latn_Arab_Pa), ((u! "Ethi"), ssub_Latn_Ethi), ((u! "Armi"), ssub_Latn_Armi), ((u! "Brah"), ssub_Latn_Brah), ((u! "Chrs"), ssub_Latn_Chrs), ((u! "Egyp"), ssub_Latn_Egyp), ((u! "Elym"), ssub_Latn_Elym), ((u! "Grek"), ssub_Latn_Grek), ((u! "Hatr"), ssub_Latn_Hatr), ((u! "Hebr"), ssub_Latn_Hebr), ((u! "Hebr-Ar"), ssub_Latn_Hebr_Ar), ((u! "Mani"), ssub_Latn_Mani), ((u! "Narb"), ssub_Latn_Narb), ((u! "Nbat"), ssub_Latn_Nbat), ((u! "Palm"), ssub_Latn_Palm), ((u! "Phli"), ssub_Latn_Phli), ((u! "Phlp"), ssub_Latn_Phlp), ((u! "Phnx"), ssub_Latn_Phnx), ((u! "Prti"), ssub_Latn_Prti), ((u! "Samr"), ssub_Latn_Samr), ((u! "Sarb"), ssub_Latn_Sarb), ((u! "Sogd"), ssub_Latn_Sogd), ((u! "Sogo"), ssub_Latn_Sogo), ((u! "Syre"), ssub_Latn_Syre), ((u! "Syrn"), ssub_Latn_Syrn), ((u! "Syrj"), ssub_Latn_Syrj), ((u! "Ugar"), ssub_Latn_Ugar)]),
  ((u! "Type"), [((u! "Latn"), ssub_Type_Latn)]),
  ((u! "Arab"), [((u! "Latn"), ssub_Arab_Latn)]),
  ((u! "Arab-Fa"), [((u! "Latn"), ssub_Arab_Fa_Latn)]),
  ((u! "Arab-Ur"), [((u! "Latn"), ssub_Arab_Ur_Latn)]),
  ((u! "Arab-Pa"), [((u! "Latn"), ssub_Arab_Pa_Latn)]),
  ((u! "Thaa"), [((u! "Latn"), ssub_Thaa_Latn)]),
  ((u! "Ethi"), [((u! "Latn"), ssub_Ethi_Latn)]),
  ((u! "Armi"), [((u! "Latn"), ssub_Armi_Latn)]),
  ((u! "Brah"), [((u! "Latn"), ssub_Brah_Latn)]),
  ((u! "Chrs"), [((u! "Latn"), ssub_Chrs_Latn)]),
  ((u! "Egyp"), [((u! "Latn"), ssub_Egyp_Latn)]),
  ((u! "Elym"), [((u! "Latn"), ssub_Elym_Latn)]),
  ((u! "Grek"), [((u! "Latn"), ssub_Grek_Latn)]),
  ((u! "Hatr"), [((u! "Latn"), ssub_Hatr_Latn)]),
  ((u! "Hebr"), [((u! "Latn"), ssub_Hebr_Latn)]),
  ((u! "Hebr-Ar"), [((u! "Latn"), ssub_Hebr_Ar_Latn)]),
  ((u! "Mani"), [((u! "Latn"), ssub_Mani_Latn)]),
  ((u! "Narb"), [((u! "Latn"), ssub_Narb_Latn)]),
  ((u! "Nbat"), [((u! "Latn"), ssub_Nbat_Latn)]),
  ((u! "Palm"), [((u! "Latn"), ssub_Palm_Latn)]),
  ((u! "Phli"), [((u! "Latn"), ssub_Phli_Latn)]),
  ((u! "Phlp"), [((u! "Latn"), ssub_Phlp_Latn)]),
  ((u! "Phnx"), [((u! "Latn"), ssub_Phnx_Latn)]),
  ((u! "Prti"), [((u! "Latn"), ssub_Prti_Latn)]),
  ((u! "Samr"), [((u! "Latn"), ssub_Samr_Latn)]),
  ((u! "Sarb"), [((u! "Latn"), ssub_Sarb_Latn)]),
  ((u! "Sogd"), [((u! "Latn"), ssub_Sogd_Latn)]),
  ((u! "Sogo"), [((u! "Latn"), ssub_Sogo_Latn)]),
  ((u! "Syre"), [((u! "Latn"), ssub_Syre_Latn)]),
  ((u! "Syrn"), [((u! "Latn"), ssub_Syrn_Latn)]),
  ((u! "Syrj"), [((u! "Latn"), ssub_Syrj_Latn)]),
  ((u! "Ugar"), [((u! "Latn"), ssub_Ugar_Latn)])]

/-- json/gimeltra_data.json `ccmp` -/
def ccmp : List (PyStr × List (PyStr × PyStr)) := [((u! "Sogo"), [((u! "𐼧"), (u! "𐼓𐼌"))])]

/-- json/gimeltra_data.json `fina` -/
def fina : List (PyStr × List (PyStr × PyStr)) := [((u! "Grek"), [((u! "σ"), (u! "ς"))]), ((u! "Hebr"), [((u! "כ"), (u! "ך")), ((u! "מ"), (u! "ם")), ((u! "נ"), (u! "ן")), ((u! "פ"), (u! "ף")), ((u! "צ"), (u! "ץ")), ((u! "פּ"), (u! "ףּ")), ((u! "כּ"), (u! "ךּ")), ((u! "צ׳"), (u! "ץ׳")), ((u! "צׄ"), (u! "ץׄ")), ((u! "פׄ"), (u! "ףׄ"))]), ((u! "Nbat"), [((u! "𐢁"), (u! "𐢀")), ((u! "𐢃"), (u! "𐢂")), ((u! "𐢇"), (u! "𐢆")), ((u! "𐢍"), (u! "𐢌")), ((u! "𐢏"), (u! "𐢎")), ((u! "𐢑"), (u! "𐢐")), ((u! "𐢓"), (u! "𐢒")), ((u! "𐢕"), (u! "𐢔")), ((u! "𐢝"), (u! "𐢜"))]), ((u! "Palm"), [((u! "𐡮"), (u! "𐡭"))]), ((u! "Sogo"), [((u! "𐼀"), (u! "𐼁")), ((u! "𐼂"), (u! "𐼃")), ((u! "𐼅"), (u! "𐼆")), ((u! "𐼎"), (u! "𐼏")), ((u! "𐼕"), (u! "𐼖")), ((u! "𐼚"), (u! "𐼛"))])]

/-- json/gimeltra_data.json `liga` -/
def liga : List (PyStr × List (PyStr × PyStr)) := []

/-- json/gimeltra_data.json `simp.general` -/
def simplify : List (PyStr × PyStr) := [((u! "aŷ"), (u! "ay̽")), ((u! "aŵ"), (u! "aw̽")), ((u! "âŷ"), (u! "ây̽")), ((u! "âŵ"), (u! "âw̽")), ((u! "ˀy"), (u! "y")), ((u! "ˀw"), (u! "w")), ((u! "ȳ"), (u! "eye")), ((u! "š̪"), (u! "š")), ((u! "š̮"), (u! "š")), ((u! "ā̮̂"), (u! "ā̂")), ((u! "ˀā̮̂"), (u! "ā̂")), ((u! "ˀâ"), (u! "ʾ")), ((u! "ˀî"), (u! "ʾ")), ((u! "ā̂"), (u! "ʾ")), ((u! "ī̂"), (u! "ʾy")), ((u! "ū̂"), (u! "ʾw")), ((u! "ē̂"), (u! "ʾy")), ((u! "ō̂"), (u! "ʾw")), ((u! "ĕ̂"), (u! "ê")), ((u! "ă̂"), (u! "â")), ((u! "ŏ̂"), (u! "ô")), ((u! "ĕ"), (u! "e")), ((u! "ă"), (u! "a")), ((u! "ŏ"), (u! "o")), ((u! "â"), (u! "ʾ")), ((u! "î"), (u! "ʾ")), ((u! "û"), (u! "ʾ")), ((u! "ê"), (u! "ʾ")), ((u! "ô"), (u! "ʾ")), ((u! "a̮"), (u! "ā")), ((u! "ā̮"), (u! "ā")), ((u! "ā"), (u! "ʾ")), ((u! "ī"), (u! "y")), ((u! "ū"), (u! "w")), ((u! "ē"), (u! "y")), ((u! "ō"), (u! "w")), ((u! "a"), (u! "")), ((u! "i"), (u! "")), ((u! "u"), (u! "")), ((u! "e"), (u! "")), ((u! "o"), (u! "")), ((u! "꞉"), (u! "")), ((u! "ḵ"), (u! "k")), ((u! "ₘ"), (u! "m̽")), ((u! "aⁿ"), (u! "an̽")), ((u! "iⁿ"), (u! "in̽")), ((u! "uⁿ"), (u! "un̽")), ((u! "ɖ"), (u! "d")), ((u! "ʈ"), (u! "t")), ((u! "ɽ"), (u! "r")), ((u! "ʂ"), (u! "š")), ((u! "ɭ"), (u! "l")), ((u! "ɲ"), (u! "n")), ((u! "ɳ"), (u! "n")), ((u! "ḍ"), (u! "d")), ((u! "f"), (u! "p")), ((u! "p̣"), (u! "p")), ((u! "p"), (u! "f")), ((u! "ġ"), (u! "g")), ((u! "ḏ"), (u! "d")), ((u! "ḫ"), (u! "ḥ")), ((u! "g"), (u! "j")), ((u! "j"), (u! "g")), ((u! "v"), (u! "b")), ((u! "č"), (u! "tš")), ((u! "ṯ"), (u! "t")), ((u! "ẓ"), (u! "z")), ((u! "ž"), (u! "z")), ((u! "ṭ"), (u! "t")), ((u! "d"), (u! "t")), ((u! "q"), (u! "k")), ((u! "ḧ"), (u! "h")), ((u! "ʔ"), (u! "ʾ")), ((u! "ʰ"), (u! "")), ((u! "̽"), (u! ""))]

end Verif.Gim
