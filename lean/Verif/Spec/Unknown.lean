import Verif.Model.Process
import Verif.Spec.Core

/-!
# Specification: script names the library does not know
-/

namespace Verif

/-- Every name that stands for a script somewhere in the library: the three lists of supported
scripts, the Semitic romanisation standards, the Japanese scripts and a misspelt entry of
`RomanDiacritic`. -/
def namesInUse : List PyStr :=
  GM.IndicScripts ++ GM.LatinScripts ++ GM.SemiticScripts ++ GM.semiticISO.map Prod.fst
    ++ us!["Hiragana", "Katakana", "ISOLOC", "Ignore", "autodetect", ""]

/-- Parts of names the library looks for. -/
def nameParts : List PyStr := us!["Arab", "IAST", "ISO", "RomanLoC", "Syr"]

/-- The library does not know the name: it is no name of a script, not even in other case, and does
not contain one of the parts above. -/
structure Unknown (E : Env) (n : PyStr) : Prop where
  name : n ∉ namesInUse
  case : ∀ k ∈ GM.IndicScripts ++ GM.LatinScripts, E.lower n ≠ E.lower k
  part : ∀ w ∈ nameParts, ¬ w <:+: n

/-- Accents of the Veda in Roman text, and the arrows that stand for them. -/
def svaraWords : List PyStr :=
  [[0x30D], [0x30E], [0x331], [0x67, 0x36B], [0x433, 0x361, 0x43C], [0x433, 0x35C, 0x43C], [0x2193], [0x2191]]

/-- Spellings the library normalises whatever the scripts are: nukta letters, chillus, vowel signs and
letters with diacritics written with several characters, and letters it considers variants. -/
def variantWords : List PyStr :=
  [[0x915, 0x93C], [0x916, 0x93C], [0x917, 0x93C], [0x91C, 0x93C], [0x921, 0x93C], [0x922, 0x93C],
   [0x92B, 0x93C], [0x92F, 0x93C], [0xA32, 0xA3C], [0xA38, 0xA3C], [0xA16, 0xA3C], [0xA17, 0xA3C],
   [0xA1C, 0xA3C], [0xA2B, 0xA3C], [0x9A1, 0x9BC], [0x9A2, 0x9BC], [0x9AF, 0x9BC], [0xB21, 0xB3C],
   [0xB22, 0xB3C], [0xD23, 0xD4D, 0x200D], [0xD28, 0xD4D, 0x200D], [0xD30, 0xD4D, 0x200D],
   [0xD32, 0xD4D, 0x200D], [0xD33, 0xD4D, 0x200D], [0xD15, 0xD4D, 0x200D], [0xD4C], [0xD5F], [0xD4E],
   [0xD7B, 0xD4D, 0xD31], [0xCDD], [0xC5D], [0x103F], [0xBB8, 0xBCD, 0xBB0, 0xBC0],
   [0xB95, 0xBCD, 0x200C, 0xBB7], [0xBB0, 0x200C, 0xBBF], [0xBB0, 0x200C, 0xBC0], [0xB9], [0x2081], [0x2082],
   [0x2083], [0x2084], [0xF76], [0xF77], [0xF78], [0xF79], [0xF73], [0xF75], [0xF69], [0xFB9], [0x61, 0x304],
   [0x69, 0x304], [0x75, 0x304], [0x65, 0x304], [0x6F, 0x304], [0x6D, 0x323], [0x6D, 0x307], [0x68, 0x323],
   [0x73, 0x301], [0x73, 0x323], [0x6E, 0x323], [0x72, 0x323], [0x6C, 0x323], [0xE4D, 0xE32], [0xECD, 0xEB2],
   [0x964, 0x964], [0x193A, 0x1923], [0x1920, 0x1923], [0xE0E], [0x1134C], [0xF82], [0x972], [0x9C7, 0x9BE],
   [0x9BE, 0x9C7], [0x9C7, 0x9D7], [0x9D7, 0x9C7], [0xBC6, 0xBBE], [0xBBE, 0xBC6], [0xBC7, 0xBBE],
   [0xBBE, 0xBC7], [0xBC6, 0xBD7], [0xBD7, 0xBC6], [0xD46, 0xD3E], [0xD3E, 0xD46], [0xD47, 0xD3E],
   [0xD3E, 0xD47], [0x11347, 0x1133E], [0x1133E, 0x11347]]

/-- Markers the library removes or replaces in every result. -/
def markerWords : List PyStr :=
  [[0xF001], [0x5CC], [0x2BB, 0x2BB], [0x5CD], [0x2C2], [0x34F], [0x2502], [0x2503], [0x25CF]]

/-- The text has none of the words above, and no character of the private range that stands for
shielded Roman letters. -/
structure Settled (s : PyStr) : Prop where
  words : ∀ w ∈ svaraWords ++ variantWords ++ markerWords, ¬ w <:+: s
  shields : ∀ c ∈ s, c < 0xEE01 ∨ 0xEE7F < c

/-- The text has none of the diacritics nativisation removes. -/
def NoRemovable (s : PyStr) : Prop := ∀ w ∈ GM.DiacriticsRemovable, ¬ w <:+: s

/-- The text has no letter of the script. -/
def AwayFrom (T : PyStr) (s : PyStr) : Prop := ∀ x ∈ letterList T, ∀ c ∈ x, c ∉ s

/-- Supported targets, without those the library reaches by way of another script. -/
def directTargets : List PyStr :=
  (GM.IndicScripts ++ GM.LatinScripts ++ GM.SemiticScripts).filter fun T => !(strEq T (u! "RomanLoC"))

/-- Sources the library normalises although it does not convert: capitals are made small, alternative
spellings replaced, marks reordered. -/
def loudSources : List PyStr := us!["RomanSemitic", "WarangCiti", "Shahmukhi", "Hebrew", "Urdu", "Thaana",
  "GurmukhiLoCRomanLoC", "TibetanLoCRomanLoC", "LimbuLoCRomanLoC", "BalineseSimpleRomanLoC", "BalineseRomanLoC",
  "JavaneseSimpleRomanLoC", "JavaneseRomanLoC", "KannadaRomanLoC", "TeluguRomanLoC", "SinhalaRomanLoC", "OriyaRomanLoC",
  "AssameseRomanLoC", "BengaliRomanLoC", "GujaratiRomanLoC", "DevanagariRomanLoC", "ThamLoCRomanLoC",
  "KhmerLoCRomanLoC", "RomanLoC", "ShanLoCRomanLoC", "BurmeseRomanLoC", "ISOPali", "BarahaNorth", "BarahaSouth",
  "IASTPali", "ISO", "IAST", "HK", "Titus", "Itrans", "IPA"]

/-- The other Indic and Roman sources. -/
def quietSources : List PyStr := (GM.IndicScripts ++ GM.LatinScripts).filter fun S => !(strMem S loudSources)

end Verif
