import Verif.Spec.Scripts
import Verif.Spec.TextOps
import Verif.Model.GM
import Verif.Model.Tables

/-!
# Converting line by line and word by word

What is meant by it, for which scripts and texts it is claimed, and what is assumed of Python's text
operations.
-/

namespace Verif

def newline : Nat := 10
def blank : Nat := 32

/-- `sep.join(parts)` for a separator of one character -/
def joinAt (z : Nat) : List PyStr → PyStr
  | [] => []
  | [a] => a
  | a :: l => a ++ z :: joinAt z l

/-- What is assumed of Python's text operations beyond `Env.TextOps`.  All of it holds in CPython. -/
structure Env.LineOps (E : Env) : Prop where
  /-- newline and blank are no letters, digits or marks -/
  plain : ∀ z, z = newline ∨ z = blank → E.uni.isAlnum z = false ∧ E.uni.isDigit z = false ∧
    E.uni.isLetter z = false ∧ E.uni.isMark z = false
  /-- case mapping and normalisation do not look across a newline or a blank -/
  split : ∀ z, z = newline ∨ z = blank → ∀ h, h.isUnicode = true → ∀ a b a' b',
    E.host h a = .ok a' → E.host h b = .ok b' → E.host h (a ++ z :: b) = .ok (a' ++ z :: b')
  /-- composition brings in no plain letter `o` and no vertical bar -/
  nfc : ∀ c, c = 111 ∨ c = 124 → ∀ s s', c ∉ s → E.host .nfc s = .ok s' → c ∉ s'
  /-- lower-casing brings in no vertical bar -/
  bar : ∀ s s', 124 ∉ s → E.host .lower s = .ok s' → 124 ∉ s'

/-- Sources whose own rules look across the separator. -/
def crossSources (z : Nat) : List PyStr :=
  match Nat.beq z newline with
  | true => us!["Thai", "LaoPali"]
  | false => us!["Thai", "LaoPali", "Soyombo", "KhomThai", "Khojki", "Ahom", "PhagsPa", "HanifiRohingya", "IPA"]

/-- Targets whose own rules look across the separator, or rewrite it. -/
def crossTargets (z : Nat) : List PyStr :=
  match Nat.beq z newline with
  | true => us!["ThamLoC", "Soyombo", "Kharoshthi", "Kannada", "Thai", "OldPersian", "PhagsPa", "LaoPali",
      "RomanColloquial", "RomanReadable"]
  | false => us!["ThamLoC", "Soyombo", "Kharoshthi", "Kannada", "Thai", "OldPersian", "PhagsPa", "LaoPali",
      "RomanColloquial", "RomanReadable", "TibetanLoC", "GurmukhiLoC", "Shahmukhi", "KhomThai", "Khojki", "Ahom",
      "Lao2", "Bhaiksuki", "Kaithi", "Gurmukhi", "TamilGrantha", "Urdu", "Tibetan", "Lao", "Mongolian"]

/-- Post-options whose rules look across a newline (or fail by themselves, or depend on more
than the text; `ShowSchwaHindi` is left out for its size). -/
def crossLineOptions : List PyStr :=
  us!["AnusvaraToNasal", "BalineseJavaneseMoveRepha", "ContextualLLa", "FinalNNa", "FixSemiticRoman",
    "FixTallA", "GranthaPrakrit", "HebrewSBLTarget", "InsertGeminationSign", "JapanesePostProcess",
    "KhandaTa", "MToAnusvara", "NasalToAnusvara", "PhagsPaRearrange", "RemoveSchwa",
    "RetainDandasIndic", "RetainIndicNumerals", "RetainRomanNumerals", "ReverseGeminationSign",
    "SaurastraHaaruColon", "ShowSchwaHindi", "TaiThamMoveNnga", "TamilExtendedNNA", "ThaiLaoTranscription", "VaToBa",
    "YYAEverywhere", "YaToYYa", "capitalizeSentence", "defaultPost", "readableItrans", "removeSukunEnd",
    "removetddash", "tbadiff", "urduRemoveInherent"]

/-- Post-options whose rules look across a blank, or rewrite it, but not across a newline. -/
def crossBlankOptions : List PyStr :=
  us!["AhomClosed", "KhmerLoCRomanLoCSource", "KhmerLoCRomanLoCTarget", "LaoPhonetic", "LaoSajjhaya",
    "LaoSajjhayawithA", "LaoTranscription", "MongolianSyllabize", 
    "SoyomboSpaceTscheg", "SoyomboSyllabize", "TakriRemoveGemination", "ThaiNativeConsonants",
    "ThaiSajjhayaOrthography", "ThaiSajjhayawithA", "ThaiTranscription", "ThamShiftMaiKangLai",
    "ZanzabarSpaceTsheg", "removeSegmentSpacesBurmese"]

/-- Post-options whose rules look across the separator. -/
def crossOptions (z : Nat) : List PyStr :=
  match Nat.beq z newline with
  | true => crossLineOptions
  | false => crossLineOptions ++ crossBlankOptions

/-- The source's spelling of the syllable Om. -/
def omSpelling (S : PyStr) : PyStr :=
  match tblOf S with
  | some t => t.OmMap.headD []
  | none => []

/-- Towards an Indic target, Om is converted as a whole where it stands alone, unless the Indic source
writes it with one character; then the conversion does look at the neighbouring words. -/
def seeksOm (S T : PyStr) : Prop :=
  T ∈ GM.IndicScripts ∧ (S ∈ GM.LatinScripts ∨ (omSpelling S).length ≠ 1)

/-- The letters of the spelling of Om, for the sources where some of them come out of the source's own
input rules: only those that do not. -/
def omLetterTable : List (PyStr × PyStr) := [
  ((u! "LimbuLoC"), (u! "ᤀᤲ")), ((u! "KhmerLoC"), (u! "ឱ")), ((u! "RomanSemitic"), [770, 829, 701]),
  ((u! "KhomThai"), (u! "อ")), ((u! "ZanabazarSquare"), (u! "𑨀𑨵")), ((u! "Lao2"), (u! "ໂອ")),
  ((u! "Khmer"), (u! "ឱ")), ((u! "Balinese"), (u! "ᬁ")), ((u! "Javanese"), (u! "ꦀ")),
  ((u! "OldPersian"), (u! "𐎢ʽ")), ((u! "Limbu"), (u! "ᤀᤲ")), ((u! "Lepcha"), (u! "ᰣᰨ")),
  ((u! "Buginese"), (u! "ᨕᨚʽ")), ((u! "Chakma"), (u! "𑄮𑄀")), ((u! "PhagsPa"), (u! "ꡡꡳ")),
  ((u! "Lao"), (u! "ໂອ")), ((u! "GurmukhiLoCRomanLoC"), (u! "o")), ((u! "TibetanLoCRomanLoC"), (u! "o")),
  ((u! "LimbuLoCRomanLoC"), (u! "o")), ((u! "BalineseSimpleRomanLoC"), []), ((u! "BalineseRomanLoC"), []),
  ((u! "JavaneseSimpleRomanLoC"), []), ((u! "JavaneseRomanLoC"), []), ((u! "KannadaRomanLoC"), []),
  ((u! "TeluguRomanLoC"), []), ((u! "SinhalaRomanLoC"), []), ((u! "OriyaRomanLoC"), (u! "o")),
  ((u! "AssameseRomanLoC"), []), ((u! "BengaliRomanLoC"), []), ((u! "GujaratiRomanLoC"), (u! "o")),
  ((u! "DevanagariRomanLoC"), (u! "o")), ((u! "ThamLoCRomanLoC"), (u! "o")), ((u! "KhmerLoCRomanLoC"), (u! "o")),
  ((u! "ShanLoCRomanLoC"), (u! "o")), ((u! "BurmeseRomanLoC"), (u! "o")), ((u! "RomanColloquial"), (u! "O")),
  ((u! "ISOPali"), (u! "o")), ((u! "BarahaNorth"), (u! "u")), ((u! "BarahaSouth"), (u! "u")), ((u! "Mro"), (u! "𖩑")),
  ((u! "IASTPali"), (u! "o")), ((u! "HanifiRohingya"), (u! "𐴡𐴴𐴔")), ((u! "RomanReadable"), (u! "o")),
  ((u! "Aksharaa"), (u! "o")), ((u! "WarangCiti"), []), ((u! "Avestan"), (u! "𐬨")), ((u! "ISO"), []),
  ((u! "IAST"), (u! "o")), ((u! "Titus"), (u! "o")), ((u! "Velthuis"), (u! "o")), ((u! "IPA"), (u! "oː")),
  ((u! "Santali"), (u! "ᱳ"))]

def omLetters (S : PyStr) : PyStr :=
  match dictGet? omLetterTable S with
  | some l => l
  | none => omSpelling S

/-- The texts without Om: some letter of its spelling is missing in all of them, also after lower-casing. -/
def NoOm (E : Env) (S : PyStr) (texts : List PyStr) : Prop :=
  ∃ c ∈ omLetters S, ∀ t ∈ texts, c ∉ t ∧ ∀ l, E.host .lower t = .ok l → c ∉ l

/-- The texts without a full stop written as a vertical bar, for the sources where one such bar changes
the meaning of every dot in the text. -/
def NoBar (S : PyStr) (texts : List PyStr) : Prop :=
  S ∈ GM.pipeScripts → ∀ t ∈ texts, 124 ∉ t

end Verif
