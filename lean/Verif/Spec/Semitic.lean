import Verif.Model.Gimeltra
import Verif.Spec.Core

/-!
# Semitic text, letter by letter

The library converts between Semitic scripts with three kinds of tables: from each script to Latin
signs, from Latin signs to each script, and `simplify`, which gives for a Latin sign that a script
lacks the nearest one.
-/

namespace Verif

/-- The Semitic scripts (codes as used by the library), without the romanisations `Latn` and `Type`. -/
def semiticNames : List PyStr :=
  us!["Arab-Pa", "Syrj", "Syrn", "Syre", "Thaa", "Arab-Ur", "Hebr-Ar", "Arab-Fa", "Arab", "Ethi", "Armi", "Brah", "Chrs",
    "Egyp", "Elym", "Grek", "Hatr", "Hebr", "Mani", "Narb", "Nbat", "Palm", "Phli", "Phlp", "Phnx", "Prti", "Samr", "Sarb",
    "Sogd", "Sogo", "Ugar"]

/-- The table from the script to Latin signs. -/
def toLatinTable (S : PyStr) : List (PyStr × PyStr) :=
  match dictGet? Gim.ssub S with
  | none => []
  | some d => match dictGet? d (u! "Latn") with
    | none => []
    | some m => m

/-- The table from Latin signs to the script. -/
def fromLatinTable (T : PyStr) : List (PyStr × PyStr) :=
  match dictGet? Gim.ssub (u! "Latn") with
  | none => []
  | some d => match dictGet? d T with
    | none => []
    | some m => m

/-- The Latin signs of consonants, and digits. -/
def latinSigns : List PyStr :=
  us!["ʾ", "b", "g", "d", "h", "w", "z", "ḥ", "ṭ", "y", "k", "l", "m", "n", "s", "ʿ", "p", "ṣ", "q", "r", "š", "t",
    "f", "ḫ", "č", "p̣", "s²", "ḍ", "ġ", "ḏ", "ẓ", "ṯ", "l²", "s₂", "v", "ḵ", "j", "ž", "ʔ", "ɖ", "ʈ", "ɽ", "ɳ", "ɭ",
    "0", "1", "2", "3", "4", "5", "6", "7", "8", "9"]

/-- The letters of the script that stand for one of these signs. -/
def semiticLetters (S : PyStr) : PyStr :=
  (toLatinTable S).flatMap fun p =>
    match p.1 with
    | [c] => match strMem p.2 latinSigns with | true => [c] | false => []
    | _ => []

/-- The Latin sign of a letter; other characters stand for themselves. -/
def latinSign (S : PyStr) (c : Nat) : PyStr :=
  match dictGet? (toLatinTable S) [c] with
  | some l => l
  | none => [c]

/-- The letter of the script for a Latin sign; if there is none, the letters for the nearest sign. -/
def letterFor (T : PyStr) : Nat → PyStr → PyStr
  | 0, l => l
  | n + 1, l =>
    match dictGet? (fromLatinTable T) l with
    | some t => t
    | none =>
      match dictGet? Gim.simplify l with
      | some l' => l'.flatMap fun c => letterFor T n [c]
      | none => match l with
        | _ :: _ :: _ => l.flatMap fun c => letterFor T n [c]
        | _ => l

/-- Signs with a rule of their own: punctuation in Arabic script, the word divider and a letter of
Ugaritic, and, with nativisation, letters added to Arabic for other languages. -/
def ownSigns (T : PyStr) (nativize : Bool) : List (PyStr × PyStr) :=
  (match strMem T us!["Arab", "Arab-Fa", "Arab-Ur", "Thaa"] with
    | true => [((u! ","), (u! "،")), ((u! ";"), (u! "؛")), ((u! "?"), (u! "؟")), ((u! "."), (u! "۔"))]
    | false => []) ++
  (match strEq T (u! "Ugar") with
    | true => [((u! " "), (u! "𐎟")), ((u! "s²"), (u! "𐎝"))]
    | false => []) ++
  (match strEq T (u! "Arab") && nativize with
    | true => [((u! "g"), (u! "ج")), ((u! "p"), (u! "ف")), ((u! "p̣"), (u! "ف")), ((u! "v"), (u! "ف"))]
    | false => [])

/-- The text for a Latin sign. -/
def signImage (T : PyStr) (nativize : Bool) (l : PyStr) : PyStr :=
  match dictGet? (ownSigns T nativize) l with
  | some t => t
  | none => letterFor T 4 l

/-- What becomes of a character: Roman letters are kept, the others are looked up in both tables. -/
def semiticImage (S T : PyStr) (nativize : Bool) (c : Nat) : PyStr :=
  match isAsciiLetter c with
  | true => [c]
  | false => signImage T nativize (latinSign S c)

/-- The letters of the script that have a form at the end of words, and these forms. -/
def finalLetters (T : PyStr) : PyStr := (Gim.getD Gim.fina T).flatMap fun p => p.1 ++ p.2

/-- A text of letters of `S`, plain and neutral characters that become no letter of `T` with a
final form. -/
def SemiticText (S T : PyStr) (nativize : Bool) (s : PyStr) : Prop :=
  ∀ c ∈ s, (c ∈ semiticLetters S ∨ c ∈ plainChars ∨ isNeutral c = true) ∧
    ∀ d ∈ semiticImage S T nativize c, d ∉ finalLetters T

/-- The characters of the theorems about Semitic text: letters, plain characters, and the private
characters that shield Roman letters. -/
def semiticChars : PyStr :=
  semiticNames.flatMap semiticLetters ++ plainChars ++ (List.range 0x49).map fun i => 0xEE01 + i

/-- Assumed of Python's Unicode data: NFD normalisation leaves texts of these characters alone, and
none of them is a combining mark. -/
structure Env.SemiticOps (E : Env) : Prop where
  nfd : ∀ s, (∀ c ∈ s, c ∈ semiticChars ∨ isNeutral c = true) → E.host .nfd s = .ok s
  mark : ∀ c, c ∈ semiticChars ∨ isNeutral c = true → E.uni.isMark c = false

/-! ## Romanisation -/

/-- What becomes of a character in the romanisation `Latn`. -/
def latinImage (S : PyStr) (c : Nat) : PyStr :=
  match isAsciiLetter c with
  | true => [c]
  | false => latinSign S c

/-- The signs that are read as they are: `s₂` is read as `s²`, and `ḵ` as `ḫ` for Syriac. -/
def readSigns : List PyStr := latinSigns.filter fun l => !(strMem l us!["s₂", "ḵ"])

/-- A piece of romanised text: a Latin sign, a plain character that is no Roman letter, or a neutral
character. -/
def LatinPiece (t : PyStr) : Prop :=
  t ∈ readSigns ∨ ∃ c, t = [c] ∧ (c ∈ plainChars ∧ isAsciiLetter c = false ∨ isNeutral c = true)

/-- Assumed of Python's `str.lower`: it leaves texts of these characters alone. -/
def Env.KeepsSigns (E : Env) : Prop :=
  ∀ s, (∀ c ∈ s, (∃ l ∈ readSigns, c ∈ l) ∨ (c ∈ plainChars ∧ isAsciiLetter c = false) ∨ isNeutral c = true) →
    E.host .lower s = .ok s

end Verif
