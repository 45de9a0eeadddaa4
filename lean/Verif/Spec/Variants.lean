import Verif.Spec.Detect

/-!
# Signs that tell variants of a script apart

Texts in variants of one script (or in romanisations) have the same Unicode script; `auto_detect` tells them apart by
characteristic signs.
-/

namespace Verif

/-- A variant is recognised by one sign of each group. -/
structure Variant where
  groups : List (List PyStr)
  script : PyStr

/-- The text has a sign of each group. -/
def Variant.seen (v : Variant) (text : PyStr) : Prop := ∀ g ∈ v.groups, ∃ m ∈ g, m <:+: text

/-- `S` is the script of the first variant of the list that is seen in the text, or `dflt` if there is none. -/
def Chosen (variants : List Variant) (dflt text S : PyStr) : Prop :=
  (∃ l v r, variants = l ++ v :: r ∧ v.script = S ∧ v.seen text ∧ ∀ w ∈ l, ¬ w.seen text)
  ∨ (S = dflt ∧ ∀ w ∈ variants, ¬ w.seen text)

/-- For each word that begins the Unicode names of a script's characters, the variants, the stronger one first, and the
script of texts without any characteristic sign. -/
def variantsOf : List (PyStr × List Variant × PyStr) := [
  ((u! "bengali"), [⟨[[[0x9F0], [0x9F1]]], u! "Assamese"⟩], u! "Bengali"),
  -- letters for Pali
  ((u! "lao"), [⟨[[[0xE86], [0xE89], [0xE8C], [0xE8E], [0xE8F], [0xE90], [0xE91], [0xE92], [0xE93], [0xE98], [0xEA0], [0xEA8],
    [0xEA9], [0xEAC], [0xEBA]]], u! "LaoPali"⟩], u! "Lao"),
  -- western, then eastern vowel signs
  ((u! "syriac"), [
    ⟨[[[0x730], [0x73A], [0x736], [0x651], [0x73D]]], u! "Syrj"⟩,
    ⟨[[[0x732], [0x735], [0x71D, 0x73C], [0x718, 0x73C], [0x738], [0x739], [0x718, 0x73F]]], u! "Syrn"⟩], u! "Syre"),
  -- aspirated sonorants of Punjabi, letters of Urdu, letters of Persian
  ((u! "arabic"), [
    ⟨[[[0x768], [0x644, 0x615], [0x645, 0x6BE], [0x646, 0x6BE], [0x6CC, 0x6BE], [0x631, 0x6BE], [0x644, 0x6BE], [0x648, 0x6BE]]],
      u! "Shahmukhi"⟩,
    ⟨[[[0x688], [0x679], [0x691], [0x6BE]]], u! "Urdu"⟩,
    ⟨[[[0x686], [0x6AF], [0x698], [0x67E], [0x647, 0x654]]], u! "Arab-Fa"⟩], u! "Arab"),
  ((u! "latin"), [
    ⟨[us!["ʰ"]], u! "Titus"⟩,
    ⟨[us!["ʾ", "ʿ", "š", "w"]], u! "Latn"⟩,
    ⟨[us!["´", "˝", "ʻ"]], u! "BurmeseRomanLoC"⟩,
    ⟨[us!["ā", "ī", "ū", "ṃ", "ḥ", "ś", "ṣ", "ṇ", "ṛ", "ṝ", "ḷ", "ḹ", "ḻ", "ṉ", "ṟ", "ṭ", "ḍ", "ṅ", "ñ"],
      us!["ē", "ō", "r̥"]], u! "ISO"⟩,
    ⟨[us!["ā", "ī", "ū", "ṃ", "ḥ", "ś", "ṣ", "ṇ", "ṛ", "ṝ", "ḷ", "ḹ", "ḻ", "ṉ", "ṟ", "ṭ", "ḍ", "ṅ", "ñ"]], u! "IAST"⟩,
    ⟨[us!["R^i", "R^I", "L^i", "L^I", ".N", "~N", "~n", "Ch", "sh", "Sh"]], u! "Itrans"⟩], u! "HK")]

/-! Languages in Myanmar script -/

/-- The Unicode name of the character contains the word (written in lower case here). -/
def nameHas (E : Env) (word : PyStr) (c : Nat) : Bool :=
  match E.charName c with
  | some n => isInfix word (n.map lowerLetter)
  | none => false

/-- Number of characters of the text made for Shan, by their names (U+1083 is used for other languages too). -/
def shanLetters (E : Env) (text : PyStr) : Nat :=
  text.countP fun c => c != 0x1083 && nameHas E (u! "shan") c

/-- Number of characters made for Tai Laing. -/
def taiLaingLetters (E : Env) (text : PyStr) : Nat :=
  text.countP fun c => c != 0x1083 && (nameHas E (u! "tai laing") c && !nameHas E (u! "shan") c)

/-- Number of characters made for Khamti. -/
def khamtiLetters (E : Env) (text : PyStr) : Nat :=
  text.countP fun c => c != 0x1083 && (nameHas E (u! "khamti") c && !nameHas E (u! "tai laing") c && !nameHas E (u! "shan") c)

/-- Characteristic signs of Mon. -/
def monSigns : List PyStr :=
  [[0x105A], [0x105B], [0x1039, 0x100A], [0x105E], [0x105F], [0x1060], [0x1033], [0x1028]]

end Verif
