import Verif.Core.Prog

/-!
# Vocabulary for script detection

A character belongs to the script word its Unicode name begins with ("DEVANAGARI LETTER KA":
`devanagari`); for names beginning with OLD it is the second word ("OLD PERSIAN SIGN A":
`persian`).
-/

namespace Verif

/-- ASCII lower case (Unicode names are ASCII). -/
def lowerLetter (c : Nat) : Nat := if 65 ≤ c ∧ c ≤ 90 then c + 32 else c

/-- The script word of a Unicode name. -/
def nameScript (name : PyStr) : Option PyStr :=
  let first := (name.takeWhile (· != 32)).map lowerLetter
  let rest := name.dropWhile (· != 32)
  if first = u! "old" then
    match rest with
    | [] => none
    | _ :: rest => some ((rest.takeWhile (· != 32)).map lowerLetter)
  else some first

/-- The script word of a character, if it has a name. -/
def charScriptWord (E : Env) (c : Nat) : Option PyStr := (E.charName c).bind nameScript

/-- How many characters of the text belong to the script word `w`. -/
def wordCount (E : Env) (w text : PyStr) : Nat := text.countP fun c => charScriptWord E c == some w

/-- Names as the Unicode database has them: a non-empty first word, and a non-empty second word
after OLD. -/
def Env.GoodNames (E : Env) : Prop :=
  ∀ c n, E.charName c = some n → ∃ w, nameScript n = some w ∧ w ≠ []

/-- The script a text in the Unicode script of the given word is in, where the word alone decides. -/
def wordScripts : List (PyStr × PyStr) := [
  (u! "devanagari", u! "Devanagari"), (u! "tamil", u! "Tamil"), (u! "telugu", u! "Telugu"),
  (u! "kannada", u! "Kannada"), (u! "malayalam", u! "Malayalam"), (u! "gujarati", u! "Gujarati"),
  (u! "oriya", u! "Oriya"), (u! "gurmukhi", u! "Gurmukhi"), (u! "sinhala", u! "Sinhala"),
  (u! "thai", u! "Thai"), (u! "khmer", u! "Khmer"), (u! "tibetan", u! "Tibetan"),
  (u! "balinese", u! "Balinese"), (u! "javanese", u! "Javanese"), (u! "sundanese", u! "Sundanese"),
  (u! "brahmi", u! "Brahmi"), (u! "kharoshthi", u! "Kharoshthi"), (u! "grantha", u! "Grantha"),
  (u! "sharada", u! "Sharada"), (u! "siddham", u! "Siddham"), (u! "newa", u! "Newa"),
  (u! "modi", u! "Modi"), (u! "kaithi", u! "Kaithi"), (u! "takri", u! "Takri"),
  (u! "tirhuta", u! "Tirhuta"), (u! "khojki", u! "Khojki"), (u! "khudawadi", u! "Khudawadi"),
  (u! "mahajani", u! "Mahajani"), (u! "multani", u! "Multani"), (u! "dogra", u! "Dogra"),
  (u! "nandinagari", u! "Nandinagari"), (u! "bhaiksuki", u! "Bhaiksuki"), (u! "ahom", u! "Ahom"),
  (u! "chakma", u! "Chakma"), (u! "cham", u! "Cham"), (u! "lepcha", u! "Lepcha"),
  (u! "limbu", u! "Limbu"), (u! "rejang", u! "Rejang"), (u! "buginese", u! "Buginese"),
  (u! "buhid", u! "Buhid"), (u! "hanunoo", u! "Hanunoo"), (u! "tagalog", u! "Tagalog"),
  (u! "tagbanwa", u! "Tagbanwa"), (u! "saurashtra", u! "Saurashtra"), (u! "soyombo", u! "Soyombo"),
  (u! "marchen", u! "Marchen"), (u! "makasar", u! "Makasar"), (u! "kawi", u! "Kawi"),
  (u! "thaana", u! "Thaana"), (u! "hebrew", u! "Hebrew"), (u! "mongolian", u! "Mongolian"),
  (u! "avestan", u! "Avestan"), (u! "mro", u! "Mro"), (u! "wancho", u! "Wancho"),
  (u! "hiragana", u! "Hiragana"), (u! "katakana", u! "Katakana"),
  (u! "batak", u! "BatakKaro"), (u! "meetei", u! "MeeteiMayek"), (u! "dives", u! "DivesAkuru"),
  (u! "persian", u! "OldPersian"), (u! "phags-pa", u! "PhagsPa"), (u! "ol", u! "Santali"),
  (u! "sora", u! "SoraSompeng"), (u! "syloti", u! "SylotiNagri"), (u! "tai", u! "TaiTham"),
  (u! "warang", u! "WarangCiti"), (u! "cyrillic", u! "RussianCyrillic"),
  (u! "zanabazar", u! "ZanabazarSquare")]

end Verif
