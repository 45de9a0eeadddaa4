import Verif.Spec.Scripts

/-!
# Letters that Unicode encodes in two ways
-/

namespace Verif

/-- Letters with a sign for them and a spelling by a sequence of two or three signs: the letters with a
nukta of Devanagari, Gurmukhi, Bengali and Oriya (their canonical decompositions), the chillu letters of Malayalam (the
spelling of Unicode before 5.1), and vowel signs of Bengali, Tamil, Malayalam and Grantha (canonical decompositions). -/
def twoSpellings : List (Nat × PyStr) := [
  (0x958, [0x915, 0x93C]), (0x959, [0x916, 0x93C]), (0x95A, [0x917, 0x93C]), (0x95B, [0x91C, 0x93C]),
  (0x95C, [0x921, 0x93C]), (0x95D, [0x922, 0x93C]), (0x95E, [0x92B, 0x93C]), (0x95F, [0x92F, 0x93C]),
  (0xA33, [0xA32, 0xA3C]), (0xA36, [0xA38, 0xA3C]), (0xA59, [0xA16, 0xA3C]), (0xA5A, [0xA17, 0xA3C]),
  (0xA5B, [0xA1C, 0xA3C]), (0xA5E, [0xA2B, 0xA3C]),
  (0x9DC, [0x9A1, 0x9BC]), (0x9DD, [0x9A2, 0x9BC]), (0x9DF, [0x9AF, 0x9BC]),
  (0xB5C, [0xB21, 0xB3C]), (0xB5D, [0xB22, 0xB3C]),
  (0xD7A, [0xD23, 0xD4D, 0x200D]), (0xD7B, [0xD28, 0xD4D, 0x200D]), (0xD7C, [0xD30, 0xD4D, 0x200D]),
  (0xD7D, [0xD32, 0xD4D, 0x200D]), (0xD7E, [0xD33, 0xD4D, 0x200D]), (0xD7F, [0xD15, 0xD4D, 0x200D]),
  (0x9CB, [0x9C7, 0x9BE]), (0xBCA, [0xBC6, 0xBBE]), (0xD4A, [0xD46, 0xD3E]), (0x1134B, [0x11347, 0x1133E])]

/-- The long spelling of a character. -/
def spellChar : List (Nat × PyStr) → Nat → PyStr
  | [], c => [c]
  | (a, x) :: P, c =>
    match Nat.beq a c with
    | true => x
    | false => spellChar P c

/-- The text with all letters of the table spelt out. -/
def spellOut (P : List (Nat × PyStr)) (s : PyStr) : PyStr := s.flatMap (spellChar P)

/-- The letters of `twoSpellings` of which source `S` reads both spellings. -/
def spellingsOf (S : PyStr) : List (Nat × PyStr) :=
  match strMem S us!["Grantha", "TamilGrantha"], strEq S (u! "WarangCiti") with
  | true, _ => twoSpellings.drop 19
  | _, true => twoSpellings.take 19
  | false, false => twoSpellings

end Verif
