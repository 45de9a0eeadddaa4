import Verif.Model.Process

/-!
# A concrete environment

Used only to show that hypotheses of theorems can be met and in counterexamples: ASCII case
mapping, a Unicode database that knows nothing about non-ASCII digits, and text operations that
return their argument.
-/

namespace Verif

/-- ASCII digits and letters only. -/
def sampleUni : Uni where
  isAlnum c := isDig c || isAsciiLetter c
  isDigit := isDig
  digitVal c := c - 48
  isLetter := isAsciiLetter
  isMark _ := false

/-- Names of Devanagari and Myanmar characters (the first word is what matters); the others have none. -/
def sampleName (c : Nat) : Option PyStr :=
  match Nat.ble 0x0900 c && Nat.ble c 0x097F, Nat.ble 0x1000 c && Nat.ble c 0x109F,
      Nat.ble 0x0E00 c && Nat.ble c 0x0E7F with
  | true, _, _ => some (u! "DEVANAGARI LETTER")
  | false, true, _ => some (u! "MYANMAR LETTER")
  | false, false, true => some (u! "THAI CHARACTER")
  | false, false, false => none

/-- The sample environment. -/
def sampleEnv : Env where
  uni := sampleUni
  host _ s := .ok s
  lower := asciiLower
  upperFirst c := [asciiUpperC c]
  charName := sampleName
  charScript _ := u! "Zyyy"
  findLang _ := none

end Verif
