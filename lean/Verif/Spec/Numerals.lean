import Verif.Core.Regex

/-!
# Specification: how Kharoshthi and Old Persian numerals are read, and texts with numbers
-/

namespace Verif

/-- Reads a Kharoshthi numeral.  The signs for 1, 2, 3, 4, 10 and 20 add to what stands before; the
sign for hundred multiplies the number standing before it since the last thousand sign (nothing
counts as one); the sign for thousand multiplies everything standing before it (nothing counts as
one).  `hi`: the thousands read so far, `lo`: the rest. -/
def khRead (hi lo : Nat) : PyStr → Option Nat
  | [] => some (hi + lo)
  | c :: cs =>
    if c = 0x10A40 then khRead hi (lo + 1) cs
    else if c = 0x10A41 then khRead hi (lo + 2) cs
    else if c = 0x10A42 then khRead hi (lo + 3) cs
    else if c = 0x10A43 then khRead hi (lo + 4) cs
    else if c = 0x10A44 then khRead hi (lo + 10) cs
    else if c = 0x10A45 then khRead hi (lo + 20) cs
    else if c = 0x10A46 then khRead hi (max lo 1 * 100) cs
    else if c = 0x10A47 then khRead (max (hi + lo) 1 * 1000) 0 cs
    else none

/-- The number a Kharoshthi numeral stands for. -/
def khValue (s : PyStr) : Option Nat := khRead 0 0 s

/-- The number an Old Persian numeral stands for: signs for 1, 2, 10, 20 and 100, added up. -/
def opValue : PyStr → Option Nat
  | [] => some 0
  | c :: cs =>
    (opValue cs).bind fun v =>
      if c = 0x103D1 then some (v + 1)
      else if c = 0x103D2 then some (v + 2)
      else if c = 0x103D3 then some (v + 10)
      else if c = 0x103D4 then some (v + 20)
      else if c = 0x103D5 then some (v + 100)
      else none

/-- A piece of a text: a character that is no digit, or a number. -/
inductive Piece where
  | ch (c : Nat)
  | num (n : Nat)

/-- The text, with `f` telling how to write numbers. -/
def Piece.write (f : Nat → PyStr) : List Piece → PyStr
  | [] => []
  | .ch c :: l => c :: Piece.write f l
  | .num n :: l => f n ++ Piece.write f l

/-- No two numbers stand side by side. -/
def Piece.spaced : List Piece → Prop
  | [] => True
  | .num _ :: .num _ :: _ => False
  | _ :: l => Piece.spaced l

/-- Every character between the numbers has the property. -/
def Piece.NoDigit (P : Nat → Prop) : List Piece → Prop
  | [] => True
  | .ch c :: l => P c ∧ Piece.NoDigit P l
  | .num _ :: l => Piece.NoDigit P l

/-- The characters `0` to `9` are digits with their usual value. -/
def Uni.AsciiDigits (U : Uni) : Prop := ∀ c, 48 ≤ c → c ≤ 57 → U.isDigit c = true ∧ U.digitVal c = c - 48

/-- The decimal numeral of a number, without leading zeros: the only list of digits with that value
that does not begin with 0 (or is just 0). -/
def IsDecimal (s : PyStr) (n : Nat) : Prop :=
  s ≠ [] ∧ (∀ c ∈ s, 48 ≤ c ∧ c ≤ 57) ∧ s.foldl (fun v c => v * 10 + (c - 48)) 0 = n ∧ (s.head? = some 48 → s = [48])

end Verif
