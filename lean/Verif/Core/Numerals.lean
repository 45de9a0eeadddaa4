import Verif.Core.Regex

/-!
# Number-to-numeral functions of `ConvertFix.py`

These are the only functions that compute with values read from the text (decimal numbers).
Python's `int(a / b)` (float division, then truncation) is modelled by exact natural-number
division; the two agree for numbers below 8·10¹⁵.
-/

namespace Verif

/-- Decimal digits of a number, most significant first, below the fuel. -/
def decDigits : Nat → Nat → PyStr
  | 0, _ => []
  | fuel + 1, n => if n < 10 then [48 + n] else decDigits fuel (n / 10) ++ [48 + n % 10]

/-- Python's `str(n)` for a natural number. -/
def pyStrNat (n : Nat) : PyStr := decDigits (n + 1) n

/-- `re.findall("\\d+", s)`: maximal runs of digits.  `acc`: current run, reversed. -/
def digitRuns (U : Uni) (acc : PyStr) : PyStr → List PyStr
  | [] => if acc.isEmpty then [] else [acc.reverse]
  | c :: cs =>
    if U.isDigit c then digitRuns U (c :: acc) cs
    else if acc.isEmpty then digitRuns U [] cs
    else acc.reverse :: digitRuns U [] cs

/-- `int(s)` for a run of digits. -/
def pyInt (U : Uni) (s : PyStr) : Nat := s.foldl (fun v c => v * 10 + U.digitVal c) 0

/-- `sorted(map(int, re.findall("\\d+", s)), reverse=True)` -/
def numbersDesc (U : Uni) (s : PyStr) : List Nat :=
  stableSort (fun a b => decide (b ≤ a)) ((digitRuns U [] s).map (pyInt U))

/-- ConvertFix.py:2311-2363 `kharoshthiNumber`: units part. -/
def kharoshthiOnes : Nat → PyStr
  | 0 => []
  | 1 => u! "𐩀"
  | 2 => u! "𐩁"
  | 3 => u! "𐩂"
  | 4 => u! "𐩃"
  | 5 => u! "𐩃𐩀"
  | 6 => u! "𐩃𐩁"
  | 7 => u! "𐩃𐩂"
  | 8 => u! "𐩃𐩃"
  | 9 => u! "𐩃𐩃𐩀"
  | _ => []

/-- ConvertFix.py:2311-2363 `kharoshthiNumber`, with recursion fuel (`num` suffices). -/
def kharoshthiNumberF : Nat → Nat → PyStr
  | 0, _ => []
  | fuel + 1, num =>
    let thou := num / 1000
    let k1 := if thou > 0 then (if thou > 1 then kharoshthiNumberF fuel thou else []) ++ u! "𐩇" else []
    let hund := (num - thou * 1000) / 100
    let k2 := if hund > 0 then (if hund > 1 then kharoshthiNumberF fuel hund else []) ++ u! "𐩆" else []
    let twen := (num - thou * 1000 - hund * 100) / 20
    let k3 := pyMul (u! "𐩅") twen
    let tenn := (num - thou * 1000 - hund * 100 - twen * 20) / 10
    let k4 := if tenn > 0 then (if tenn > 1 then kharoshthiNumberF fuel tenn else []) ++ u! "𐩄" else []
    let ones := num - thou * 1000 - hund * 100 - twen * 20 - tenn * 10
    k1 ++ k2 ++ k3 ++ k4 ++ kharoshthiOnes ones

/-- ConvertFix.py:2311-2363 `kharoshthiNumber` on the number itself. -/
def kharoshthiNumber (num : Nat) : PyStr := kharoshthiNumberF (num + 1) num

/-- ConvertFix.py:2283-2288 `KharoshthiNumerals`, forward direction. -/
def kharoshthiNumerals (U : Uni) (s : PyStr) : PyStr :=
  (numbersDesc U s).foldl (fun t num => pyReplace t (pyStrNat num) (kharoshthiNumber num)) s

/-- ConvertFix.py:2263-2271: the Old Persian numeral of a number. -/
def oldPersianNumber (num : Nat) : PyStr :=
  let hN := num / 100
  let tW := (num - hN * 100) / 20
  let tN := (num - hN * 100 - tW * 20) / 10
  let t2 := (num - hN * 100 - tW * 20 - tN * 10) / 2
  let n1 := num - hN * 100 - tW * 20 - tN * 10 - t2 * 2
  pyMul (u! "𐏕") hN ++ pyMul (u! "𐏔") tW ++ pyMul (u! "𐏓") tN ++ pyMul (u! "𐏒") t2 ++
    pyMul (u! "𐏑") n1

/-- ConvertFix.py:2254-2273 `OldPersianNumeral`, forward direction. -/
def oldPersianNumeral (U : Uni) (s : PyStr) : PyStr :=
  (numbersDesc U s).foldl (fun t num => pyReplace t (pyStrNat num) (oldPersianNumber num)) s

end Verif
