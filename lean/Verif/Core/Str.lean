import Lean.Elab.Term

/-!
# Python strings and the list/string library the code uses

A Python `str` is modelled as the list of its code points (`PyStr = List Nat`).  Lean's
`Char` is not used because Python strings may hold surrogates and because natural-number
literals are what the kernel computes with.

`u! "..."` is elaboration-time notation for the list of code points of a literal, and
`us!["..", ".."]` for a list of such literals.
-/

namespace Verif

/-- A Python `str`: its code points, in order. -/
abbrev PyStr := List Nat

/-- Raw list-of-code-points expression for a literal. -/
def mkPyStrExpr (s : String) : Lean.Expr :=
  let nat := Lean.mkConst ``Nat
  s.toList.foldr
    (fun c acc => Lean.mkApp3 (Lean.mkConst ``List.cons [.zero]) nat (Lean.mkRawNatLit c.toNat) acc)
    (Lean.mkApp (Lean.mkConst ``List.nil [.zero]) nat)

/-- `u! "abc"` is the `PyStr` with the code points of the literal. -/
elab "u!" s:str : term => do
  return mkPyStrExpr s.getString

/-- `us!["a","b"]` is a list of `PyStr` literals. -/
elab "us![" ss:str,* "]" : term => do
  let ty := Lean.mkConst ``PyStr
  let mut e := Lean.mkApp (Lean.mkConst ``List.nil [.zero]) ty
  for s in ss.getElems.reverse do
    e := Lean.mkApp3 (Lean.mkConst ``List.cons [.zero]) ty (mkPyStrExpr s.getString) e
  return e

/-! ## `str.replace` -/

/-- Left-to-right scan of `str.replace` for a non-empty needle.  The counter is the number
of code points of an already replaced occurrence still to be skipped. -/
def replaceGo (x y : PyStr) : Nat → PyStr → PyStr
  | _, [] => []
  | 0, c :: cs =>
    match x.isPrefixOf (c :: cs) with
    | true => y ++ replaceGo x y (x.length - 1) cs
    | false => c :: replaceGo x y 0 cs
  | n + 1, _ :: cs => replaceGo x y n cs

/-- `s.replace('', y)`: `y` before every code point and at the end. -/
def interleave (y : PyStr) : PyStr → PyStr
  | [] => y
  | c :: cs => y ++ c :: interleave y cs

/-- Python's `s.replace(x, y)`. -/
def pyReplace (s x y : PyStr) : PyStr :=
  match x with
  | [] => interleave y s
  | _ :: _ => replaceGo x y 0 s

/-! ## Membership -/

/-- Python's `x in s` on strings: `x` occurs as a contiguous block. -/
def isInfix (x : PyStr) : PyStr → Bool
  | [] => x.isEmpty
  | c :: cs => x.isPrefixOf (c :: cs) || isInfix x cs

/-- Equality of strings (with kernel-accelerated comparison of code points). -/
def strEq : PyStr → PyStr → Bool
  | [], [] => true
  | a :: as, b :: bs => cond (Nat.beq a b) (strEq as bs) false
  | _, _ => false

theorem strEq_iff {a b : PyStr} : strEq a b = true ↔ a = b := by
  induction a generalizing b with
  | nil => cases b <;> simp [strEq]
  | cons x a ih =>
    cases b with
    | nil => simp [strEq]
    | cons y b =>
      simp only [strEq]
      cases h : Nat.beq x y with
      | true => have := Nat.eq_of_beq_eq_true h; simp [ih, this]
      | false => simp; intro e; subst e; simp [Nat.beq_refl] at h

theorem strEq_false {a b : PyStr} : strEq a b = false ↔ a ≠ b := by
  rw [← Bool.not_eq_true, strEq_iff]

/-- Python's `==`. -/
class PyEq (α : Type) where
  /-- the test -/
  pyEq : α → α → Bool
export PyEq (pyEq)

instance : PyEq PyStr := ⟨strEq⟩
instance : PyEq Nat := ⟨Nat.beq⟩
instance : PyEq Int := ⟨fun a b => decide (a = b)⟩
instance : PyEq Bool := ⟨fun a b => a == b⟩

/-- Membership of a string in a list of strings. -/
def strMem (x : PyStr) : List PyStr → Bool
  | [] => false
  | y :: l => cond (strEq x y) true (strMem x l)

theorem strMem_iff {x : PyStr} {l : List PyStr} : strMem x l = true ↔ x ∈ l := by
  induction l with
  | nil => simp [strMem]
  | cons y l ih =>
    simp only [strMem, List.mem_cons]
    cases h : strEq x y with
    | true => simp [strEq_iff.1 h]
    | false => simp [strEq_false.1 h, ih]

/-- Python's `in`, for a string in a string and for a value in a list. -/
class PyIn (α : Type) (β : Type) where
  /-- the test -/
  pyIn : α → β → Bool
export PyIn (pyIn)

instance : PyIn PyStr PyStr := ⟨isInfix⟩
instance : PyIn PyStr (List PyStr) := ⟨strMem⟩

/-! ## `split`, `join` -/

/-- `s.split(sep)` for a non-empty separator: pieces between left-to-right,
non-overlapping occurrences.  `acc` is the current piece, reversed. -/
def splitGo (sep : PyStr) : Nat → PyStr → PyStr → List PyStr
  | _, acc, [] => [acc.reverse]
  | 0, acc, c :: cs =>
    match sep.isPrefixOf (c :: cs) with
    | true => acc.reverse :: splitGo sep (sep.length - 1) [] cs
    | false => splitGo sep 0 (c :: acc) cs
  | n + 1, acc, _ :: cs => splitGo sep n acc cs

/-- Python's `s.split(sep)`, `sep` non-empty (an empty one raises `ValueError` and is
never used in the code). -/
def pySplit (s sep : PyStr) : List PyStr := splitGo sep 0 [] s

/-- Python's `sep.join(l)`. -/
def pyJoin (sep : PyStr) : List PyStr → PyStr
  | [] => []
  | [x] => x
  | x :: y :: l => x ++ sep ++ pyJoin sep (y :: l)

/-- Iterating over a string: its characters, as strings. -/
def pyChars (s : PyStr) : List PyStr := s.map fun c => [c]

/-- Code points with `str.isspace()`; also what `\s` matches. -/
def isSpace (c : Nat) : Bool :=
  (9 ≤ c && c ≤ 13) || (28 ≤ c && c ≤ 32) || c == 0x85 || c == 0xA0 || c == 0x1680 ||
  (0x2000 ≤ c && c ≤ 0x200A) || c == 0x2028 || c == 0x2029 || c == 0x202F || c == 0x205F ||
  c == 0x3000

/-- Python's `s.split()`; `acc` is the current word, reversed. -/
def splitWsGo (acc : PyStr) : PyStr → List PyStr
  | [] => if acc.isEmpty then [] else [acc.reverse]
  | c :: cs =>
    if isSpace c then
      (if acc.isEmpty then splitWsGo [] cs else acc.reverse :: splitWsGo [] cs)
    else splitWsGo (c :: acc) cs

/-- Python's `s.split()`. -/
def pySplitWs (s : PyStr) : List PyStr := splitWsGo [] s

/-! ## Lists -/

/-- Resolve a possibly negative Python slice bound against a length. -/
def sliceBound (n : Nat) (i : Int) : Nat :=
  if 0 ≤ i then min i.toNat n else n - min n (-i).toNat

/-- Python's `l[a:b]`. -/
def pySlice {α : Type} (l : List α) (a b : Option Int) : List α :=
  let lo := match a with | none => 0 | some i => sliceBound l.length i
  let hi := match b with | none => l.length | some i => sliceBound l.length i
  (l.drop lo).take (hi - lo)

/-- Python's `l[i]` with `IndexError` as `none`. -/
def pyIndex? {α : Type} (l : List α) (i : Int) : Option α :=
  if 0 ≤ i then l[i.toNat]? else
    if (-i).toNat ≤ l.length then l[l.length - (-i).toNat]? else none

/-- Python's `zip`. -/
def pyZip {α β : Type} (a : List α) (b : List β) : List (α × β) := a.zip b

/-- Python's `enumerate`. -/
def pyEnumerate {α : Type} (l : List α) : List (Nat × α) := (List.range l.length).zip l

/-- Python's `range(a, b)` on naturals. -/
def pyRange (a b : Nat) : List Nat := (List.range (b - a)).map (· + a)

/-- Python's `list(x)`: a list is copied, a string is exploded into one-character strings. -/
class PyList (α : Type) (β : outParam Type) where
  /-- the conversion -/
  pyList : α → List β
export PyList (pyList)

instance : PyList (List PyStr) PyStr := ⟨id⟩
instance : PyList PyStr PyStr := ⟨fun s => s.map fun c => [c]⟩
instance {α β : Type} : PyList (List (α × β)) (α × β) := ⟨id⟩

/-- Insert `x` before the first `y` with `le x y`. -/
def insertBy {α : Type} (le : α → α → Bool) (x : α) : List α → List α
  | [] => [x]
  | y :: l =>
    match le x y with
    | true => x :: y :: l
    | false => y :: insertBy le x l

/-- Stable sort: `le a b` means `a` may stay before `b`.  Python's `sorted` is stable, and a
stable sort is unique, so any stable algorithm computes it. -/
def stableSort {α : Type} (le : α → α → Bool) : List α → List α
  | [] => []
  | x :: l => insertBy le x (stableSort le l)

/-- Stable sort by a numeric key, largest first, for keys up to `n`: the elements of key `n` in
their order, then those of key `n - 1`, and so on. -/
def buckets {α : Type} (key : α → Nat) : Nat → List α → List α
  | 0, l => l.filter fun x => Nat.beq (key x) 0
  | n + 1, l => (l.filter fun x => Nat.beq (key x) (n + 1)) ++ buckets key n l

/-- The largest key. -/
def maxKey {α : Type} (key : α → Nat) : List α → Nat
  | [] => 0
  | x :: l => cond (Nat.ble (key x) (maxKey key l)) (maxKey key l) (key x)

/-- `sorted(l, key=..., reverse=True)`: stable, largest key first. -/
def sortByKeyDesc {α : Type} (key : α → Nat) (l : List α) : List α := buckets key (maxKey key l) l

/-- `sorted(l, key=len, reverse=True)`: stable, longest first. -/
def sortByLenDesc (l : List PyStr) : List PyStr := sortByKeyDesc List.length l

/-- Stable sort of pairs by the length of the first component, longest first: what
`sorted(l, key=cmp_to_key(lenSort))` computes (Convert.py:31-35; `lenSort` says "before" exactly
when longer, and sorting only asks whether one element is before another). -/
def sortPairsByLenDesc {β : Type} (l : List (PyStr × β)) : List (PyStr × β) :=
  sortByKeyDesc (fun p => p.1.length) l

/-- Lexicographic order on strings by code point (Python's `<=` on `str`). -/
def strLe : PyStr → PyStr → Bool
  | [], _ => true
  | _ :: _, [] => false
  | a :: as, b :: bs =>
    match Nat.beq a b with
    | true => strLe as bs
    | false => Nat.ble a b

/-- Python's `<=` on pairs of strings. -/
def pairLe (p q : PyStr × PyStr) : Bool :=
  match strEq p.1 q.1 with
  | true => strLe p.2 q.2
  | false => strLe p.1 q.1

/-- Python's `<` on `str`. -/
def strLt (a b : PyStr) : Bool := strLe a b && !(strEq a b)

/-- `sorted(l)` on strings. -/
def sortStr (l : List PyStr) : List PyStr := stableSort strLe l

/-- `l.sort(reverse=True)` on pairs of strings. -/
def sortPairsDesc (l : List (PyStr × PyStr)) : List (PyStr × PyStr) :=
  stableSort (fun p q => pairLe q p) l

/-- Python's `s * n`. -/
def pyMul {α : Type} (s : List α) (n : Nat) : List α := (List.replicate n s).flatten

/-- `string.punctuation`. -/
def string_punctuation : PyStr := u! "!\"#$%&'()*+,-./:;<=>?@[\\]^_`{|}~"

/-- Lookup in a Python `dict` given as the list of its items. -/
def dictGet? {β : Type} (d : List (PyStr × β)) (k : PyStr) : Option β :=
  match d with
  | [] => none
  | (a, b) :: l => cond (strEq a k) (some b) (dictGet? l k)

end Verif
