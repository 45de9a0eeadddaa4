import Verif.Lib.ReBlocked

/-!
# Neutral characters

Characters that belong to no script handled by the library: line breaks, Chinese characters and
emoji.
-/

namespace Verif

/-- Line feed, CJK unified ideographs (U+4E00-U+9FFF) and pictographs (U+1F300-U+1FAFF). -/
def isNeutral (c : Nat) : Bool :=
  c = 10 ∨ (0x4E00 ≤ c ∧ c ≤ 0x9FFF) ∨ (0x1F300 ≤ c ∧ c ≤ 0x1FAFF)

/-- The neutral characters of a text, in order. -/
def neutralPart (s : List Nat) : List Nat := s.filter isNeutral

/-- CJK compatibility ideographs (U+F900-U+FAFF, U+2F800-U+2FA1F): Unicode normalisation replaces
them by ordinary ideographs. -/
def isCompat (c : Nat) : Bool :=
  (0xF900 ≤ c ∧ c ≤ 0xFAFF) ∨ (0x2F800 ≤ c ∧ c ≤ 0x2FA1F)

/-- `isNeutral`, in a form the kernel computes quickly. -/
def neuMem (c : Nat) : Bool :=
  match Nat.beq c 10 with
  | true => true
  | false =>
    match Nat.ble 0x4E00 c with
    | false => false
    | true =>
      match Nat.ble c 0x9FFF with
      | true => true
      | false =>
        match Nat.ble 0x1F300 c with
        | false => false
        | true => Nat.ble c 0x1FAFF

theorem neuMem_eq (c : Nat) : neuMem c = isNeutral c := by
  have hb : ∀ a b : Nat, Nat.ble a b = decide (a ≤ b) := fun a b => by
    rw [Bool.eq_iff_iff, Nat.ble_eq, decide_eq_true_iff]
  have he : ∀ a b : Nat, Nat.beq a b = decide (a = b) := fun a b => by
    rw [Bool.eq_iff_iff, Nat.beq_eq, decide_eq_true_iff]
  unfold neuMem isNeutral
  simp only [hb, he]
  rw [Bool.eq_iff_iff]
  repeat' split
  all_goals simp only [decide_eq_true_eq, decide_eq_false_iff_not, Bool.false_eq_true, true_iff, false_iff] at *
  all_goals omega

/-- The neutral characters as a set the analyses can use. -/
def neu : CharSet where
  mem := neuMem
  rangeOut := fun a b =>
    (Nat.blt 10 a || Nat.blt b 10) && (Nat.blt 0x9FFF a || Nat.blt b 0x4E00) &&
      (Nat.blt 0x1FAFF a || Nat.blt b 0x1F300)
  noSpace := false
  range_sound := by
    intro a b c h h1 h2
    rw [neuMem_eq]
    simp only [Bool.and_eq_true, Bool.or_eq_true, Nat.blt_eq] at h
    simp only [isNeutral, decide_eq_false_iff_not]
    omega
  space_sound := by simp

/-- `isCompat` and U+F000 (if `p`), in a form the kernel computes quickly. -/
def guardMem (p : Bool) (c : Nat) : Bool :=
  match Nat.ble 0xF000 c with
  | false => false
  | true =>
    match Nat.ble c 0xFAFF with
    | true => match Nat.ble 0xF900 c with
      | true => true
      | false => p && Nat.beq c 0xF000
    | false => Nat.ble 0x2F800 c && Nat.ble c 0x2FA1F

theorem guardMem_eq (p : Bool) (c : Nat) : guardMem p c = (isCompat c || (p && decide (c = 0xF000))) := by
  have hb : ∀ a b : Nat, Nat.ble a b = decide (a ≤ b) := fun a b => by
    rw [Bool.eq_iff_iff, Nat.ble_eq, decide_eq_true_iff]
  have he : ∀ a b : Nat, Nat.beq a b = decide (a = b) := fun a b => by
    rw [Bool.eq_iff_iff, Nat.beq_eq, decide_eq_true_iff]
  unfold guardMem isCompat
  simp only [hb, he]
  rw [Bool.eq_iff_iff]
  repeat' split
  all_goals cases p
  all_goals simp only [decide_eq_true_eq, decide_eq_false_iff_not, Bool.false_eq_true, true_iff, false_iff,
    Bool.or_eq_true, Bool.and_eq_true, Bool.false_and, Bool.true_and, Bool.or_false] at *
  all_goals omega

/-- Compatibility ideographs and U+F000 (if `p`) as a set the analyses can use. -/
def guardSet (p : Bool) : CharSet where
  mem := guardMem p
  rangeOut := fun a b => Nat.blt b 0xF000 || (Nat.blt 0xFAFF a && Nat.blt b 0x2F800) || Nat.blt 0x2FA1F a
  noSpace := false
  range_sound := by
    intro a b c h h1 h2
    rw [guardMem_eq]
    simp only [Bool.and_eq_true, Bool.or_eq_true, Nat.blt_eq] at h
    simp only [isCompat, Bool.or_eq_false_iff, Bool.and_eq_false_iff, decide_eq_false_iff_not]
    omega
  space_sound := by simp

end Verif
