import Verif.Lib.ReNeutral

/-!
# Alphabets as bit masks
-/

namespace Verif

/-- The white space characters (`isSpace`), as ranges. -/
def spaceRanges : List (Nat × Nat) :=
  [(9, 13), (28, 32), (133, 133), (160, 160), (5760, 5760), (8192, 8202), (8232, 8233), (8239, 8239), (8287, 8287),
    (12288, 12288)]

def maskMem (m c : Nat) : Bool := Nat.beq (Nat.mod (Nat.shiftRight m c) 2) 1

def maskOut (m a b : Nat) : Bool :=
  Nat.beq (Nat.mod (Nat.shiftRight m a) (Nat.pow 2 (Nat.sub (Nat.succ b) a))) 0

theorem maskMem_eq (m c : Nat) : maskMem m c = m.testBit c := by
  have h : m.testBit c = decide ((m >>> c) % 2 = 1) := by
    rw [Nat.testBit_eq_decide_div_mod_eq, Nat.shiftRight_eq_div_pow]
  rw [h]
  unfold maskMem
  rw [Bool.eq_iff_iff]
  simp only [Nat.beq_eq, decide_eq_true_eq]
  rfl

theorem maskOut_sound (m a b c : Nat) (h : maskOut m a b = true) (h1 : a ≤ c) (h2 : c ≤ b) : maskMem m c = false := by
  have h0 : (m >>> a) % 2 ^ (b + 1 - a) = 0 := Nat.eq_of_beq_eq_true h
  rw [maskMem_eq]
  have h3 : ((m >>> a) % 2 ^ (b + 1 - a)).testBit (c - a) = false := by rw [h0]; simp
  rw [Nat.testBit_mod_two_pow, Nat.testBit_shiftRight] at h3
  have : a + (c - a) = c := by omega
  rw [this] at h3
  simpa [show c - a < b + 1 - a by omega] using h3

theorem isSpace_ranges {c : Nat} (h : isSpace c = true) : ∃ r ∈ spaceRanges, r.1 ≤ c ∧ c ≤ r.2 := by
  simp only [isSpace, Bool.or_eq_true, Bool.and_eq_true, decide_eq_true_eq, beq_iff_eq] at h
  simp only [spaceRanges, List.mem_cons, List.not_mem_nil, or_false, exists_eq_or_imp, exists_eq_left]
  omega

/-- The alphabet of a bit mask. -/
def maskSet (m : Nat) : CharSet where
  mem := maskMem m
  rangeOut := maskOut m
  noSpace := spaceRanges.all fun r => maskOut m r.1 r.2
  range_sound := maskOut_sound m
  space_sound := by
    intro h c hc
    obtain ⟨r, hr, h1, h2⟩ := isSpace_ranges hc
    exact maskOut_sound m r.1 r.2 c (List.all_eq_true.1 h r hr) h1 h2

end Verif
