import Verif.Core.Numerals
import Verif.Spec.Numerals
import Verif.Lib.Replace
import Verif.Lib.Sorting

/-!
# Numerals: value and text
-/

namespace Verif

/-! ## Kharoshthi -/

theorem khRead_ones {k : Nat} (hk : k ≤ 9) (hi lo : Nat) (rest : PyStr) :
    khRead hi lo (kharoshthiOnes k ++ rest) = khRead hi (lo + k) rest := by
  have : k = 0 ∨ k = 1 ∨ k = 2 ∨ k = 3 ∨ k = 4 ∨ k = 5 ∨ k = 6 ∨ k = 7 ∨ k = 8 ∨ k = 9 := by omega
  rcases this with h | h | h | h | h | h | h | h | h | h <;> subst h <;> simp [kharoshthiOnes, khRead, Nat.add_assoc]

theorem khRead_twenties (t hi lo : Nat) (rest : PyStr) :
    khRead hi lo (pyMul (u! "𐩅") t ++ rest) = khRead hi (lo + t * 20) rest := by
  induction t generalizing lo with
  | zero => simp [pyMul]
  | succ t ih =>
    have : pyMul (u! "𐩅") (t + 1) ++ rest = 0x10A45 :: (pyMul (u! "𐩅") t ++ rest) := by
      simp [pyMul, List.replicate_succ]
    rw [this]
    simp only [khRead, Nat.reduceEqDiff, if_false, if_true]
    rw [ih]
    congr 1
    omega

theorem kharoshthi_small {fuel k : Nat} (hk : k ≤ 9) : kharoshthiNumberF (fuel + 1) k = kharoshthiOnes k := by
  have h1 : k / 1000 = 0 := by omega
  have h2 : k / 100 = 0 := by omega
  have h3 : k / 20 = 0 := by omega
  have h4 : k / 10 = 0 := by omega
  simp [kharoshthiNumberF, h1, h2, h3, h4, pyMul]

theorem khRead_number (fuel n : Nat) (hf : n < fuel) (rest : PyStr) :
    khRead 0 0 (kharoshthiNumberF fuel n ++ rest) = khRead (n / 1000 * 1000) (n % 1000) rest := by
  induction fuel generalizing n rest with
  | zero => omega
  | succ fuel ih =>
    simp only [kharoshthiNumberF]
    have e1 : ∀ rest, khRead 0 0 ((if n / 1000 > 0 then (if n / 1000 > 1 then kharoshthiNumberF fuel (n / 1000) else []) ++ u! "𐩇"
        else []) ++ rest) = khRead (n / 1000 * 1000) 0 rest := by
      intro rest
      split
      · split
        · rw [List.append_assoc, ih _ (by omega)]
          simp only [List.cons_append, List.nil_append, khRead, Nat.reduceEqDiff, if_false, if_true]
          have e : max (n / 1000 / 1000 * 1000 + n / 1000 % 1000) 1 * 1000 = n / 1000 * 1000 := by
            have := Nat.div_add_mod (n / 1000) 1000
            omega
          rw [e]
        · simp only [List.nil_append, List.cons_append, khRead, Nat.reduceEqDiff, if_false, if_true]
          have e : max (0 + 0) 1 * 1000 = n / 1000 * 1000 := by omega
          rw [e]
      · have : n / 1000 = 0 := by omega
        rw [this]; rfl
    rw [List.append_assoc, List.append_assoc, List.append_assoc, List.append_assoc, e1]
    generalize hT : n / 1000 = T
    have hT' : n - T * 1000 = n % 1000 := by omega
    rw [hT']
    generalize hR : n % 1000 = R
    have hR' : R < 1000 := by omega
    have e2 : ∀ rest, khRead (T * 1000) 0 ((if R / 100 > 0 then (if R / 100 > 1 then kharoshthiNumberF fuel (R / 100) else []) ++ u! "𐩆"
        else []) ++ rest) = khRead (T * 1000) (R / 100 * 100) rest := by
      intro rest
      split
      · split
        · cases fuel with
          | zero => omega
          | succ fuel =>
            rw [kharoshthi_small (by omega), List.append_assoc, khRead_ones (by omega)]
            simp only [List.cons_append, List.nil_append, khRead, Nat.reduceEqDiff, if_false, if_true]
            congr 1
            omega
        · simp only [List.nil_append, List.cons_append, khRead, Nat.reduceEqDiff, if_false, if_true]
          congr 1
          omega
      · have : R / 100 = 0 := by omega
        rw [this]; rfl
    rw [e2, khRead_twenties]
    have ht : (R - R / 100 * 100 - (R - R / 100 * 100) / 20 * 20) / 10 ≤ 1 := by omega
    generalize hU : (R - R / 100 * 100 - (R - R / 100 * 100) / 20 * 20) / 10 = U at ht ⊢
    have e3 : ∀ (lo : Nat) rest, khRead (T * 1000) lo ((if U > 0 then (if U > 1 then kharoshthiNumberF fuel U else []) ++ u! "𐩄" else []) ++ rest)
        = khRead (T * 1000) (lo + U * 10) rest := by
      intro lo rest
      have : U = 0 ∨ U = 1 := by omega
      rcases this with h | h <;> subst h <;> simp [khRead]
    rw [e3, khRead_ones (by omega)]
    congr 1
    omega

/-! ## Old Persian -/

theorem opValue_signs {c v : Nat} (hc : ∀ w, (if c = 0x103D1 then some (w + 1)
      else if c = 0x103D2 then some (w + 2)
      else if c = 0x103D3 then some (w + 10)
      else if c = 0x103D4 then some (w + 20)
      else if c = 0x103D5 then some (w + 100)
      else none) = some (w + v)) (k : Nat) {rest : PyStr} {w : Nat} (hr : opValue rest = some w) :
    opValue (pyMul [c] k ++ rest) = some (w + k * v) := by
  induction k with
  | zero => simpa [pyMul] using hr
  | succ k ih =>
    have : pyMul [c] (k + 1) ++ rest = c :: (pyMul [c] k ++ rest) := by simp [pyMul, List.replicate_succ]
    rw [this]
    simp only [opValue, ih, Option.bind_some, hc]
    congr 1
    rw [Nat.succ_mul]
    omega

theorem opValue_number (n : Nat) : opValue (oldPersianNumber n) = some n := by
  unfold oldPersianNumber
  simp only [List.append_assoc]
  have h0 : opValue [] = some 0 := rfl
  have h1 := opValue_signs (c := 0x103D1) (v := 1) (fun w => by simp)
    (n - n / 100 * 100 - (n - n / 100 * 100) / 20 * 20 - (n - n / 100 * 100 - (n - n / 100 * 100) / 20 * 20) / 10 * 10 -
      (n - n / 100 * 100 - (n - n / 100 * 100) / 20 * 20 - (n - n / 100 * 100 - (n - n / 100 * 100) / 20 * 20) / 10 * 10) / 2 * 2) h0
  have h2 := opValue_signs (c := 0x103D2) (v := 2) (fun w => by simp)
    ((n - n / 100 * 100 - (n - n / 100 * 100) / 20 * 20 - (n - n / 100 * 100 - (n - n / 100 * 100) / 20 * 20) / 10 * 10) / 2) h1
  have h3 := opValue_signs (c := 0x103D3) (v := 10) (fun w => by simp)
    ((n - n / 100 * 100 - (n - n / 100 * 100) / 20 * 20) / 10) h2
  have h4 := opValue_signs (c := 0x103D4) (v := 20) (fun w => by simp) ((n - n / 100 * 100) / 20) h3
  have h5 := opValue_signs (c := 0x103D5) (v := 100) (fun w => by simp) (n / 100) h4
  simp only [List.append_nil] at h5
  rw [h5]
  congr 1
  omega

/-! ## Decimal numerals -/

theorem decDigits_spec (fuel n : Nat) (hf : n < fuel) : IsDecimal (decDigits fuel n) n := by
  induction fuel generalizing n with
  | zero => omega
  | succ fuel ih =>
    unfold decDigits
    split
    · rename_i h
      refine ⟨by simp, ?_, by simp, ?_⟩
      · intro c hc
        rw [List.mem_singleton] at hc
        omega
      · intro h0; simpa using h0
    · rename_i h
      obtain ⟨h1, h2, h3, h4⟩ := ih (n / 10) (by omega)
      refine ⟨by simp, ?_, ?_, ?_⟩
      · intro c hc
        rcases List.mem_append.1 hc with hc | hc
        · exact h2 c hc
        · rw [List.mem_singleton] at hc; omega
      · rw [List.foldl_append, h3]
        simp only [List.foldl_cons, List.foldl_nil]
        omega
      · intro h0
        cases hd : decDigits fuel (n / 10) with
        | nil => exact absurd hd h1
        | cons c l =>
          rw [hd] at h0 h4 h3
          have h5 := h4 (by simpa using h0)
          rw [h5] at h3
          simp at h3
          omega

theorem pyStrNat_decimal (n : Nat) : IsDecimal (pyStrNat n) n := decDigits_spec _ _ (by omega)

theorem foldl_bounds (s : PyStr) (h : ∀ c ∈ s, 48 ≤ c ∧ c ≤ 57) (v : Nat) :
    v * 10 ^ s.length ≤ s.foldl (fun v c => v * 10 + (c - 48)) v ∧
      s.foldl (fun v c => v * 10 + (c - 48)) v < (v + 1) * 10 ^ s.length := by
  induction s generalizing v with
  | nil => simp
  | cons c s ih =>
    have hc := h c List.mem_cons_self
    obtain ⟨h1, h2⟩ := ih (fun d hd => h d (List.mem_cons_of_mem _ hd)) (v * 10 + (c - 48))
    simp only [List.foldl_cons, List.length_cons, Nat.pow_succ]
    constructor
    · refine Nat.le_trans ?_ h1
      rw [Nat.mul_comm (10 ^ s.length) 10, ← Nat.mul_assoc]
      exact Nat.mul_le_mul_right _ (by omega)
    · refine Nat.lt_of_lt_of_le h2 ?_
      rw [Nat.mul_comm (10 ^ s.length) 10, ← Nat.mul_assoc]
      exact Nat.mul_le_mul_right _ (by omega)

/-- Longer decimal numerals stand for greater numbers. -/
theorem decimal_length {s t : PyStr} {m n : Nat} (hs : IsDecimal s m) (ht : IsDecimal t n) (hmn : m ≤ n) :
    s.length ≤ t.length := by
  obtain ⟨h1, h2, h3, h4⟩ := hs
  obtain ⟨k1, k2, k3, k4⟩ := ht
  cases s with
  | nil => simp
  | cons c s =>
    by_cases hz : c = 48
    · have := h4 (by simp [hz])
      rw [this]
      cases t with
      | nil => exact absurd rfl k1
      | cons d t => simp
    · have hc := h2 c List.mem_cons_self
      have b1 := (foldl_bounds s (fun d hd => h2 d (List.mem_cons_of_mem _ hd)) (c - 48)).1
      have b2 := (foldl_bounds t k2 0).2
      simp only [List.foldl_cons, Nat.zero_mul, Nat.zero_add] at h3
      rw [h3] at b1
      rw [k3] at b2
      simp only [Nat.zero_add, Nat.one_mul] at b2
      have b3 : 1 * 10 ^ s.length ≤ (c - 48) * 10 ^ s.length := Nat.mul_le_mul_right _ (by omega)
      have b4 : 10 ^ s.length < 10 ^ t.length := by omega
      have := (Nat.pow_lt_pow_iff_right (by omega : 1 < 10)).1 b4
      simp; omega

/-! ## Texts with numbers -/

def Piece.nums : List Piece → List Nat
  | [] => []
  | .ch _ :: l => Piece.nums l
  | .num n :: l => n :: Piece.nums l

theorem digitRuns_append {U : Uni} (d : PyStr) (hd : ∀ c ∈ d, U.isDigit c = true) (acc rest : PyStr) :
    digitRuns U acc (d ++ rest) = digitRuns U (d.reverse ++ acc) rest := by
  induction d generalizing acc with
  | nil => rfl
  | cons c d ih =>
    rw [List.cons_append, digitRuns, if_pos (hd c List.mem_cons_self), ih fun x hx => hd x (List.mem_cons_of_mem _ hx)]
    simp

theorem digitRuns_write {U : Uni} {g : Nat → PyStr} (hg : ∀ n, g n ≠ [] ∧ ∀ c ∈ g n, U.isDigit c = true) (l : List Piece)
    (hs : Piece.spaced l) (hc : Piece.NoDigit (fun c => U.isDigit c = false) l) :
    digitRuns U [] (Piece.write g l) = (Piece.nums l).map g := by
  match l, hs, hc with
  | [], _, _ => rfl
  | .ch c :: l, hs, hc =>
    have ih := digitRuns_write hg l hs hc.2
    simp only [Piece.write, digitRuns, hc.1, Bool.false_eq_true, if_false, List.isEmpty_nil, if_true, Piece.nums]
    exact ih
  | [.num n], _, _ =>
    have h := hg n
    have := digitRuns_append (g n) h.2 [] []
    simp only [Piece.write, this, Piece.nums, List.map_cons, List.map_nil]
    have ne : ((g n).reverse ++ []).isEmpty = false := by simp [h.1]
    rw [digitRuns, ne]; simp
  | .num n :: .num m :: l, hs, _ => exact hs.elim
  | .num n :: .ch c :: l, hs, hc =>
    have h := hg n
    have ih := digitRuns_write hg l hs hc.2
    have e := digitRuns_append (g n) h.2 [] (c :: Piece.write g l)
    have ne : ((g n).reverse ++ []).isEmpty = false := by simp [h.1]
    simp only [Piece.write, e, Piece.nums, List.map_cons]
    rw [digitRuns, hc.1, ne]
    simp [ih]

def Piece.subst (m : Nat) (r : PyStr) : List Piece → List Piece
  | [] => []
  | .ch c :: l => .ch c :: Piece.subst m r l
  | .num n :: l => if n = m then r.map Piece.ch ++ Piece.subst m r l else .num n :: Piece.subst m r l

theorem Piece.write_chars (g : Nat → PyStr) (r : PyStr) (l : List Piece) :
    Piece.write g (r.map Piece.ch ++ l) = r ++ Piece.write g l := by
  induction r with
  | nil => rfl
  | cons c r ih => simp [Piece.write, ih]

theorem Piece.write_subst (f : Nat → PyStr) (m : Nat) (l : List Piece) :
    Piece.write f (Piece.subst m (f m) l) = Piece.write f l := by
  induction l with
  | nil => rfl
  | cons p l ih =>
    cases p with
    | ch c => simp [Piece.subst, Piece.write, ih]
    | num n =>
      simp only [Piece.subst]
      split
      · rename_i h; subst h; rw [Piece.write_chars, ih]; rfl
      · simp [Piece.write, ih]

theorem Piece.nums_subst {m : Nat} {r : PyStr} {l : List Piece} {n : Nat} (h : n ∈ Piece.nums (Piece.subst m r l)) :
    n ∈ Piece.nums l ∧ n ≠ m := by
  have hch : ∀ (r : PyStr) (l : List Piece), Piece.nums (r.map Piece.ch ++ l) = Piece.nums l := by
    intro r l
    induction r with
    | nil => rfl
    | cons c r ih => simpa [Piece.nums] using ih
  induction l with
  | nil => cases h
  | cons p l ih =>
    cases p with
    | ch c => exact ih h
    | num k =>
      simp only [Piece.subst] at h
      split at h
      · rw [hch] at h
        exact ⟨List.mem_cons_of_mem _ (ih h).1, (ih h).2⟩
      · rename_i hk
        rcases List.mem_cons.1 h with rfl | h
        · exact ⟨List.mem_cons_self, hk⟩
        · exact ⟨List.mem_cons_of_mem _ (ih h).1, (ih h).2⟩

theorem Piece.spaced_chars (r : PyStr) {l : List Piece} (h : Piece.spaced l) : Piece.spaced (r.map Piece.ch ++ l) := by
  induction r with
  | nil => exact h
  | cons c r ih => exact ih

theorem Piece.spaced_tail {n : Nat} {l : List Piece} (h : Piece.spaced (.num n :: l)) : Piece.spaced l := by
  match l, h with
  | [], _ => trivial
  | .ch c :: l, h => exact h
  | .num m :: l, h => exact h.elim

theorem Piece.spaced_subst (m : Nat) (r : PyStr) (l : List Piece) (h : Piece.spaced l) : Piece.spaced (Piece.subst m r l) := by
  match l, h with
  | [], _ => trivial
  | .ch c :: l, h => exact Piece.spaced_subst m r l h
  | .num n :: .num k :: l, h => exact h.elim
  | [.num n], _ =>
    simp only [Piece.subst]
    split
    · exact Piece.spaced_chars r trivial
    · trivial
  | .num n :: .ch c :: l, h =>
    have ih := Piece.spaced_subst m r l h
    simp only [Piece.subst]
    split
    · exact Piece.spaced_chars r ih
    · exact ih

theorem Piece.noDigit_subst {P : Nat → Prop} (m : Nat) {r : PyStr} (hr : ∀ c ∈ r, P c) (l : List Piece)
    (h : Piece.NoDigit P l) : Piece.NoDigit P (Piece.subst m r l) := by
  have hch : ∀ (r : PyStr) (l : List Piece), (∀ c ∈ r, P c) → Piece.NoDigit P l → Piece.NoDigit P (r.map Piece.ch ++ l) := by
    intro r l hr hl
    induction r with
    | nil => exact hl
    | cons c r ih => exact ⟨hr c List.mem_cons_self, ih fun x hx => hr x (List.mem_cons_of_mem _ hx)⟩
  induction l with
  | nil => trivial
  | cons p l ih =>
    cases p with
    | ch c => exact ⟨h.1, ih h.2⟩
    | num n =>
      simp only [Piece.subst]
      split
      · exact hch r _ hr (ih h)
      · exact ih h

def ascii (c : Nat) : Prop := 48 ≤ c ∧ c ≤ 57

/-- A decimal numeral at the front of digits and something that is no digit lies within the digits. -/
theorem digits_prefix {p d rest : PyStr} (hp : ∀ c ∈ p, ascii c) (hr : ∀ c cs, rest = c :: cs → ¬ ascii c)
    (h : p <+: d ++ rest) : p <+: d := by
  induction p generalizing d with
  | nil => exact List.nil_prefix
  | cons c p ih =>
    cases d with
    | nil =>
      cases rest with
      | nil => simp at h
      | cons x rest =>
        rw [List.nil_append, List.cons_prefix_cons] at h
        exact absurd (hp c List.mem_cons_self) (h.1 ▸ hr x rest rfl)
    | cons x d =>
      rw [List.cons_append, List.cons_prefix_cons] at h
      rw [List.cons_prefix_cons]
      exact ⟨h.1, ih (fun y hy => hp y (List.mem_cons_of_mem _ hy)) h.2⟩

theorem pyReplace_skip {p y d rest : PyStr} (hp : p ≠ []) (h : ∀ d', d' <:+ d → d' ≠ [] → ¬ p <+: d' ++ rest) :
    pyReplace (d ++ rest) p y = d ++ pyReplace rest p y := by
  induction d with
  | nil => rfl
  | cons c d ih =>
    cases p with
    | nil => exact absurd rfl hp
    | cons a p =>
      rw [List.cons_append, pyReplace_cons, if_neg (show ¬ (a :: p) <+: c :: (d ++ rest) from h (c :: d) (List.suffix_refl _) (by simp)),
        ih fun d' hd hne => h d' (hd.trans (List.suffix_cons c d)) hne]
      rfl

theorem pyReplace_front {p y rest : PyStr} (hp : p ≠ []) : pyReplace (p ++ rest) p y = y ++ pyReplace rest p y := by
  cases p with
  | nil => exact absurd rfl hp
  | cons a p =>
    have h : (a :: p) <+: a :: (p ++ rest) := List.prefix_append _ _
    have := pyReplace_cons a p y a (p ++ rest)
    rw [if_pos h] at this
    rw [List.cons_append, this]
    simp

theorem replace_pieces {g : Nat → PyStr} (hg : ∀ n, IsDecimal (g n) n) {m : Nat} {r : PyStr} (l : List Piece)
    (hs : Piece.spaced l) (hc : Piece.NoDigit (fun c => ¬ ascii c) l) (hm : ∀ n ∈ Piece.nums l, n ≤ m) :
    pyReplace (Piece.write g l) (g m) r = Piece.write g (Piece.subst m r l) := by
  induction l with
  | nil =>
    cases h : g m with
    | nil => exact absurd h (hg m).1
    | cons a x => rfl
  | cons p l ih =>
    cases p with
    | ch c =>
      have ih := ih hs hc.2 hm
      simp only [Piece.subst, Piece.write, ← ih]
      cases h : g m with
      | nil => exact absurd h (hg m).1
      | cons a x =>
        rw [pyReplace_cons, if_neg]
        intro hp
        rw [List.cons_prefix_cons] at hp
        refine hc.1 (hp.1 ▸ ?_)
        have := (hg m).2.1 a (by rw [h]; simp)
        exact this
    | num n =>
      have ih := ih (Piece.spaced_tail hs) hc (fun k hk => hm k (List.mem_cons_of_mem _ hk))
      have hn := hm n List.mem_cons_self
      simp only [Piece.subst, Piece.write]
      split
      · rename_i h; subst h
        rw [pyReplace_front (hg n).1, ih, Piece.write_chars]
      · rename_i h
        rw [pyReplace_skip (hg m).1, ih]
        · rfl
        · intro d' hd hne hp
          have hr : ∀ c cs, Piece.write g l = c :: cs → ¬ ascii c := by
            intro c cs he
            match l, hs, hc with
            | [], _, _ => cases he
            | .ch x :: l, _, hc => simp only [Piece.write] at he; cases he; exact hc.1
            | .num k :: l, hs, _ => exact hs.elim
          have hp' := digits_prefix (fun c hc => (hg m).2.1 c hc) hr hp
          have l1 := hp'.length_le
          have l2 := hd.length_le
          have l3 := decimal_length (hg n) (hg m) hn
          have e1 : g m = d' := hp'.eq_of_length (by omega)
          have e2 : d' = g n := hd.eq_of_length (by omega)
          rw [← e1] at e2
          have h1 := (hg m).2.2.1
          rw [e2, (hg n).2.2.1] at h1
          exact h h1

theorem replace_all {g f : Nat → PyStr} (hg : ∀ n, IsDecimal (g n) n) (hf : ∀ n, ∀ c ∈ f n, ¬ ascii c) (ns : List Nat)
    (hns : ns.Pairwise fun a b => b ≤ a) (l : List Piece) (hs : Piece.spaced l)
    (hc : Piece.NoDigit (fun c => ¬ ascii c) l) (hm : ∀ n ∈ Piece.nums l, n ∈ ns) :
    ns.foldl (fun t n => pyReplace t (g n) (f n)) (Piece.write g l) = Piece.write f l := by
  induction ns generalizing l with
  | nil =>
    rw [List.foldl_nil]
    induction l with
    | nil => rfl
    | cons p l ih =>
      cases p with
      | ch c => simp only [Piece.write]; rw [ih hs hc.2 hm]
      | num n => exact absurd (hm n List.mem_cons_self) List.not_mem_nil
  | cons m ns ih =>
    rw [List.foldl_cons, replace_pieces hg l hs hc, ih hns.tail (Piece.subst m (f m) l) (Piece.spaced_subst _ _ _ hs)
      (Piece.noDigit_subst m (hf m) _ hc), Piece.write_subst]
    · intro n hn
      have := Piece.nums_subst hn
      exact (List.mem_cons.1 (hm n this.1)).resolve_left this.2
    · intro n hn
      rcases List.mem_cons.1 (hm n hn) with rfl | h
      · exact Nat.le_refl _
      · exact List.rel_of_pairwise_cons hns h

theorem numbersDesc_write {U : Uni} (hU : U.AsciiDigits) (l : List Piece) (hs : Piece.spaced l)
    (hc : Piece.NoDigit (fun c => U.isDigit c = false) l) :
    (numbersDesc U (Piece.write pyStrNat l)).Perm (Piece.nums l) ∧
      (numbersDesc U (Piece.write pyStrNat l)).Pairwise fun a b => b ≤ a := by
  have hd : ∀ n, pyStrNat n ≠ [] ∧ ∀ c ∈ pyStrNat n, U.isDigit c = true := fun n =>
    ⟨(pyStrNat_decimal n).1, fun c hc => (hU c ((pyStrNat_decimal n).2.1 c hc).1 ((pyStrNat_decimal n).2.1 c hc).2).1⟩
  have hv : ∀ n, pyInt U (pyStrNat n) = n := by
    intro n
    have h := pyStrNat_decimal n
    have key : ∀ (s : PyStr) (v : Nat), (∀ c ∈ s, 48 ≤ c ∧ c ≤ 57) →
        s.foldl (fun v c => v * 10 + U.digitVal c) v = s.foldl (fun v c => v * 10 + (c - 48)) v := by
      intro s
      induction s with
      | nil => intro v _; rfl
      | cons c s ih =>
        intro v hs
        have hc := hs c List.mem_cons_self
        rw [List.foldl_cons, List.foldl_cons, (hU c hc.1 hc.2).2, ih _ fun x hx => hs x (List.mem_cons_of_mem _ hx)]
    unfold pyInt
    rw [key _ _ h.2.1, h.2.2.1]
  have e : (digitRuns U [] (Piece.write pyStrNat l)).map (pyInt U) = Piece.nums l := by
    rw [digitRuns_write hd l hs hc, List.map_map]
    have : pyInt U ∘ pyStrNat = id := funext hv
    rw [this, List.map_id]
  unfold numbersDesc
  rw [e]
  refine ⟨stableSort_perm _ _, ?_⟩
  have := stableSort_sorted (le := fun a b => decide (b ≤ a)) (fun a b => by simp; omega)
    (fun a b c h1 h2 => by simp at h1 h2 ⊢; omega) (Piece.nums l)
  exact this.imp fun h => by simpa using h

end Verif
