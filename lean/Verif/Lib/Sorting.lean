import Verif.Lib.Basic

/-!
# Sorting: permutations, order, stability
-/

namespace Verif

theorem insertBy_perm {α : Type} (le : α → α → Bool) (x : α) (l : List α) :
    (insertBy le x l).Perm (x :: l) := by
  induction l with
  | nil => exact List.Perm.refl _
  | cons y l ih =>
    simp only [insertBy]
    split
    · exact List.Perm.refl _
    · exact (ih.cons y).trans (List.Perm.swap x y l)

theorem stableSort_perm {α : Type} (le : α → α → Bool) (l : List α) : (stableSort le l).Perm l := by
  induction l with
  | nil => exact List.Perm.refl _
  | cons x l ih => exact (insertBy_perm le x _).trans (ih.cons x)

theorem insertBy_sorted {α : Type} {le : α → α → Bool} (htot : ∀ a b, le a b = true ∨ le b a = true)
    (htr : ∀ a b c, le a b = true → le b c = true → le a c = true) {x : α} {l : List α}
    (hl : l.Pairwise fun a b => le a b = true) : (insertBy le x l).Pairwise fun a b => le a b = true := by
  induction l with
  | nil => simp [insertBy]
  | cons y l ih =>
    have hy := List.pairwise_cons.1 hl
    simp only [insertBy]
    split
    · rename_i hxy
      refine List.pairwise_cons.2 ⟨fun b hb => ?_, hl⟩
      rcases List.mem_cons.1 hb with rfl | hb
      · exact hxy
      · exact htr _ _ _ hxy (hy.1 b hb)
    · rename_i hxy
      refine List.pairwise_cons.2 ⟨fun b hb => ?_, ih hy.2⟩
      rcases List.mem_cons.1 ((insertBy_perm le x l).mem_iff.1 hb) with rfl | hb
      · exact (htot y b).elim id fun h => by rw [h] at hxy; cases hxy
      · exact hy.1 b hb

theorem stableSort_sorted {α : Type} {le : α → α → Bool} (htot : ∀ a b, le a b = true ∨ le b a = true)
    (htr : ∀ a b c, le a b = true → le b c = true → le a c = true) (l : List α) :
    (stableSort le l).Pairwise fun a b => le a b = true := by
  induction l with
  | nil => exact List.Pairwise.nil
  | cons x l ih => exact insertBy_sorted htot htr ih

/-! ## Sorting by a key -/

theorem maxKey_le {α : Type} (key : α → Nat) (l : List α) : ∀ x ∈ l, key x ≤ maxKey key l := by
  induction l with
  | nil => simp
  | cons a l ih =>
    intro x hx
    simp only [maxKey]
    cases h : Nat.ble (key a) (maxKey key l) with
    | true =>
      rw [cond_true]
      rcases List.mem_cons.1 hx with rfl | hx
      · exact Nat.le_of_ble_eq_true h
      · exact ih x hx
    | false =>
      rw [cond_false]
      have h' : maxKey key l < key a := by
        rcases Nat.lt_or_ge (maxKey key l) (key a) with h1 | h1
        · exact h1
        · rw [Nat.ble_eq_true_of_le h1] at h; cases h
      rcases List.mem_cons.1 hx with rfl | hx
      · exact Nat.le_refl _
      · exact Nat.le_trans (ih x hx) (Nat.le_of_lt h')

theorem mem_buckets {α : Type} {key : α → Nat} {n : Nat} {l : List α} {x : α} :
    x ∈ buckets key n l ↔ x ∈ l ∧ key x ≤ n := by
  induction n with
  | zero =>
    simp only [buckets, List.mem_filter]
    constructor
    · rintro ⟨h1, h2⟩; exact ⟨h1, Nat.le_of_eq (Nat.eq_of_beq_eq_true h2)⟩
    · rintro ⟨h1, h2⟩; exact ⟨h1, by rw [Nat.le_zero.1 h2]; rfl⟩
  | succ n ih =>
    simp only [buckets, List.mem_append, List.mem_filter, ih]
    constructor
    · rintro (⟨h1, h2⟩ | ⟨h1, h2⟩)
      · exact ⟨h1, Nat.le_of_eq (Nat.eq_of_beq_eq_true h2)⟩
      · exact ⟨h1, by omega⟩
    · rintro ⟨h1, h2⟩
      rcases Nat.lt_or_ge n (key x) with h | h
      · exact Or.inl ⟨h1, by rw [show key x = n + 1 by omega]; exact Nat.beq_refl _⟩
      · exact Or.inr ⟨h1, h⟩

theorem filter_or_perm {α : Type} (p q : α → Bool) (h : ∀ x, p x = true → q x = false) (l : List α) :
    (l.filter p ++ l.filter q).Perm (l.filter fun x => p x || q x) := by
  induction l with
  | nil => exact List.Perm.refl _
  | cons x l ih =>
    cases hp : p x with
    | true =>
      have hq := h x hp
      simp only [List.filter_cons, hp, hq, Bool.true_or, if_true]
      exact ih.cons x
    | false =>
      cases hq : q x with
      | true =>
        simp only [List.filter_cons, hp, hq, Bool.false_or, if_true]
        exact (List.perm_middle).trans (ih.cons x)
      | false =>
        simpa [List.filter_cons, hp, hq] using ih

theorem buckets_perm_filter {α : Type} (key : α → Nat) (n : Nat) (l : List α) :
    (buckets key n l).Perm (l.filter fun x => Nat.ble (key x) n) := by
  induction n with
  | zero =>
    rw [show (fun x => Nat.ble (key x) 0) = fun x => Nat.beq (key x) 0 from
      funext fun x => by cases key x <;> rfl]
    exact List.Perm.refl _
  | succ n ih =>
    have := filter_or_perm (fun x => Nat.beq (key x) (n + 1)) (fun x => Nat.ble (key x) n)
      (fun x hx => by
        rw [← Bool.not_eq_true]
        intro h
        have := Nat.le_of_ble_eq_true h
        have := Nat.eq_of_beq_eq_true hx
        omega) l
    refine ((List.Perm.append_left _ ih).trans this).trans (List.Perm.of_eq ?_)
    congr 1
    funext x
    rw [Bool.eq_iff_iff, Bool.or_eq_true, Nat.beq_eq, Nat.ble_eq, Nat.ble_eq]
    omega

/-- Sorting by a key permutes. -/
theorem sortByKeyDesc_perm {α : Type} (key : α → Nat) (l : List α) : (sortByKeyDesc key l).Perm l := by
  refine (buckets_perm_filter key _ l).trans (List.Perm.of_eq ?_)
  rw [List.filter_eq_self]
  exact fun x hx => Nat.ble_eq_true_of_le (maxKey_le key l x hx)

theorem buckets_sorted {α : Type} (key : α → Nat) (n : Nat) (l : List α) :
    (buckets key n l).Pairwise fun a b => key b ≤ key a := by
  induction n with
  | zero =>
    simp only [buckets]
    rw [List.pairwise_iff_forall_sublist]
    intro a b h
    have ha := (List.mem_filter.1 (h.subset (List.mem_cons_self ..))).2
    have hb := (List.mem_filter.1 (h.subset (List.mem_cons_of_mem _ (List.mem_cons_self ..)))).2
    rw [Nat.eq_of_beq_eq_true ha, Nat.eq_of_beq_eq_true hb]
    exact Nat.le_refl _
  | succ n ih =>
    simp only [buckets]
    refine List.pairwise_append.2 ⟨?_, ih, ?_⟩
    · rw [List.pairwise_iff_forall_sublist]
      intro a b h
      have ha := (List.mem_filter.1 (h.subset (List.mem_cons_self ..))).2
      have hb := (List.mem_filter.1 (h.subset (List.mem_cons_of_mem _ (List.mem_cons_self ..)))).2
      rw [Nat.eq_of_beq_eq_true ha, Nat.eq_of_beq_eq_true hb]
      exact Nat.le_refl _
    · intro a ha b hb
      have := Nat.eq_of_beq_eq_true (List.mem_filter.1 ha).2
      have := (mem_buckets.1 hb).2
      omega

/-- Largest key first. -/
theorem sortByKeyDesc_sorted {α : Type} (key : α → Nat) (l : List α) :
    (sortByKeyDesc key l).Pairwise fun a b => key b ≤ key a := buckets_sorted key _ l

theorem filter_buckets {α : Type} (key : α → Nat) (n v : Nat) (l : List α) (hv : v ≤ n) :
    (buckets key n l).filter (fun x => Nat.beq (key x) v) = l.filter fun x => Nat.beq (key x) v := by
  have none : ∀ m, m < v → (buckets key m l).filter (fun x => Nat.beq (key x) v) = [] := by
    intro m hm
    rw [List.filter_eq_nil_iff]
    intro x hx h
    have := (mem_buckets.1 hx).2
    have := Nat.eq_of_beq_eq_true h
    omega
  have same : ∀ m, m ≠ v → (l.filter fun x => Nat.beq (key x) m).filter (fun x => Nat.beq (key x) v) = [] := by
    intro m hm
    rw [List.filter_eq_nil_iff]
    intro x hx h
    have := Nat.eq_of_beq_eq_true (List.mem_filter.1 hx).2
    have := Nat.eq_of_beq_eq_true h
    omega
  have keep : (l.filter fun x => Nat.beq (key x) v).filter (fun x => Nat.beq (key x) v) =
      l.filter fun x => Nat.beq (key x) v := by
    rw [List.filter_eq_self]
    exact fun x hx => (List.mem_filter.1 hx).2
  induction n with
  | zero =>
    cases Nat.le_zero.1 hv
    exact keep
  | succ n ih =>
    simp only [buckets, List.filter_append]
    rcases Nat.lt_or_ge n v with h | h
    · cases (show v = n + 1 by omega)
      rw [keep, none n (by omega), List.append_nil]
    · rw [same (n + 1) (by omega), List.nil_append, ih h]

/-- Elements with equal keys keep their order. -/
theorem sortByKeyDesc_stable {α : Type} (key : α → Nat) (l : List α) (v : Nat) :
    (sortByKeyDesc key l).filter (fun x => Nat.beq (key x) v) = l.filter fun x => Nat.beq (key x) v := by
  rcases Nat.lt_or_ge (maxKey key l) v with h | h
  · have e1 : l.filter (fun x => Nat.beq (key x) v) = [] := by
      rw [List.filter_eq_nil_iff]
      intro x hx hk
      have := maxKey_le key l x hx
      have := Nat.eq_of_beq_eq_true hk
      omega
    rw [e1, List.filter_eq_nil_iff]
    intro x hx hk
    have := maxKey_le key l x ((sortByKeyDesc_perm key l).mem_iff.1 hx)
    have := Nat.eq_of_beq_eq_true hk
    omega
  · exact filter_buckets key _ v l h

/-! ## The order of Python strings -/

theorem strLe_refl (a : PyStr) : strLe a a = true := by
  induction a with
  | nil => rfl
  | cons x a ih => simp only [strLe, Nat.beq_refl, ih]

theorem strLe_total (a b : PyStr) : strLe a b = true ∨ strLe b a = true := by
  induction a generalizing b with
  | nil => exact Or.inl rfl
  | cons x a ih =>
    cases b with
    | nil => exact Or.inr rfl
    | cons y b =>
      simp only [strLe]
      cases h : Nat.beq x y with
      | true =>
        cases Nat.eq_of_beq_eq_true h
        simp only [Nat.beq_refl]
        exact ih b
      | false =>
        have hn : x ≠ y := fun e => by rw [e, Nat.beq_refl] at h; cases h
        have h' : Nat.beq y x = false := by
          rw [← Bool.not_eq_true]; exact fun e => hn (Nat.eq_of_beq_eq_true e).symm
        simp only [h', Nat.ble_eq]
        omega

theorem strLe_antisymm {a b : PyStr} (h1 : strLe a b = true) (h2 : strLe b a = true) : a = b := by
  induction a generalizing b with
  | nil =>
    cases b with
    | nil => rfl
    | cons y b => simp [strLe] at h2
  | cons x a ih =>
    cases b with
    | nil => simp [strLe] at h1
    | cons y b =>
      simp only [strLe] at h1 h2
      cases h : Nat.beq x y with
      | true =>
        cases Nat.eq_of_beq_eq_true h
        simp only [Nat.beq_refl] at h1 h2
        rw [ih h1 h2]
      | false =>
        have hn : x ≠ y := fun e => by rw [e, Nat.beq_refl] at h; cases h
        have h' : Nat.beq y x = false := by
          rw [← Bool.not_eq_true]; exact fun e => hn (Nat.eq_of_beq_eq_true e).symm
        simp only [h, h', Nat.ble_eq] at h1 h2
        omega

theorem strLe_trans {a b c : PyStr} (h1 : strLe a b = true) (h2 : strLe b c = true) :
    strLe a c = true := by
  induction a generalizing b c with
  | nil => rfl
  | cons x a ih =>
    cases b with
    | nil => simp [strLe] at h1
    | cons y b =>
      cases c with
      | nil => simp [strLe] at h2
      | cons z c =>
        simp only [strLe] at h1 h2 ⊢
        cases hxy : Nat.beq x y with
        | true =>
          cases Nat.eq_of_beq_eq_true hxy
          simp only [Nat.beq_refl] at h1
          cases hyz : Nat.beq x z with
          | true =>
            cases Nat.eq_of_beq_eq_true hyz
            simp only [Nat.beq_refl] at h2
            exact ih h1 h2
          | false => simpa only [hyz] using h2
        | false =>
          simp only [hxy, Nat.ble_eq] at h1
          have hn : x ≠ y := fun e => by rw [e, Nat.beq_refl] at hxy; cases hxy
          have hlt : x < z := by
            cases hyz : Nat.beq y z with
            | true => have := Nat.eq_of_beq_eq_true hyz; omega
            | false => simp only [hyz, Nat.ble_eq] at h2; omega
          have hxz : Nat.beq x z = false := by
            rw [← Bool.not_eq_true]; intro e; have := Nat.eq_of_beq_eq_true e; omega
          simp only [hxz, Nat.ble_eq]
          omega

end Verif
