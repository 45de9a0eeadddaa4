import Verif.Lib.ReNeutral

/-!
# `str.replace` and `str.split`
-/

namespace Verif

theorem replaceGo_nil (x y : PyStr) (n : Nat) : replaceGo x y n [] = [] := by
  cases n <;> rfl

theorem replaceGo_skip (x y : PyStr) (n : Nat) (s : PyStr) :
    replaceGo x y n s = replaceGo x y 0 (s.drop n) := by
  induction n generalizing s with
  | zero => rfl
  | succ n ih =>
    cases s with
    | nil => simp [replaceGo_nil]
    | cons c cs => simp only [replaceGo, List.drop_succ_cons, ih]

/-- One step of `str.replace` with a non-empty needle. -/
theorem pyReplace_cons (a : Nat) (x y : PyStr) (c : Nat) (cs : PyStr) :
    pyReplace (c :: cs) (a :: x) y =
      if (a :: x) <+: (c :: cs) then y ++ pyReplace ((c :: cs).drop (a :: x).length) (a :: x) y
      else c :: pyReplace cs (a :: x) y := by
  show replaceGo (a :: x) y 0 (c :: cs) = _
  simp only [replaceGo]
  by_cases h : (a :: x) <+: (c :: cs)
  · have h' : (a :: x).isPrefixOf (c :: cs) = true := List.isPrefixOf_iff_prefix.2 h
    rw [h', if_pos h]
    simp only
    rw [replaceGo_skip]
    rfl
  · have h' : (a :: x).isPrefixOf (c :: cs) = false := by
      rw [← Bool.not_eq_true, List.isPrefixOf_iff_prefix]; exact h
    rw [h', if_neg h]
    rfl

theorem pyReplace_nil (a : Nat) (x y : PyStr) : pyReplace [] (a :: x) y = [] := rfl

theorem interleave_filter {N : Nat → Bool} {y : PyStr} (hy : freeOf N y = true) (s : PyStr) :
    (interleave y s).filter N = s.filter N := by
  induction s with
  | nil => simp [interleave, freeOf_iff.1 hy]
  | cons c s ih => simp [interleave, freeOf_iff.1 hy, List.filter_cons, ih]

/-- Replacing strings free of `N` by strings free of `N` keeps the members of `N`. -/
theorem pyReplace_filter {N : Nat → Bool} {x y : PyStr} (hx : freeOf N x = true) (hy : freeOf N y = true)
    (s : PyStr) : (pyReplace s x y).filter N = s.filter N := by
  cases x with
  | nil => exact interleave_filter hy s
  | cons a x =>
    induction hn : s.length using Nat.strongRecOn generalizing s with
    | _ n ih =>
      cases s with
      | nil => rfl
      | cons c cs =>
        rw [pyReplace_cons]
        split
        · rename_i hp
          obtain ⟨t, ht⟩ := hp
          rw [← ht, List.drop_left, List.filter_append, List.filter_append, freeOf_iff.1 hx, freeOf_iff.1 hy,
            ih t.length (by rw [← hn, ← ht]; simp; omega) t rfl]
        · rw [List.filter_cons, List.filter_cons, ih cs.length (by rw [← hn]; simp) cs rfl]

/-- A needle that does not occur: nothing happens. -/
theorem pyReplace_of_not_infix {x y s : PyStr} (hx : x ≠ []) (h : ¬ x <:+: s) : pyReplace s x y = s := by
  cases x with
  | nil => exact absurd rfl hx
  | cons a x =>
    induction s with
    | nil => rfl
    | cons c cs ih =>
      rw [pyReplace_cons, if_neg (fun hp => h hp.isInfix), ih (fun hi => h (hi.trans (List.suffix_cons c cs).isInfix))]

theorem isInfix_iff {x s : PyStr} : isInfix x s = true ↔ x <:+: s := by
  induction s with
  | nil => cases x <;> simp [isInfix]
  | cons c cs ih =>
    simp only [isInfix, Bool.or_eq_true, ih, List.isPrefixOf_iff_prefix]
    exact List.infix_cons_iff.symm

/-- Characters of the result come from the text or from the replacement. -/
theorem pyReplace_mem {x y s : PyStr} {c : Nat} (h : c ∈ pyReplace s x y) : c ∈ s ∨ c ∈ y := by
  cases x with
  | nil =>
    change c ∈ interleave y s at h
    induction s with
    | nil => exact Or.inr h
    | cons d s ih =>
      simp only [interleave, List.mem_append, List.mem_cons] at h
      rcases h with h | h | h
      · exact Or.inr h
      · exact Or.inl (by simp [h])
      · rcases ih h with h | h
        · exact Or.inl (by simp [h])
        · exact Or.inr h
  | cons a x =>
    induction hn : s.length using Nat.strongRecOn generalizing s with
    | _ n ih =>
      cases s with
      | nil => cases h
      | cons d cs =>
        rw [pyReplace_cons] at h
        split at h
        · rcases List.mem_append.1 h with h | h
          · exact Or.inr h
          · have hl : ((d :: cs).drop (a :: x).length).length < n := by
              rw [← hn]; simp; omega
            rcases ih _ hl h rfl with h | h
            · exact Or.inl (List.mem_of_mem_drop h)
            · exact Or.inr h
        · rcases List.mem_cons.1 h with h | h
          · exact Or.inl (by simp [h])
          · rcases ih cs.length (by rw [← hn]; simp) h rfl with h | h
            · exact Or.inl (by simp [h])
            · exact Or.inr h

/-! ## Splitting -/

theorem splitGo_skip (sep acc : PyStr) (n : Nat) (s : PyStr) :
    splitGo sep n acc s = splitGo sep 0 acc (s.drop n) := by
  induction n generalizing s with
  | zero => rfl
  | succ n ih =>
    cases s with
    | nil => rfl
    | cons c cs => simp only [splitGo, List.drop_succ_cons, ih]

/-- The pieces of `split`, put together, are the text up to separators. -/
theorem splitGo_filter {N : Nat → Bool} {sep : PyStr} (hs : sep ≠ []) (hf : freeOf N sep = true)
    (acc s : PyStr) :
    ((splitGo sep 0 acc s).flatten).filter N = (acc.reverse ++ s).filter N := by
  induction hn : s.length using Nat.strongRecOn generalizing s acc with
  | _ n ih =>
    cases s with
    | nil => simp [splitGo]
    | cons c cs =>
      simp only [splitGo]
      split
      · rename_i hp
        rw [List.isPrefixOf_iff_prefix] at hp
        obtain ⟨t, ht⟩ := hp
        rw [splitGo_skip]
        have hd : cs.drop (sep.length - 1) = t := by
          cases sep with
          | nil => exact absurd rfl hs
          | cons a sep =>
            simp only [List.cons_append, List.cons.injEq] at ht
            rw [← ht.2]
            simp
        have hlt : t.length < n := by
          rw [← hn, ← ht]
          have : 0 < sep.length := List.length_pos_iff.2 hs
          simp; omega
        rw [hd, List.flatten_cons, List.filter_append, ih _ hlt _ _ rfl, ← ht]
        simp [freeOf_iff.1 hf]
      · rw [ih _ (by rw [← hn]; simp) _ _ rfl]
        simp

/-- The pieces of `split`, put together, are the text up to separators. -/
theorem pySplit_filter {N : Nat → Bool} {sep : PyStr} (hs : sep ≠ []) (hf : freeOf N sep = true)
    (s : PyStr) : ((pySplit s sep).flatten).filter N = s.filter N := by
  simpa [pySplit] using splitGo_filter hs hf [] s

theorem splitGo_of_not_infix {sep : PyStr} (acc s : PyStr) (h : ¬ sep <:+: s) :
    splitGo sep 0 acc s = [acc.reverse ++ s] := by
  induction s generalizing acc with
  | nil => simp [splitGo]
  | cons c cs ih =>
    have hp : sep.isPrefixOf (c :: cs) = false := by
      rw [← Bool.not_eq_true, List.isPrefixOf_iff_prefix]
      exact fun hp => h hp.isInfix
    simp only [splitGo, hp]
    rw [ih _ (fun hi => h (hi.trans (List.suffix_cons c cs).isInfix))]
    simp

theorem pySplit_of_not_infix {sep s : PyStr} (h : ¬ sep <:+: s) : pySplit s sep = [s] := by
  simpa [pySplit] using splitGo_of_not_infix [] s h

theorem pyReplace_self {x : PyStr} (hx : x ≠ []) (s : PyStr) : pyReplace s x x = s := by
  cases x with
  | nil => exact absurd rfl hx
  | cons a x =>
    induction hn : s.length using Nat.strongRecOn generalizing s with
    | _ n ih =>
      cases s with
      | nil => rfl
      | cons c cs =>
        rw [pyReplace_cons]
        split
        · rename_i hp
          obtain ⟨t, ht⟩ := hp
          rw [← ht, List.drop_left, ih t.length (by rw [← hn, ← ht]; simp; omega) t rfl]
        · rw [ih cs.length (by rw [← hn]; simp) cs rfl]

theorem pyReplace_hit {k o rest : PyStr} (hk : k ≠ []) : pyReplace (k ++ rest) k o = o ++ pyReplace rest k o := by
  cases k with
  | nil => exact absurd rfl hk
  | cons a x =>
    rw [List.cons_append, pyReplace_cons, if_pos (by rw [← List.cons_append]; exact List.prefix_append _ _),
      ← List.cons_append, List.drop_left]

/-- Is the number in the list? -/
def natMem (m : Nat) : List Nat → Bool
  | [] => false
  | a :: l => cond (Nat.beq a m) true (natMem m l)

theorem natMem_iff {m : Nat} {l : List Nat} : natMem m l = true ↔ m ∈ l := by
  induction l with
  | nil => simp [natMem]
  | cons a l ih =>
    simp only [natMem, List.mem_cons]
    cases h : Nat.beq a m with
    | true => simp [Nat.eq_of_beq_eq_true h]
    | false => simp [ih, Ne.symm (Nat.ne_of_beq_eq_false h)]

end Verif
