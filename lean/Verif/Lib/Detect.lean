import Verif.Lib.Sorting
import Verif.Lib.Replace
import Verif.Model.Process
import Verif.Spec.Detect

/-!
# Script detection: lemmas
-/

namespace Verif

theorem asciiLowerC_eq (c : Nat) : asciiLowerC c = lowerLetter c := by
  unfold asciiLowerC lowerLetter
  by_cases h1 : 65 ≤ c <;> by_cases h2 : c ≤ 90
  · simp [h1, h2, Nat.ble_eq_true_of_le]
  · have : Nat.ble c 90 = false := by
      cases h : Nat.ble c 90 with
      | false => rfl
      | true => exact absurd (Nat.le_of_ble_eq_true h) h2
    simp [h1, h2, this]
  · have : Nat.ble 65 c = false := by
      cases h : Nat.ble 65 c with
      | false => rfl
      | true => exact absurd (Nat.le_of_ble_eq_true h) h1
    simp [h1, h2, this]
  · have : Nat.ble 65 c = false := by
      cases h : Nat.ble 65 c with
      | false => rfl
      | true => exact absurd (Nat.le_of_ble_eq_true h) h1
    simp [h1, h2, this]

theorem splitGo_space (acc s : PyStr) :
    splitGo (u! " ") 0 acc s = (acc.reverse ++ s.takeWhile (· != 32)) ::
      (match s.dropWhile (· != 32) with
        | [] => []
        | _ :: r => splitGo (u! " ") 0 [] r) := by
  induction s generalizing acc with
  | nil => simp [splitGo]
  | cons c s ih =>
    have hp : (u! " ").isPrefixOf (c :: s) = (c == 32) := by
      simp [List.isPrefixOf, Bool.beq_comm (a := c)]
    simp only [splitGo]
    rw [hp]
    by_cases hc : c = 32
    · subst hc
      simp
    · have h1 : (c == 32) = false := by simpa using hc
      have h2 : (c != 32) = true := by simpa using hc
      simp only [h1, List.takeWhile_cons, h2, List.dropWhile_cons, if_true]
      rw [ih]
      simp

theorem pySplit_space_head (s : PyStr) :
    ∃ ws, pySplit s (u! " ") = s.takeWhile (· != 32) :: ws ∧
      ws.head? = (match s.dropWhile (· != 32) with
        | [] => none
        | _ :: r => some (r.takeWhile (· != 32))) := by
  refine ⟨_, by rw [pySplit, splitGo_space]; rfl, ?_⟩
  cases s.dropWhile (· != 32) with
  | nil => rfl
  | cons a r =>
    show (splitGo _ 0 [] r).head? = _
    rw [splitGo_space]; rfl

theorem scriptWord_eq (E : Env) (c : Nat) : scriptWord E c = charScriptWord E c := by
  unfold scriptWord charScriptWord
  cases E.charName c with
  | none => rfl
  | some n =>
    obtain ⟨ws, h1, h2⟩ := pySplit_space_head n
    have hl : asciiLower = List.map lowerLetter := by
      funext s; exact congrArg (List.map · s) (funext asciiLowerC_eq)
    simp only [h1, List.map_cons, Option.bind_some, nameScript, hl]
    by_cases h : (List.map lowerLetter (n.takeWhile (· != 32))) = u! "old"
    · simp only [h, if_true, strEq_refl]
      rw [List.head?_map, h2]
      cases n.dropWhile (· != 32) <;> rfl
    · simp only [h, if_false, strEq_false.2 h]

/-! ## Counting -/

theorem countStr_eq (w : PyStr) (l : List PyStr) : countStr w l = l.count w := by
  induction l with
  | nil => rfl
  | cons x l ih =>
    simp only [countStr, List.count_cons]
    cases h : strEq x w with
    | true => have := strEq_iff.1 h; subst this; simp [ih]
    | false =>
      have := strEq_false.1 h
      simp [ih, this]

theorem wordCount_eq (E : Env) (w text : PyStr) : countStr w (scriptWords E text) = wordCount E w text := by
  rw [countStr_eq, scriptWords, wordCount]
  induction text with
  | nil => rfl
  | cons c s ih =>
    rw [List.filterMap_cons, List.countP_cons, ← ih, scriptWord_eq]
    cases h : charScriptWord E c with
    | none => simp
    | some v =>
      simp only [List.count_cons]
      by_cases hv : v = w <;> simp [hv]

theorem mem_addKey {l : List PyStr} {w x : PyStr} : x ∈ addKey l w ↔ x ∈ l ∨ x = w := by
  unfold addKey
  cases h : strMem w l with
  | true =>
    have := strMem_iff.1 h
    constructor
    · exact Or.inl
    · rintro (h | rfl) <;> assumption
  | false => simp

theorem nodup_addKey {l : List PyStr} {w : PyStr} (h : l.Nodup) : (addKey l w).Nodup := by
  unfold addKey
  cases hm : strMem w l with
  | true => exact h
  | false =>
    have := strMem_false.1 hm
    rw [List.nodup_append]
    refine ⟨h, by simp, ?_⟩
    intro a ha b hb
    rw [List.mem_singleton] at hb
    subst hb
    rintro rfl
    exact this ha

theorem foldl_addKey (l acc : List PyStr) (hacc : acc.Nodup) :
    (l.foldl addKey acc).Nodup ∧ ∀ x, x ∈ l.foldl addKey acc ↔ x ∈ acc ∨ x ∈ l := by
  induction l generalizing acc with
  | nil => simp [hacc]
  | cons w l ih =>
    obtain ⟨h1, h2⟩ := ih (addKey acc w) (nodup_addKey hacc)
    refine ⟨h1, fun x => ?_⟩
    rw [List.foldl_cons, h2, mem_addKey]
    simp [or_assoc]

theorem distinct_nodup (l : List PyStr) : (distinct l).Nodup := (foldl_addKey l [] (by simp)).1
theorem mem_distinct {l : List PyStr} {x : PyStr} : x ∈ distinct l ↔ x ∈ l := by
  have := (foldl_addKey l [] (by simp)).2 x
  simpa [distinct] using this

theorem distinct_perm {l l' : List PyStr} (h : l.Perm l') : (distinct l).Perm (distinct l') := by
  rw [List.perm_ext_iff_of_nodup (distinct_nodup l) (distinct_nodup l')]
  intro a
  rw [mem_distinct, mem_distinct]
  exact h.mem_iff

theorem scriptCounts_perm {l l' : List PyStr} (h : l.Perm l') : (scriptCounts l).Perm (scriptCounts l') := by
  have : (fun w => (countStr w l, w)) = fun w => (countStr w l', w) := by
    funext w
    rw [countStr_eq, countStr_eq, h.count_eq]
  unfold scriptCounts
  rw [this]
  exact (distinct_perm h).map _

/-! ## The order of `(count, word)` pairs -/

theorem ble_total (a b : Nat) : Nat.ble a b = true ∨ Nat.ble b a = true :=
  (Nat.le_total a b).imp Nat.ble_eq_true_of_le Nat.ble_eq_true_of_le

theorem rankLe_iff {p q : Nat × PyStr} :
    rankLe p q = true ↔ p.1 < q.1 ∨ p.1 = q.1 ∧ strLe p.2 q.2 = true := by
  unfold rankLe
  cases h : Nat.beq p.1 q.1 with
  | true =>
    have := Nat.eq_of_beq_eq_true h
    simp [this]
  | false =>
    have := Nat.ne_of_beq_eq_false h
    constructor
    · intro h
      exact .inl (Nat.lt_of_le_of_ne (Nat.le_of_ble_eq_true h) this)
    · rintro (h | h)
      · exact Nat.ble_eq_true_of_le (Nat.le_of_lt h)
      · exact absurd h.1 this

theorem rankLe_total (p q : Nat × PyStr) : rankLe p q = true ∨ rankLe q p = true := by
  rw [rankLe_iff, rankLe_iff]
  rcases Nat.lt_trichotomy p.1 q.1 with h | h | h
  · exact .inl (.inl h)
  · exact (strLe_total p.2 q.2).imp (fun x => .inr ⟨h, x⟩) fun x => .inr ⟨h.symm, x⟩
  · exact .inr (.inl h)

theorem rankLe_trans (p q r : Nat × PyStr) (h1 : rankLe p q = true) (h2 : rankLe q r = true) :
    rankLe p r = true := by
  rw [rankLe_iff] at *
  rcases h1 with h1 | ⟨h1, h1'⟩ <;> rcases h2 with h2 | ⟨h2, h2'⟩
  · exact .inl (by omega)
  · exact .inl (by omega)
  · exact .inl (by omega)
  · exact .inr ⟨by omega, strLe_trans h1' h2'⟩

theorem rankLe_antisymm {p q : Nat × PyStr} (h1 : rankLe p q = true) (h2 : rankLe q p = true) : p = q := by
  rw [rankLe_iff] at *
  rcases h1 with h1 | ⟨h1, h1'⟩ <;> rcases h2 with h2 | ⟨h2, h2'⟩
  · omega
  · omega
  · omega
  · exact Prod.ext h1 (strLe_antisymm h1' h2')

theorem sortedCounts_perm {l l' : List PyStr} (h : l.Perm l') : sortedCounts l = sortedCounts l' := by
  apply List.Perm.eq_of_pairwise (le := fun a b => rankLe a b = true)
  · intro a b _ _ h1 h2; exact rankLe_antisymm h1 h2
  · exact stableSort_sorted rankLe_total rankLe_trans _
  · exact stableSort_sorted rankLe_total rankLe_trans _
  · exact ((stableSort_perm _ _).trans (scriptCounts_perm h)).trans (stableSort_perm _ _).symm

/-- The greatest entry. -/
theorem sortedCounts_top (words : List PyStr) :
    (words = [] ∧ (sortedCounts words).reverse = [])
    ∨ ∃ w rest, (sortedCounts words).reverse = (countStr w words, w) :: rest ∧ w ∈ words
      ∧ (∀ v ∈ words, rankLe (countStr v words, v) (countStr w words, w) = true)
      ∧ (∀ q ∈ rest, ∃ v ∈ words, v ≠ w ∧ q = (countStr v words, v)) := by
  have hperm := stableSort_perm rankLe (scriptCounts words)
  have hmem : ∀ p, p ∈ (sortedCounts words).reverse ↔ ∃ v ∈ words, p = (countStr v words, v) := by
    intro p
    rw [List.mem_reverse, sortedCounts, hperm.mem_iff, scriptCounts, List.mem_map]
    constructor
    · rintro ⟨v, hv, rfl⟩; exact ⟨v, mem_distinct.1 hv, rfl⟩
    · rintro ⟨v, hv, rfl⟩; exact ⟨v, mem_distinct.2 hv, rfl⟩
  have hsort : ((sortedCounts words).reverse).Pairwise fun a b => rankLe b a = true := by
    rw [List.pairwise_reverse]
    exact stableSort_sorted rankLe_total rankLe_trans _
  have hnd : ((sortedCounts words).reverse).Nodup := by
    rw [(List.reverse_perm _).nodup_iff, sortedCounts, hperm.nodup_iff, scriptCounts]
    have := distinct_nodup words
    unfold List.Nodup at *
    rw [List.pairwise_map]
    exact this.imp fun hab h => hab (congrArg Prod.snd h)
  cases hr : (sortedCounts words).reverse with
  | nil =>
    left
    refine ⟨?_, rfl⟩
    rw [hr] at hmem
    cases words with
    | nil => rfl
    | cons v l => exact absurd ((hmem (countStr v (v :: l), v)).2 ⟨v, by simp, rfl⟩) (by simp)
  | cons p rest =>
    right
    rw [hr] at hmem hsort hnd
    obtain ⟨w, hw, rfl⟩ := (hmem p).1 (by simp)
    refine ⟨w, rest, rfl, hw, ?_, ?_⟩
    · intro v hv
      rcases List.mem_cons.1 ((hmem (countStr v words, v)).2 ⟨v, hv, rfl⟩) with h | h
      · rw [h]; rw [rankLe_iff]; exact .inr ⟨rfl, strLe_refl _⟩
      · exact (List.pairwise_cons.1 hsort).1 _ h
    · intro q hq
      obtain ⟨v, hv, rfl⟩ := (hmem q).1 (List.mem_cons_of_mem _ hq)
      refine ⟨v, hv, ?_, rfl⟩
      rintro rfl
      exact (List.nodup_cons.1 hnd).1 hq

end Verif
