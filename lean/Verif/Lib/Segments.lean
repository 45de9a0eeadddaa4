import Verif.Lib.Letterwise
import Verif.Spec.Roman

/-!
# Replacement rules on a text cut into pieces

If no left-hand side of a rule reaches across the border of two pieces, the rules act piece by
piece.
-/

namespace Verif

theorem Apart.tail {K : List PyStr} {p : PyStr} {P : List PyStr} (h : Apart K (p :: P)) : Apart K P :=
  fun a b hi => h a b (hi.trans (List.suffix_cons p P).isInfix)

/-- The needle does not begin inside a piece. -/
theorem pyReplace_pass {k o p rest : PyStr} (hk : k ≠ []) (h1 : ¬ k <:+: p)
    (h2 : ∀ x ∈ p.getLast?, ∀ y ∈ rest.head?, ¬ [x, y] <:+: k) :
    pyReplace (p ++ rest) k o = p ++ pyReplace rest k o := by
  induction p with
  | nil => rfl
  | cons c p ih =>
    cases k with
    | nil => exact absurd rfl hk
    | cons a x =>
      rw [List.cons_append, pyReplace_cons, if_neg]
      · rw [ih (fun hi => h1 (hi.trans (List.suffix_cons c p).isInfix))]
        · rfl
        · intro z hz
          cases p with
          | nil => cases hz
          | cons d p => exact h2 z (by rw [List.getLast?_cons_cons]; exact hz)
      · intro hp
        rw [← List.cons_append] at hp
        obtain ⟨t, ht⟩ := hp
        rcases List.append_eq_append_iff.1 ht with ⟨w, hw1, hw2⟩ | ⟨w, hw1, hw2⟩
        · exact h1 ⟨[], w, by rw [hw1]; simp⟩
        · cases w with
          | nil => exact h1 ⟨[], [], by rw [hw1]; simp⟩
          | cons y w =>
            have hl : (c :: p).getLast? = some ((c :: p).getLast (by simp)) := List.getLast?_eq_some_getLast (by simp)
            refine h2 _ (by rw [hl]; exact rfl) y (by rw [hw2]; rfl) ?_
            rw [hw1]
            refine ⟨(c :: p).dropLast, w, ?_⟩
            conv => rhs; rw [← List.dropLast_concat_getLast (l := c :: p) (by simp)]
            simp

theorem flatten_head {P : List PyStr} (hP : ∀ p ∈ P, p ≠ []) {y : Nat} (h : y ∈ P.flatten.head?) :
    ∃ q Q, P = q :: Q ∧ y ∈ q.head? := by
  cases P with
  | nil => cases h
  | cons q Q =>
    refine ⟨q, Q, rfl, ?_⟩
    cases q with
    | nil => exact absurd rfl (hP [] List.mem_cons_self)
    | cons a q => exact h

theorem pyReplace_pieces {k o : PyStr} (hk : k ≠ []) {P : List PyStr} (hP : ∀ p ∈ P, p ≠ [])
    (hin : ∀ p ∈ P, k <:+: p → p = k) (hadj : Apart [k] P) :
    pyReplace P.flatten k o = (P.map fun p => if p = k then o else p).flatten := by
  induction P with
  | nil => cases k with
    | nil => exact absurd rfl hk
    | cons a x => rfl
  | cons p P ih =>
    have ih := ih (fun q hq => hP q (List.mem_cons_of_mem _ hq)) (fun q hq => hin q (List.mem_cons_of_mem _ hq)) hadj.tail
    rw [List.flatten_cons, List.map_cons, List.flatten_cons, ← ih]
    by_cases h : p = k
    · subst h
      rw [if_pos rfl, pyReplace_hit hk]
    · rw [if_neg h, pyReplace_pass hk (fun hi => h (hin p List.mem_cons_self hi))]
      intro x hx y hy
      obtain ⟨q, Q, rfl, hq⟩ := flatten_head (fun q hq => hP q (List.mem_cons_of_mem _ hq)) hy
      exact hadj p q ⟨[], Q, rfl⟩ x hx y hq k (by simp)

/-- What the rules make of a piece. -/
def pieceImage (L : List (PyStr × PyStr)) (p : PyStr) : PyStr :=
  match L.lookup p with
  | some o => o
  | none => p

theorem pieceImage_nil : pieceImage [] = id := rfl

theorem map_infix {α β : Type} {f : α → β} {l : List α} {x y : β} (h : [x, y] <:+: l.map f) :
    ∃ a b, [a, b] <:+: l ∧ f a = x ∧ f b = y := by
  obtain ⟨s, t, h⟩ := h
  rw [List.append_assoc] at h
  obtain ⟨l1, l2, rfl, h1, h2⟩ := List.map_eq_append_iff.1 h.symm
  obtain ⟨l3, l4, rfl, h3, h4⟩ := List.map_eq_append_iff.1 h2
  match l3, h3 with
  | [a, b], h3 =>
    simp only [List.map_cons, List.map_nil, List.cons.injEq, and_true] at h3
    exact ⟨a, b, ⟨l1, l4, by simp⟩, h3.1, h3.2⟩

/-- Rules sorted by length act piece by piece. -/
theorem applyRules_pieces {L : List (PyStr × PyStr)} {P : List PyStr} (hsort : LongestFirst L)
    (h0 : ∀ r ∈ L, r.1 ≠ []) (hP : ∀ p ∈ P, p ≠ [])
    (hkey : ∀ p ∈ P, (∃ o, (p, o) ∈ L) ∨ ∀ r ∈ L, ¬ r.1 <:+: p)
    (hadj : Apart (L.map Prod.fst) P)
    (hout : ∀ p ∈ P, ∀ o, (p, o) ∈ L → o ≠ [] ∧ ∀ c ∈ o, ∀ r ∈ L, c ∉ r.1) :
    applyRules L P.flatten = (P.map (pieceImage L)).flatten := by
  have key : ∀ (M K : List (PyStr × PyStr)), L = K ++ M →
      applyRules M (P.map (pieceImage K)).flatten = (P.map (pieceImage L)).flatten := by
    intro M
    induction M with
    | nil => intro K hL; rw [List.append_nil] at hL; rw [hL]; rfl
    | cons r M ih =>
      intro K hL
      have hr : r ∈ L := by rw [hL]; simp
      have hKL : ∀ {a b}, (a, b) ∈ K → (a, b) ∈ L := fun h => by rw [hL]; exact List.mem_append_left _ h
      show applyRules M (pyReplace (P.map (pieceImage K)).flatten r.1 r.2) = _
      rw [← ih (K ++ [r]) (by rw [hL]; simp)]
      congr 1
      rw [pyReplace_pieces (h0 r hr)]
      · congr 1
        rw [List.map_map]
        refine List.map_congr_left ?_
        intro p hp
        show (if pieceImage K p = r.1 then r.2 else pieceImage K p) = pieceImage (K ++ [r]) p
        unfold pieceImage
        rw [lookup_snoc]
        cases hK : K.lookup p with
        | some o =>
          simp only
          have ho := hout p hp o (hKL (lookup_mem hK))
          rw [if_neg]
          intro he
          cases o with
          | nil => exact ho.1 rfl
          | cons c o => exact ho.2 c (by simp) r hr (by rw [← he]; simp)
        | none =>
          simp only
          by_cases he : p = r.1
          · rw [if_pos he, if_pos he]
          · rw [if_neg he, if_neg he]
      · intro q hq
        obtain ⟨p, hp, rfl⟩ := List.mem_map.1 hq
        unfold pieceImage
        split
        · rename_i o ho
          exact (hout p hp o (hKL (lookup_mem ho))).1
        · exact hP p hp
      · intro q hq hi
        obtain ⟨p, hp, rfl⟩ := List.mem_map.1 hq
        unfold pieceImage at hi ⊢
        cases hK : K.lookup p with
        | some o =>
          rw [hK] at hi
          simp only at hi
          have ho := hout p hp o (hKL (lookup_mem hK))
          cases hr1 : r.1 with
          | nil => exact absurd hr1 (h0 r hr)
          | cons a x =>
            have ha : a ∈ r.1 := by rw [hr1]; simp
            exact absurd ha (ho.2 a (hi.subset ha) r hr)
        | none =>
          rw [hK] at hi
          simp only at hi ⊢
          rcases hkey p hp with ⟨o, ho⟩ | hno
          · rw [hL] at ho
            rcases List.mem_append.1 ho with ho | ho
            · exact absurd rfl (lookup_none.1 hK _ ho)
            · have hs : L.Pairwise fun p q => q.1.length ≤ p.1.length := hsort
              rw [hL, List.pairwise_append] at hs
              rcases List.mem_cons.1 ho with rfl | ho
              · rfl
              · have := (List.pairwise_cons.1 hs.2.1).1 _ ho
                exact (hi.eq_of_length_le this).symm
          · exact absurd hi (hno r hr)
      · intro a b hab x hx y hy k hk
        rw [List.mem_singleton] at hk
        subst hk
        obtain ⟨p, q, hpq, rfl, rfl⟩ := map_infix hab
        intro hi
        have hp : p ∈ P := hpq.subset (by simp)
        have hq : q ∈ P := hpq.subset (by simp)
        have hxk : x ∈ r.1 := hi.subset (by simp)
        have hyk : y ∈ r.1 := hi.subset (by simp)
        have hxp : x ∈ p.getLast? := by
          unfold pieceImage at hx
          split at hx
          · rename_i o ho
            exact absurd hxk ((hout p hp o (hKL (lookup_mem ho))).2 x (List.mem_of_getLast? hx) r hr)
          · exact hx
        have hyq : y ∈ q.head? := by
          unfold pieceImage at hy
          split at hy
          · rename_i o ho
            exact absurd hyk ((hout q hq o (hKL (lookup_mem ho))).2 y (List.mem_of_head? hy) r hr)
          · exact hy
        exact hadj p q hpq x hxp y hyq r.1 (List.mem_map_of_mem hr) hi
  have h := key L [] rfl
  rwa [pieceImage_nil, List.map_id] at h

end Verif
