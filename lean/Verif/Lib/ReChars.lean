import Verif.Lib.ReBlocked

/-!
# Where the characters of a result come from
-/

namespace Verif

/-- All characters of a string satisfy `P`. -/
def AllC (P : Nat → Prop) (s : PyStr) : Prop := ∀ c ∈ s, P c

theorem AllC.append {P : Nat → Prop} {s t : PyStr} : AllC P (s ++ t) ↔ AllC P s ∧ AllC P t := by
  simp only [AllC, List.mem_append]
  exact ⟨fun h => ⟨fun c hc => h c (Or.inl hc), fun c hc => h c (Or.inr hc)⟩,
    fun h c hc => hc.elim (h.1 c) (h.2 c)⟩

theorem AllC.cons {P : Nat → Prop} {c : Nat} {s : PyStr} : AllC P (c :: s) ↔ P c ∧ AllC P s := by
  simp [AllC]

theorem AllC.nil {P : Nat → Prop} : AllC P [] := by simp [AllC]

theorem AllC.reverse {P : Nat → Prop} {s : PyStr} : AllC P s.reverse ↔ AllC P s := by simp [AllC]

theorem pyReplace_all {P : Nat → Prop} {x y s : PyStr} (hs : AllC P s) (hy : AllC P y) :
    AllC P (pyReplace s x y) := fun c hc => (pyReplace_mem hc).elim (hs c) (hy c)

/-- Both sides of the cursor and all captured groups satisfy `P`. -/
def St.AllC (P : Nat → Prop) (st : St) : Prop :=
  Verif.AllC P st.pre ∧ Verif.AllC P st.post ∧ ∀ p ∈ st.caps, Verif.AllC P p.2

theorem moveBack_all {P : Nat → Prop} {n : Nat} {pre post p q : PyStr}
    (h : moveBack n pre post = some (p, q)) (h1 : AllC P pre) (h2 : AllC P post) : AllC P p ∧ AllC P q := by
  induction n generalizing pre post with
  | zero => simp only [moveBack, Option.some.injEq, Prod.mk.injEq] at h; rw [← h.1, ← h.2]; exact ⟨h1, h2⟩
  | succ n ih =>
    cases pre with
    | nil => simp [moveBack] at h
    | cons c pre =>
      rw [AllC.cons] at h1
      exact ih h h1.2 (AllC.cons.2 ⟨h1.1, h2⟩)

theorem Re.Steps.allC {P : Nat → Prop} {U : Uni} {r : Re} {a b : St} (h : r.Steps U a b)
    (ha : a.AllC P) : b.AllC P := by
  have side : Verif.AllC P b.pre ∧ Verif.AllC P b.post := by
    obtain ⟨w, p, q⟩ := h.consumes
    have hp := ha.2.1
    rw [p, AllC.append] at hp
    exact ⟨by rw [q, AllC.append, AllC.reverse]; exact ⟨hp.1, ha.1⟩, hp.2⟩
  refine ⟨side.1, side.2, ?_⟩
  clear side
  induction r generalizing a b with
  | eps => cases h; exact ha.2.2
  | chr c => obtain ⟨cs, _, rfl⟩ := h; exact ha.2.2
  | any => obtain ⟨d, cs, _, _, rfl⟩ := h; exact ha.2.2
  | cls neg items => obtain ⟨d, cs, _, _, rfl⟩ := h; exact ha.2.2
  | seq x y ihx ihy =>
    obtain ⟨m, h1, h2⟩ := h
    have hm : m.AllC P := by
      obtain ⟨w, p, q⟩ := h1.consumes
      have hp := ha.2.1
      rw [p, AllC.append] at hp
      exact ⟨by rw [q, AllC.append, AllC.reverse]; exact ⟨hp.1, ha.1⟩, hp.2, ihx h1 ha⟩
    exact ihy h2 hm
  | alt x y ihx ihy => exact h.elim (fun h => ihx h ha) (fun h => ihy h ha)
  | grp n r ih =>
    obtain ⟨m, h1, rfl⟩ := h
    intro p hp
    rcases List.mem_cons.1 hp with rfl | hp
    · exact fun c hc => ha.2.1 c (List.mem_of_mem_take hc)
    · exact ih h1 ha p hp
  | ref k => obtain ⟨v, _, _, _, h4⟩ := h; rw [h4]; exact ha.2.2
  | rep lo hi g r ih =>
    obtain ⟨n, hn, h⟩ := h
    clear hn
    induction n generalizing a with
    | zero => cases h; exact ha.2.2
    | succ n ihn =>
      obtain ⟨m, h1, h2⟩ := h
      have hm : m.AllC P := by
        obtain ⟨w, p, q⟩ := h1.consumes
        have hp := ha.2.1
        rw [p, AllC.append] at hp
        exact ⟨by rw [q, AllC.append, AllC.reverse]; exact ⟨hp.1, ha.1⟩, hp.2, ih h1 ha⟩
      exact ihn hm h2
  | lookahead neg r ih =>
    rcases h with ⟨rfl, _⟩ | ⟨_, m, hm, rfl⟩
    · exact ha.2.2
    · have := ih hm ha
      exact this
  | lookbehind neg w r ih =>
    rcases h with ⟨rfl, _⟩ | ⟨_, p, q, m, hb, hm, rfl⟩
    · exact ha.2.2
    · have hmb := moveBack_all hb ha.1 ha.2.1
      have := ih hm ⟨hmb.1, hmb.2, ha.2.2⟩
      exact this
  | bol => rw [h.1]; exact ha.2.2
  | eol => rw [h.1]; exact ha.2.2
  | wordb neg => cases h; exact ha.2.2

theorem capOf_mem {n : Nat} {v : PyStr} {l : List (Nat × PyStr)} (h : capOf n l = some v) : (n, v) ∈ l := by
  induction l with
  | nil => simp [capOf] at h
  | cons p l ih =>
    obtain ⟨k, u⟩ := p
    simp only [capOf] at h
    split at h
    · rename_i hk
      cases h
      have := Nat.eq_of_beq_eq_true hk
      simp [this]
    · exact List.mem_cons_of_mem _ (ih h)

/-- All literals of a template satisfy `P`. -/
def LitsAll (P : Nat → Prop) (tm : List TItem) : Prop := ∀ c, TItem.lit c ∈ tm → P c

theorem expand_all {P : Nat → Prop} {caps : List (Nat × PyStr)} (hc : ∀ p ∈ caps, AllC P p.2)
    {tm : List TItem} (ht : LitsAll P tm) : AllC P (expand caps tm) := by
  induction tm with
  | nil => exact AllC.nil
  | cons t tm ih =>
    have ht' : LitsAll P tm := fun c hc => ht c (List.mem_cons_of_mem _ hc)
    cases t with
    | lit c => exact AllC.cons.2 ⟨ht c (by simp), ih ht'⟩
    | ref n =>
      refine AllC.append.2 ⟨?_, ih ht'⟩
      cases h : capOf n caps with
      | none => simp [AllC]
      | some v => exact hc _ (capOf_mem h)

theorem subGo_all {P : Nat → Prop} {U : Uni} {r : Re} {tm : List TItem} (ht : LitsAll P tm)
    (fuel : Nat) (adv : Bool) (pre post : PyStr) (h1 : AllC P pre) (h2 : AllC P post) :
    AllC P (subGo U r tm fuel adv pre post) := by
  induction fuel generalizing adv pre post with
  | zero => exact h2
  | succ fuel ih =>
    simp only [subGo]
    split
    · rename_i s hs
      obtain ⟨st, h3, h4⟩ := Re.m_steps U r _ _ _ hs
      split at h4
      · cases h4
      · cases h4
        have hst : St.AllC P s := h3.allC ⟨h1, h2, by simp⟩
        exact AllC.append.2 ⟨expand_all hst.2.2 ht, ih _ _ _ hst.1 hst.2.1⟩
    · cases post with
      | nil => exact AllC.nil
      | cons c cs =>
        rw [AllC.cons] at h2
        exact AllC.cons.2 ⟨h2.1, ih _ _ _ (AllC.cons.2 ⟨h2.1, h1⟩) h2.2⟩

/-- Characters of the result of `re.sub` come from the text or the template. -/
theorem reSubC_all {P : Nat → Prop} {U : Uni} {r : Re} {tm : List TItem} (ht : LitsAll P tm)
    {s : PyStr} (hs : AllC P s) : AllC P (reSubC U r tm s) := subGo_all ht _ _ _ _ AllC.nil hs

end Verif
