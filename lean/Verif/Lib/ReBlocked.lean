import Verif.Lib.Replace

/-!
# Expressions that cannot match a text over a given alphabet
-/

namespace Verif

/-- Every character of the string is in the alphabet. -/
def Over (A : CharSet) (s : PyStr) : Prop := ∀ c ∈ s, A.mem c = true

theorem Over.append {A : CharSet} {s t : PyStr} : Over A (s ++ t) ↔ Over A s ∧ Over A t := by
  simp only [Over, List.mem_append]
  exact ⟨fun h => ⟨fun c hc => h c (Or.inl hc), fun c hc => h c (Or.inr hc)⟩,
    fun h c hc => hc.elim (h.1 c) (h.2 c)⟩

theorem Over.cons {A : CharSet} {c : Nat} {s : PyStr} : Over A (c :: s) ↔ A.mem c = true ∧ Over A s := by
  simp [Over]

theorem Over.nil {A : CharSet} : Over A [] := by simp [Over]

theorem Over.reverse {A : CharSet} {s : PyStr} : Over A s.reverse ↔ Over A s := by simp [Over]

/-- Both sides of the cursor are over the alphabet. -/
def St.OverA (A : CharSet) (st : St) : Prop := Over A st.pre ∧ Over A st.post

/-- On a text over the alphabet the expression cannot match. -/
def Re.blocked (A : CharSet) : Re → Bool
  | .chr c => match A.mem c with | true => false | false => true
  | .cls neg items => match neg with | true => false | false => itemsOut A items
  | .seq a b => match a.blocked A with | true => true | false => b.blocked A
  | .alt a b => match a.blocked A with | true => b.blocked A | false => false
  | .grp _ r => r.blocked A
  | .rep lo _ _ r => match lo with | 0 => false | _ + 1 => r.blocked A
  | .lookahead neg r => match neg with | true => false | false => r.blocked A
  | .lookbehind neg _ r => match neg with | true => false | false => r.blocked A
  | _ => false

theorem Re.Steps.overA {A : CharSet} {U : Uni} {r : Re} {a b : St} (h : r.Steps U a b)
    (ha : a.OverA A) : b.OverA A := by
  obtain ⟨w, p, q⟩ := h.consumes
  have hp := ha.2
  rw [p, Over.append] at hp
  exact ⟨by rw [q, Over.append, Over.reverse]; exact ⟨hp.1, ha.1⟩, hp.2⟩

theorem moveBack_over {A : CharSet} {n : Nat} {pre post p q : PyStr}
    (h : moveBack n pre post = some (p, q)) (h1 : Over A pre) (h2 : Over A post) : Over A p ∧ Over A q := by
  induction n generalizing pre post with
  | zero => simp only [moveBack, Option.some.injEq, Prod.mk.injEq] at h; rw [← h.1, ← h.2]; exact ⟨h1, h2⟩
  | succ n ih =>
    cases pre with
    | nil => simp [moveBack] at h
    | cons c pre =>
      rw [Over.cons] at h1
      exact ih h h1.2 (Over.cons.2 ⟨h1.1, h2⟩)

theorem Re.blocked_sound {A : CharSet} {U : Uni} {r : Re} (hr : r.blocked A = true) {a b : St}
    (ha : a.OverA A) (h : r.Steps U a b) : False := by
  induction r generalizing a b with
  | chr c =>
    obtain ⟨cs, h1, _⟩ := h
    have := ha.2
    rw [h1, Over.cons] at this
    simp [Re.blocked, this.1] at hr
  | cls neg items =>
    obtain ⟨d, cs, h1, h2, _⟩ := h
    have := ha.2
    rw [h1, Over.cons] at this
    cases neg with
    | true => simp [Re.blocked] at hr
    | false =>
      have h3 := itemsOut_sound hr (U := U) (c := d) (by simpa using h2)
      rw [this.1] at h3
      cases h3
  | seq x y ihx ihy =>
    obtain ⟨m, h1, h2⟩ := h
    simp only [Re.blocked] at hr
    split at hr
    · rename_i hx; exact ihx hx ha h1
    · exact ihy hr (h1.overA ha) h2
  | alt x y ihx ihy =>
    simp only [Re.blocked] at hr
    split at hr
    · rename_i hx
      exact h.elim (fun h => ihx hx ha h) (fun h => ihy hr ha h)
    · cases hr
  | grp n r ih => obtain ⟨m, h1, _⟩ := h; exact ih hr ha h1
  | rep lo hi g r ih =>
    obtain ⟨n, hn, h⟩ := h
    cases lo with
    | zero => simp [Re.blocked] at hr
    | succ lo =>
      cases n with
      | zero => omega
      | succ n =>
        obtain ⟨m, h1, _⟩ := h
        exact ih hr ha h1
  | lookahead neg r ih =>
    cases neg with
    | true => simp [Re.blocked] at hr
    | false =>
      rcases h with ⟨_, h⟩ | ⟨_, m, hm, _⟩
      · cases h
      · exact ih hr ha hm
  | lookbehind neg w r ih =>
    cases neg with
    | true => simp [Re.blocked] at hr
    | false =>
      rcases h with ⟨_, h⟩ | ⟨_, p, q, m, hb, hm, _⟩
      · cases h
      · exact ih hr (moveBack_over hb ha.1 ha.2) hm
  | _ => simp [Re.blocked] at hr

theorem subGo_blocked {A : CharSet} {U : Uni} {r : Re} {tm : List TItem} (h : r.blocked A = true)
    (fuel : Nat) (adv : Bool) (pre post : PyStr) (h1 : Over A pre) (h2 : Over A post) :
    subGo U r tm fuel adv pre post = post := by
  induction fuel generalizing adv pre post with
  | zero => rfl
  | succ fuel ih =>
    simp only [subGo]
    split
    · rename_i s hs
      obtain ⟨st, h3, _⟩ := Re.m_steps U r _ _ _ hs
      exact (Re.blocked_sound h ⟨h1, h2⟩ h3).elim
    · cases post with
      | nil => rfl
      | cons c cs =>
        rw [Over.cons] at h2
        simp only
        rw [ih _ _ _ (Over.cons.2 ⟨h2.1, h1⟩) h2.2]

/-- `re.sub` leaves a text over the alphabet alone. -/
theorem reSubC_blocked {A : CharSet} {U : Uni} {r : Re} {tm : List TItem} (h : r.blocked A = true)
    {s : PyStr} (hs : Over A s) : reSubC U r tm s = s := subGo_blocked h _ _ _ _ Over.nil hs

/-- The string has a character outside the alphabet. -/
def outside (A : CharSet) : PyStr → Bool
  | [] => false
  | c :: s =>
    match A.mem c with
    | true => outside A s
    | false => true

theorem outside_sound {A : CharSet} {x : PyStr} (h : outside A x = true) : ∃ c ∈ x, A.mem c = false := by
  induction x with
  | nil => simp [outside] at h
  | cons c x ih =>
    simp only [outside] at h
    split at h
    · obtain ⟨d, hd, h'⟩ := ih h
      exact ⟨d, by simp [hd], h'⟩
    · rename_i hc
      exact ⟨c, by simp, hc⟩

theorem outside_not_infix {A : CharSet} {x s : PyStr} (h : outside A x = true) (hs : Over A s) :
    ¬ x <:+: s := by
  intro hi
  obtain ⟨c, hc, h'⟩ := outside_sound h
  rw [hs c (hi.subset hc)] at h'
  cases h'

theorem outside_ne_nil {A : CharSet} {x : PyStr} (h : outside A x = true) : x ≠ [] := by
  rintro rfl; simp [outside] at h

theorem pyReplace_outside {A : CharSet} {x y s : PyStr} (h : outside A x = true) (hs : Over A s) :
    pyReplace s x y = s := pyReplace_of_not_infix (outside_ne_nil h) (outside_not_infix h hs)

end Verif
