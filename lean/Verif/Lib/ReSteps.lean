import Verif.Lib.Basic

/-!
# A relational reading of the regular-expression matcher

`Re.Steps` over-approximates what the backtracking matcher can do: every successful match is a
`Steps` path.  All analyses of `re.sub` are proved against this relation.
-/

namespace Verif

/-- `n` steps of a relation. -/
def IterN {α : Type} (R : α → α → Prop) : Nat → α → α → Prop
  | 0, a, b => b = a
  | n + 1, a, b => ∃ m, R a m ∧ IterN R n m b

/-- Possible moves of the matcher (negative assertions are not tracked). -/
def Re.Steps (U : Uni) : Re → St → St → Prop
  | .eps, a, b => b = a
  | .chr c, a, b => ∃ cs, a.post = c :: cs ∧ b = ⟨c :: a.pre, cs, a.caps⟩
  | .any, a, b => ∃ d cs, a.post = d :: cs ∧ d ≠ 10 ∧ b = ⟨d :: a.pre, cs, a.caps⟩
  | .cls neg items, a, b =>
    ∃ d cs, a.post = d :: cs ∧ (items.any (ClsItem.test U d)) ≠ neg ∧ b = ⟨d :: a.pre, cs, a.caps⟩
  | .seq x y, a, b => ∃ m, Steps U x a m ∧ Steps U y m b
  | .alt x y, a, b => Steps U x a b ∨ Steps U y a b
  | .grp n r, a, b =>
    ∃ m, Steps U r a m ∧ b = { m with caps := (n, a.post.take (a.post.length - m.post.length)) :: m.caps }
  | .ref n, a, b =>
    ∃ v, capOf n a.caps = some v ∧ a.post = v ++ b.post ∧ b.pre = v.reverse ++ a.pre ∧ b.caps = a.caps
  | .rep lo hi _ r, a, b => ∃ n, (lo ≤ n ∧ ∀ h, hi = some h → lo ≤ h → n ≤ h) ∧ IterN (Steps U r) n a b
  | .lookahead neg r, a, b =>
    b = a ∧ neg = true ∨ neg = false ∧ ∃ m, Steps U r a m ∧ b = { a with caps := m.caps }
  | .lookbehind neg w r, a, b =>
    b = a ∧ neg = true ∨ neg = false ∧ ∃ p q m, moveBack w a.pre a.post = some (p, q) ∧
      Steps U r { a with pre := p, post := q } m ∧ b = { a with caps := m.caps }
  | .bol, a, b => b = a ∧ a.pre = []
  | .eol, a, b => b = a ∧ (a.post = [] ∨ a.post = [10])
  | .wordb _, a, b => b = a

theorem eatBlock_some {v pre post p q : PyStr} (h : eatBlock v pre post = some (p, q)) :
    post = v ++ q ∧ p = v.reverse ++ pre := by
  induction v generalizing pre post with
  | nil => simp only [eatBlock, Option.some.injEq, Prod.mk.injEq] at h; simp [h.1, h.2]
  | cons x v ih =>
    cases post with
    | nil => simp [eatBlock] at h
    | cons c cs =>
      simp only [eatBlock] at h
      split at h
      · rename_i hx
        have hx := Nat.eq_of_beq_eq_true hx
        obtain ⟨h1, h2⟩ := ih h
        subst hx
        simp [h1, h2]
      · simp at h

theorem repLoop_steps {R : St → St → Prop} {f : St → (St → Option St) → Option St}
    (hf : ∀ st k res, f st k = some res → ∃ st', R st st' ∧ k st' = some res)
    (lo : Nat) (hi : Option Nat) (g : Bool) (fuel cnt : Nat) (st : St) (k : St → Option St) (res : St)
    (h : repLoop f lo hi g fuel cnt st k = some res) :
    ∃ n st', (min (lo - cnt) fuel ≤ n ∧ ∀ h, hi = some h → lo ≤ h → cnt ≤ h → n ≤ h - cnt) ∧ IterN R n st st' ∧
      k st' = some res := by
  induction fuel generalizing cnt st res with
  | zero => exact ⟨0, st, ⟨by omega, by omega⟩, rfl, h⟩
  | succ fuel ih =>
    unfold repLoop at h
    split at h
    · obtain ⟨st1, h1, h2⟩ := hf _ _ _ h
      obtain ⟨n, st', hn, h3, h4⟩ := ih _ _ _ h2
      exact ⟨n + 1, st', ⟨by omega, fun h e1 e2 e3 => by have := hn.2 h e1 e2 (by omega); omega⟩, ⟨st1, h1, h3⟩, h4⟩
    · rename_i hlo
      split at h
      · exact ⟨0, st, ⟨by omega, by omega⟩, rfl, h⟩
      · rename_i hhi
        have hlt : ∀ h, hi = some h → cnt ≤ h → cnt + 1 ≤ h := by
          rintro b rfl e
          have : b ≠ cnt := fun e' => hhi (by rw [e'])
          omega
        have more : ∀ res, f st (fun st' => if st'.post.length = st.post.length then k st'
            else repLoop f lo hi g fuel (cnt + 1) st' k) = some res →
            ∃ n st', (min (lo - cnt) (fuel + 1) ≤ n ∧ ∀ h, hi = some h → lo ≤ h → cnt ≤ h → n ≤ h - cnt) ∧
              IterN R n st st' ∧ k st' = some res := by
          intro res hm
          obtain ⟨st1, h1, h2⟩ := hf _ _ _ hm
          split at h2
          · exact ⟨1, st1, ⟨by omega, fun h e1 _ e3 => by have := hlt h e1 e3; omega⟩, ⟨st1, h1, rfl⟩, h2⟩
          · obtain ⟨n, st', hn, h3, h4⟩ := ih _ _ _ h2
            exact ⟨n + 1, st', ⟨by omega, fun h e1 e2 e3 => by
              have := hlt h e1 e3; have := hn.2 h e1 e2 this; omega⟩, ⟨st1, h1, h3⟩, h4⟩
        simp only at h
        split at h
        · split at h
          · rename_i r hr
            cases h
            exact more _ hr
          · exact ⟨0, st, ⟨by omega, by omega⟩, rfl, h⟩
        · split at h
          · rename_i r hr
            cases h
            exact ⟨0, st, ⟨by omega, by omega⟩, rfl, hr⟩
          · exact more _ h

/-- Every successful match is a `Steps` path. -/
theorem Re.m_steps (U : Uni) (r : Re) (st : St) (k : St → Option St) (res : St)
    (h : r.m U st k = some res) : ∃ st', r.Steps U st st' ∧ k st' = some res := by
  induction r generalizing st k res with
  | eps => exact ⟨st, rfl, h⟩
  | chr c =>
    simp only [Re.m] at h
    split at h
    · cases h
    · rename_i d cs hp
      split at h
      · rename_i hc
        have hc := Nat.eq_of_beq_eq_true hc
        subst hc
        exact ⟨_, ⟨cs, hp, rfl⟩, h⟩
      · cases h
  | any =>
    simp only [Re.m] at h
    split at h
    · cases h
    · rename_i d cs hp
      split at h
      · cases h
      · rename_i hc
        refine ⟨_, ⟨d, cs, hp, ?_, rfl⟩, h⟩
        rintro rfl
        exact hc rfl
  | cls neg items =>
    simp only [Re.m] at h
    split at h
    · cases h
    · rename_i d cs hp
      split at h
      · rename_i hc
        refine ⟨_, ⟨d, cs, hp, ?_, rfl⟩, h⟩
        simpa using hc
      · cases h
  | seq a b iha ihb =>
    obtain ⟨m, h1, h2⟩ := iha _ _ _ h
    obtain ⟨st', h3, h4⟩ := ihb _ _ _ h2
    exact ⟨st', ⟨m, h1, h3⟩, h4⟩
  | alt a b iha ihb =>
    simp only [Re.m] at h
    split at h
    · rename_i r hr
      cases h
      obtain ⟨st', h1, h2⟩ := iha _ _ _ hr
      exact ⟨st', Or.inl h1, h2⟩
    · obtain ⟨st', h1, h2⟩ := ihb _ _ _ h
      exact ⟨st', Or.inr h1, h2⟩
  | grp n r ih =>
    obtain ⟨m, h1, h2⟩ := ih _ _ _ h
    exact ⟨_, ⟨m, h1, rfl⟩, h2⟩
  | ref n =>
    simp only [Re.m] at h
    split at h
    · cases h
    · rename_i v hv
      split at h
      · cases h
      · rename_i p q hb
        obtain ⟨h1, h2⟩ := eatBlock_some hb
        exact ⟨{ st with pre := p, post := q }, ⟨v, hv, h1, h2, rfl⟩, h⟩
  | rep lo hi g r ih =>
    obtain ⟨n, st', hn, h1, h2⟩ := repLoop_steps ih _ _ _ _ _ _ _ _ h
    exact ⟨st', ⟨n, ⟨by omega, fun h e1 e2 => by simpa using hn.2 h e1 e2 (by omega)⟩, h1⟩, h2⟩
  | lookahead neg r ih =>
    simp only [Re.m] at h
    split at h
    · rename_i st' hs
      split at h
      · cases h
      · rename_i hn
        obtain ⟨m, h1, h2⟩ := ih _ _ _ hs
        cases h2
        exact ⟨_, Or.inr ⟨by simpa using hn, _, h1, rfl⟩, h⟩
    · split at h
      · rename_i hn
        exact ⟨st, Or.inl ⟨rfl, hn⟩, h⟩
      · cases h
  | lookbehind neg w r ih =>
    simp only [Re.m] at h
    split at h
    · split at h
      · rename_i hn
        exact ⟨st, Or.inl ⟨rfl, hn⟩, h⟩
      · cases h
    · rename_i p q hmb
      split at h
      · rename_i st' hs
        split at h
        · cases h
        · rename_i hn
          obtain ⟨m, h1, h2⟩ := ih _ _ _ hs
          cases h2
          exact ⟨_, Or.inr ⟨by simpa using hn, _, _, _, hmb, h1, rfl⟩, h⟩
      · split at h
        · rename_i hn
          exact ⟨st, Or.inl ⟨rfl, hn⟩, h⟩
        · cases h
  | bol =>
    simp only [Re.m] at h
    split at h
    · rename_i hp
      exact ⟨st, ⟨rfl, by simpa using hp⟩, h⟩
    · cases h
  | eol =>
    simp only [Re.m] at h
    split at h
    · rename_i hp; exact ⟨st, ⟨rfl, Or.inl hp⟩, h⟩
    · rename_i c hp
      split at h
      · rename_i hc
        have hc := Nat.eq_of_beq_eq_true hc
        subst hc
        exact ⟨st, ⟨rfl, Or.inr hp⟩, h⟩
      · cases h
    · cases h
  | wordb neg =>
    simp only [Re.m] at h
    split at h
    · cases h
    · split at h
      · exact ⟨st, rfl, h⟩
      · cases h

/-- A path consumes a block of the text. -/
theorem Re.Steps.consumes {U : Uni} {r : Re} {a b : St} (h : r.Steps U a b) :
    ∃ w, a.post = w ++ b.post ∧ b.pre = w.reverse ++ a.pre := by
  induction r generalizing a b with
  | eps => cases h; exact ⟨[], rfl, rfl⟩
  | chr c => obtain ⟨cs, h1, rfl⟩ := h; exact ⟨[c], h1, rfl⟩
  | any => obtain ⟨d, cs, h1, _, rfl⟩ := h; exact ⟨[d], h1, rfl⟩
  | cls neg items => obtain ⟨d, cs, h1, _, rfl⟩ := h; exact ⟨[d], h1, rfl⟩
  | seq x y ihx ihy =>
    obtain ⟨m, h1, h2⟩ := h
    obtain ⟨w1, p1, q1⟩ := ihx h1
    obtain ⟨w2, p2, q2⟩ := ihy h2
    exact ⟨w1 ++ w2, by rw [p1, p2]; simp, by rw [q2, q1]; simp⟩
  | alt x y ihx ihy => exact h.elim ihx ihy
  | grp n r ih =>
    obtain ⟨m, h1, rfl⟩ := h
    obtain ⟨w, p, q⟩ := ih h1
    exact ⟨w, p, q⟩
  | ref n => obtain ⟨v, _, h1, h2, _⟩ := h; exact ⟨v, h1, h2⟩
  | rep lo hi g r ih =>
    obtain ⟨n, hn, h⟩ := h
    clear hn
    induction n generalizing a with
    | zero => cases h; exact ⟨[], rfl, rfl⟩
    | succ n ihn =>
      obtain ⟨m, h1, h2⟩ := h
      obtain ⟨w1, p1, q1⟩ := ih h1
      obtain ⟨w2, p2, q2⟩ := ihn h2
      exact ⟨w1 ++ w2, by rw [p1, p2]; simp, by rw [q2, q1]; simp⟩
  | lookahead neg r ih =>
    rcases h with ⟨rfl, _⟩ | ⟨_, m, _, rfl⟩ <;> exact ⟨[], rfl, rfl⟩
  | lookbehind neg w r ih =>
    rcases h with ⟨rfl, _⟩ | ⟨_, p, q, m, _, _, rfl⟩ <;> exact ⟨[], rfl, rfl⟩
  | bol => exact ⟨[], by rw [h.1]; rfl, by rw [h.1]; rfl⟩
  | eol => exact ⟨[], by rw [h.1]; rfl, by rw [h.1]; rfl⟩
  | wordb neg => cases h; exact ⟨[], rfl, rfl⟩

end Verif
