import Verif.Lib.Numerals
import Verif.Core.Prog
import Verif.Spec.Encoding

/-!
# Programs that do not see in which of two ways a letter is spelt
-/

namespace Verif

abbrev Spell := List (Nat × PyStr)

def Spell.signs (P : Spell) : PyStr := P.map (·.1)
def Spell.heads (P : Spell) : PyStr := P.flatMap fun p => p.2.take 1
def Spell.tails (P : Spell) : PyStr := P.flatMap fun p => p.2.drop 1

theorem natMem_off {c : Nat} {l : PyStr} : natMem c l = false ↔ c ∉ l := by
  rw [← Bool.not_eq_true, natMem_iff]

/-- No character of the first list is in the second. -/
def apartFrom (a b : PyStr) : Bool := a.all fun c => !(natMem c b)

theorem apartFrom_iff {a b : PyStr} : apartFrom a b = true ↔ ∀ c ∈ a, c ∉ b := by
  simp [apartFrom, List.all_eq_true, natMem_off]

/-- The spellings cannot be mixed up with one another. -/
def Spell.wf : Spell → Bool
  | [] => true
  | (c, x) :: P =>
    (match x with
      | [] => false
      | b :: t =>
        apartFrom [b, c] (t ++ (Spell.signs P ++ Spell.heads P ++ Spell.tails P))
        && !(Nat.beq b c) && apartFrom t (c :: b :: (Spell.signs P ++ Spell.heads P)))
    && Spell.wf P

theorem spellChar_other {P : Spell} {c : Nat} (h : c ∉ P.signs) : spellChar P c = [c] := by
  induction P with
  | nil => rfl
  | cons p P ih =>
    obtain ⟨a, x⟩ := p
    simp only [Spell.signs, List.map_cons, List.mem_cons, not_or] at h
    simp only [spellChar]
    rw [show Nat.beq a c = false by rw [← Bool.not_eq_true, Nat.beq_eq]; exact fun e => h.1 e.symm]
    exact ih h.2

theorem spellOut_other {P : Spell} {s : PyStr} (h : ∀ c ∈ s, c ∉ P.signs) : spellOut P s = s := by
  induction s with
  | nil => rfl
  | cons c s ih =>
    show spellChar P c ++ spellOut P s = _
    rw [spellChar_other (h c (by simp)), ih fun d hd => h d (List.mem_cons_of_mem _ hd)]
    rfl

theorem spellOut_append (P : Spell) (a b : PyStr) : spellOut P (a ++ b) = spellOut P a ++ spellOut P b :=
  List.flatMap_append

/-- A sign of the table is spelt with a head and tails. -/
theorem spellChar_sign {P : Spell} (hw : P.wf = true) {c : Nat} (h : c ∈ P.signs) :
    ∃ b t, spellChar P c = b :: t ∧ b ∈ P.heads ∧ (∀ d ∈ t, d ∈ P.tails) := by
  induction P with
  | nil => cases h
  | cons p P ih =>
    obtain ⟨a, x⟩ := p
    simp only [Spell.wf, Bool.and_eq_true] at hw
    cases x with
    | nil => exact absurd hw.1 (by simp)
    | cons b t =>
      simp only [spellChar]
      cases e : Nat.beq a c with
      | true => exact ⟨b, t, rfl, by simp [Spell.heads], fun d hd => by simp [Spell.tails, hd]⟩
      | false =>
        have hne : a ≠ c := by rw [← Bool.not_eq_true, Nat.beq_eq] at e; exact e
        simp only [Spell.signs, List.map_cons, List.mem_cons] at h
        rcases h with h | h
        · exact absurd h.symm hne
        · obtain ⟨b', t', h1, h2, h3⟩ := ih hw.2 h
          exact ⟨b', t', h1, by simp only [Spell.heads, List.flatMap_cons, List.mem_append]; exact .inr h2,
            fun d hd => by simp only [Spell.tails, List.flatMap_cons, List.mem_append]; exact .inr (h3 d hd)⟩

/-- A word without signs and heads begins a text if it begins the text spelt out. -/
theorem prefix_spell {P : Spell} (hw : P.wf = true) {t : PyStr} (h1 : ∀ c ∈ t, c ∉ P.signs) (h2 : ∀ c ∈ t, c ∉ P.heads)
    (s : PyStr) : t <+: spellOut P s ↔ t <+: s := by
  induction t generalizing s with
  | nil => simp
  | cons a t ih =>
    cases s with
    | nil => simp [spellOut]
    | cons c s =>
      show a :: t <+: spellChar P c ++ spellOut P s ↔ _
      by_cases hc : c ∈ P.signs
      · obtain ⟨b, u, e, hb, -⟩ := spellChar_sign hw hc
        rw [e, List.cons_append, List.cons_prefix_cons, List.cons_prefix_cons]
        constructor
        · rintro ⟨rfl, -⟩; exact absurd hb (h2 a (by simp))
        · rintro ⟨rfl, -⟩; exact absurd hc (h1 a (by simp))
      · rw [spellChar_other hc, List.singleton_append, List.cons_prefix_cons, List.cons_prefix_cons,
          ih (fun d hd => h1 d (List.mem_cons_of_mem _ hd)) fun d hd => h2 d (List.mem_cons_of_mem _ hd)]

/-- Replacing a word does not interfere with the spelling. -/
theorem replace_spell {P : Spell} (hw : P.wf = true) {b : Nat} {t y : PyStr} (h1 : ∀ c ∈ b :: t, c ∉ P.signs)
    (h2 : ∀ c ∈ b :: t, c ∉ P.heads) (h3 : b ∉ P.tails) (hy : ∀ c ∈ y, c ∉ P.signs) (s : PyStr) :
    pyReplace (spellOut P s) (b :: t) y = spellOut P (pyReplace s (b :: t) y) := by
  induction hn : s.length using Nat.strongRecOn generalizing s with
  | ind n ih =>
  cases s with
  | nil => rfl
  | cons a s =>
    by_cases hp : b :: t <+: a :: s
    · obtain ⟨r, hr⟩ := hp
      rw [← hr, spellOut_append, spellOut_other h1, pyReplace_hit (by simp), pyReplace_hit (by simp), spellOut_append,
        spellOut_other hy, ih r.length (by rw [← hn, ← hr]; simp; omega) r rfl]
    · have hp' : ¬ b :: t <+: spellOut P (a :: s) := by rwa [prefix_spell hw h1 h2]
      rw [pyReplace_cons, if_neg hp]
      show pyReplace (spellChar P a ++ spellOut P s) (b :: t) y = spellChar P a ++ spellOut P _
      rw [pyReplace_skip (by simp), ih s.length (by rw [← hn]; simp) s rfl]
      intro d' hd hne hpre
      by_cases ha : a ∈ P.signs
      · obtain ⟨b', u, e, hb, hu⟩ := spellChar_sign hw ha
        rw [e] at hd
        cases d' with
        | nil => exact hne rfl
        | cons x d' =>
          rw [List.cons_append, List.cons_prefix_cons] at hpre
          obtain ⟨rfl, -⟩ := hpre
          have : b ∈ b' :: u := hd.subset (by simp)
          rcases List.mem_cons.1 this with rfl | h
          · exact h2 b (by simp) hb
          · exact h3 (hu b h)
      · rw [spellChar_other ha] at hd
        have : d' = [a] := by
          rcases List.suffix_cons_iff.1 hd with h | h
          · exact h
          · exact absurd (List.suffix_nil.1 h) hne
        subst this
        apply hp'
        show b :: t <+: spellChar P a ++ spellOut P s
        rwa [spellChar_other ha]

theorem wf_cons {c b : Nat} {t : PyStr} {P : Spell} (h : Spell.wf ((c, b :: t) :: P) = true) :
    P.wf = true ∧ b ≠ c ∧ c ∉ P.signs ∧ c ∉ P.heads ∧ c ∉ P.tails ∧ c ∉ t ∧ b ∉ P.signs ∧ b ∉ P.heads ∧ b ∉ P.tails ∧ b ∉ t
    ∧ (∀ d ∈ t, d ∉ P.signs) ∧ ∀ d ∈ t, d ∉ P.heads := by
  simp only [Spell.wf, Bool.and_eq_true, apartFrom_iff, Bool.not_eq_true', ← Bool.not_eq_true, Nat.beq_eq] at h
  obtain ⟨⟨⟨h1, h2⟩, h3⟩, h4⟩ := h
  have hb := h1 b (by simp)
  have hc := h1 c (by simp)
  simp only [List.mem_append, not_or] at hb hc
  refine ⟨h4, h2, hc.2.1.1, hc.2.1.2, hc.2.2, hc.1, hb.2.1.1, hb.2.1.2, hb.2.2, hb.1, fun d hd => ?_, fun d hd => ?_⟩
  · exact fun h => h3 d hd (by simp [h])
  · exact fun h => h3 d hd (by simp [h])

/-- Composing a letter takes it off the list. -/
theorem compose_spell {c b : Nat} {t : PyStr} {P : Spell} (hw : Spell.wf ((c, b :: t) :: P) = true) (s : PyStr) :
    pyReplace (spellOut ((c, b :: t) :: P) s) (b :: t) [c] = spellOut P (pyReplace s (b :: t) [c]) := by
  obtain ⟨w, bc, cs, ch, ct, ctt, bs, bh, bt, btt, ts, th⟩ := wf_cons hw
  have sx : ∀ d ∈ b :: t, d ∉ Spell.signs ((c, b :: t) :: P) := by
    intro d hd hm
    simp only [Spell.signs, List.map_cons, List.mem_cons] at hm hd
    rcases hd with rfl | hd
    · rcases hm with e | hm
      · exact bc e
      · exact bs hm
    · rcases hm with rfl | hm
      · exact ctt hd
      · exact ts d hd hm
  have tx : ∀ d ∈ t, d ∉ Spell.heads ((c, b :: t) :: P) := by
    intro d hd hm
    simp only [Spell.heads, List.flatMap_cons, List.mem_append, List.take_succ_cons, List.take_zero, List.mem_singleton] at hm
    rcases hm with rfl | hm
    · exact btt hd
    · exact th d hd hm
  induction hn : s.length using Nat.strongRecOn generalizing s with
  | ind n ih =>
  cases s with
  | nil => rfl
  | cons a s =>
    by_cases hp : b :: t <+: a :: s
    · obtain ⟨r, hr⟩ := hp
      rw [← hr, spellOut_append, spellOut_other sx, pyReplace_hit (by simp), pyReplace_hit (by simp), spellOut_append,
        spellOut_other (s := [c]) (by simpa using cs), ih r.length (by rw [← hn, ← hr]; simp; omega) r rfl]
    · rw [pyReplace_cons, if_neg hp]
      show pyReplace (spellChar _ a ++ spellOut _ s) (b :: t) [c] = spellChar P a ++ spellOut P _
      by_cases hac : a = c
      · subst hac
        rw [show spellChar ((a, b :: t) :: P) a = b :: t by simp [spellChar], pyReplace_hit (by simp), spellChar_other cs,
          ih s.length (by rw [← hn]; simp) s rfl]
      have e : spellChar ((c, b :: t) :: P) a = spellChar P a := by
        simp only [spellChar]
        rw [show Nat.beq c a = false by rw [← Bool.not_eq_true, Nat.beq_eq]; exact fun e => hac e.symm]
      rw [e, pyReplace_skip (by simp), ih s.length (by rw [← hn]; simp) s rfl]
      intro d' hd hne hpre
      by_cases ha : a ∈ P.signs
      · obtain ⟨b', u, e, hb, hu⟩ := spellChar_sign w ha
        rw [e] at hd
        cases d' with
        | nil => exact hne rfl
        | cons x d' =>
          rw [List.cons_append, List.cons_prefix_cons] at hpre
          obtain ⟨rfl, -⟩ := hpre
          have : b ∈ b' :: u := hd.subset (by simp)
          rcases List.mem_cons.1 this with rfl | h
          · exact bh hb
          · exact bt (hu b h)
      · rw [spellChar_other ha] at hd
        have : d' = [a] := by
          rcases List.suffix_cons_iff.1 hd with h | h
          · exact h
          · exact absurd (List.suffix_nil.1 h) hne
        subst this
        rw [List.singleton_append, List.cons_prefix_cons, prefix_spell hw (fun d hd => sx d (List.mem_cons_of_mem _ hd)) tx] at hpre
        exact hp (by rw [List.cons_prefix_cons]; exact hpre)

/-! ## Programs -/

/-- Replacing `x` by `y` does not interfere with the spelling. -/
def Spell.calmRep (P : Spell) (x y : PyStr) : Bool :=
  match x with
  | [] => false
  | b :: _ => apartFrom x (P.signs ++ P.heads) && !(natMem b P.tails) && apartFrom y P.signs

/-- The condition does not see the spelling. -/
def Spell.calmCond (P : Spell) : Cond → Bool
  | .static _ => true
  | .has [c] => !(natMem c (P.signs ++ P.heads ++ P.tails))
  | .not c => Spell.calmCond P c
  | .and a b => Spell.calmCond P a && Spell.calmCond P b
  | .or a b => Spell.calmCond P a && Spell.calmCond P b
  | _ => false

/-- The program does not interfere with the spelling. -/
def Spell.calmProg (P : Spell) : Prog → Bool
  | .done => true
  | .rep x y k => P.calmRep x y && Spell.calmProg P k
  | .ite c t e k => P.calmCond c && Spell.calmProg P t && Spell.calmProg P e && Spell.calmProg P k
  | _ => false

/-- The program composes the letters of the table, one after another, before it does anything else with them. -/
def Prog.absorbs : Spell → Prog → Bool
  | [], _ => true
  | (c, x) :: P, .rep x' y k =>
    match strEq x x' && strEq y [c] with
    | true => Prog.absorbs P k
    | false => Spell.calmRep ((c, x) :: P) x' y && Prog.absorbs ((c, x) :: P) k
  | p :: P, .ite c t e k =>
    Spell.calmCond (p :: P) c && Spell.calmProg (p :: P) t && Spell.calmProg (p :: P) e && Prog.absorbs (p :: P) k
  | _ :: _, _ => false

theorem calmRep_sound {P : Spell} (hw : P.wf = true) {x y : PyStr} (h : P.calmRep x y = true) (s : PyStr) :
    pyReplace (spellOut P s) x y = spellOut P (pyReplace s x y) := by
  cases x with
  | nil => cases h
  | cons b t =>
    simp only [Spell.calmRep, Bool.and_eq_true, apartFrom_iff, Bool.not_eq_true', natMem_off, List.mem_append, not_or] at h
    exact replace_spell hw (fun c hc => (h.1.1 c hc).1) (fun c hc => (h.1.1 c hc).2) h.1.2 h.2 s

theorem isInfix_single {c : Nat} {s : PyStr} : isInfix [c] s = true ↔ c ∈ s := by
  induction s with
  | nil => simp [isInfix]
  | cons a s ih =>
    simp only [isInfix, Bool.or_eq_true, ih, List.mem_cons, List.isPrefixOf_iff_prefix, List.cons_prefix_cons, List.nil_prefix, and_true]

theorem mem_spellOut {P : Spell} (hw : P.wf = true) {c : Nat} (h : c ∉ P.signs ++ P.heads ++ P.tails) {s : PyStr} :
    c ∈ spellOut P s ↔ c ∈ s := by
  simp only [List.mem_append, not_or] at h
  induction s with
  | nil => rfl
  | cons a s ih =>
    show c ∈ spellChar P a ++ spellOut P s ↔ _
    rw [List.mem_append, ih, List.mem_cons]
    by_cases ha : a ∈ P.signs
    · obtain ⟨b, u, e, hb, hu⟩ := spellChar_sign hw ha
      rw [e]
      constructor
      · rintro (hm | hm)
        · rcases List.mem_cons.1 hm with rfl | hm
          · exact absurd hb h.1.2
          · exact absurd (hu c hm) h.2
        · exact .inr hm
      · rintro (rfl | hm)
        · exact absurd ha h.1.1
        · exact .inr hm
    · rw [spellChar_other ha, List.mem_singleton]

theorem calmCond_sound {P : Spell} (hw : P.wf = true) {c : Cond} (h : P.calmCond c = true) (s : PyStr) :
    c.eval (spellOut P s) = c.eval s := by
  induction c with
  | static b => rfl
  | has x =>
    match x, h with
    | [c], h =>
      simp only [Spell.calmCond, Bool.not_eq_true', natMem_off] at h
      have := mem_spellOut hw h (s := s)
      simp only [Cond.eval]
      rw [Bool.eq_iff_iff, isInfix_single, isInfix_single]
      exact this
    | [], h => cases h
    | _ :: _ :: _, h => cases h
  | hasAny xs => cases h
  | not c ih => simp only [Cond.eval, ih h]
  | and a b iha ihb =>
    simp only [Spell.calmCond, Bool.and_eq_true] at h
    simp only [Cond.eval, iha h.1, ihb h.2]
  | or a b iha ihb =>
    simp only [Spell.calmCond, Bool.and_eq_true] at h
    simp only [Cond.eval, iha h.1, ihb h.2]

theorem calmProg_sound {E : Env} {P : Spell} (hw : P.wf = true) {p : Prog} (h : P.calmProg p = true) (s : PyStr) :
    p.run E (spellOut P s) = (p.run E s).map (spellOut P) := by
  induction p generalizing s with
  | done => rfl
  | rep x y k ih =>
    simp only [Spell.calmProg, Bool.and_eq_true] at h
    simp only [Prog.run, calmRep_sound hw h.1, ih h.2]
  | ite c t e k iht ihe ihk =>
    simp only [Spell.calmProg, Bool.and_eq_true] at h
    obtain ⟨⟨⟨h1, h2⟩, h3⟩, h4⟩ := h
    simp only [Prog.run, calmCond_sound hw h1]
    cases c.eval s with
    | true =>
      simp only [iht h2]
      cases t.run E s with
      | ok r => exact ihk h4 r
      | error x => rfl
    | false =>
      simp only [ihe h3]
      cases e.run E s with
      | ok r => exact ihk h4 r
      | error x => rfl
  | _ => cases h

/-- Such a program gives the same result for both spellings. -/
theorem absorbs_sound {E : Env} {P : Spell} (hw : P.wf = true) {p : Prog} (h : p.absorbs P = true) (s : PyStr) :
    p.run E (spellOut P s) = p.run E s := by
  induction p generalizing P s with
  | rep x y k ih =>
    cases P with
    | nil => rw [show spellOut [] s = s by simp [spellOut, spellChar]]
    | cons q P =>
    obtain ⟨c, w⟩ := q
    cases w with
    | nil => simp [Spell.wf] at hw
    | cons b t =>
      simp only [Prog.absorbs] at h
      cases e : strEq (b :: t) x && strEq y [c] with
      | true =>
        rw [e] at h
        simp only [Bool.and_eq_true, strEq_iff] at e
        obtain ⟨rfl, rfl⟩ := e
        simp only [Prog.run, compose_spell hw, ih (wf_cons hw).1 h]
      | false =>
        rw [e] at h
        simp only [Bool.and_eq_true] at h
        simp only [Prog.run, calmRep_sound hw h.1, ih hw h.2]
  | ite c t e k iht ihe ihk =>
    match P, hw, h with
    | [], _, _ => rw [show spellOut [] s = s by simp [spellOut, spellChar]]
    | p :: P, hw, h =>
      simp only [Prog.absorbs, Bool.and_eq_true] at h
      obtain ⟨⟨⟨h1, h2⟩, h3⟩, h4⟩ := h
      simp only [Prog.run, calmCond_sound hw h1]
      cases c.eval s with
      | true =>
        simp only [calmProg_sound hw h2]
        cases t.run E s with
        | ok r => exact ihk hw h4 r
        | error x => rfl
      | false =>
        simp only [calmProg_sound hw h3]
        cases e.run E s with
        | ok r => exact ihk hw h4 r
        | error x => rfl
  | _ =>
    match P, h with
    | [], _ => rw [show spellOut [] s = s by simp [spellOut, spellChar]]
    | _ :: _, h => simp [Prog.absorbs] at h

end Verif
