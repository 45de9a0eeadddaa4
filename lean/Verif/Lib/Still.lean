import Verif.Lib.RomanOut

/-!
# Programs that leave a text alone, with library calls

Like `Prog.idle`, but conditions on the text may be known to fail, and calls of library functions
are allowed that return the text at hand unchanged.
-/

namespace Verif

/-- The condition fails on all texts over the alphabet without the factors. -/
def Cond.never (A : CharSet) (F : List PyStr) : Cond → Bool
  | .static b => !b
  | .has x => dead A F x
  | .hasAny xs => xs.all fun x => dead A F x
  | .not _ => false
  | .and a b => match a.never A F with | true => true | false => b.never A F
  | .or a b => match a.never A F with | true => b.never A F | false => false

theorem Cond.never_sound {A : CharSet} {F : List PyStr} {c : Cond} (h : c.never A F = true) {s : PyStr}
    (hs : InCore A F s) : c.eval s = false := by
  have hd : ∀ x, dead A F x = true → isInfix x s = false := by
    intro x hx
    cases hi : isInfix x s with
    | false => rfl
    | true => exact absurd (isInfix_iff.1 hi) (dead_sound hx hs)
  induction c with
  | static b => simpa [Cond.never, Cond.eval] using h
  | has x => exact hd x h
  | hasAny xs =>
    simp only [Cond.eval]
    rw [List.any_eq_false]
    intro x hx
    simp only [Cond.never, List.all_eq_true] at h
    rw [hd x (h x hx)]; simp
  | not c => cases h
  | and a b iha ihb =>
    simp only [Cond.never] at h
    simp only [Cond.eval]
    split at h
    · rename_i ha; rw [iha ha]; rfl
    · rw [ihb h, Bool.and_false]
  | or a b iha ihb =>
    simp only [Cond.never] at h
    simp only [Cond.eval]
    split at h
    · rename_i ha; rw [iha ha, ihb h]; rfl
    · cases h

/-- The program leaves texts over `A` without the factors `F` alone, if the library calls `K` do. -/
def Prog.still (A : CharSet) (F : List PyStr) (K : Host → Bool) : Prog → Bool
  | .done => true
  | .rep x y k => match (Prog.rep x y .done).idle A F with | true => k.still A F K | false => false
  | .sub p t k => match (Prog.sub p t .done).idle A F with | true => k.still A F K | false => false
  | .ite c t e k => match c.never A F with
    | true => match e.idle A F with | true => k.still A F K | false => false
    | false => match (Prog.ite c t e .done).idle A F with | true => k.still A F K | false => false
  | .attempt p k => match (Prog.attempt p .done).idle A F with | true => k.still A F K | false => false
  | .evens sep p k => match (Prog.evens sep p .done).idle A F with | true => k.still A F K | false => false
  | .nat f k => match (Prog.nat f .done).idle A F with | true => k.still A F K | false => false
  | .host h k => match K h with | true => k.still A F K | false => false
  | _ => false

/-- One step of a program: the text it leaves behind, and the rest. -/
theorem run_rep_idle {E : Env} {A : CharSet} {F : List PyStr} {x y : PyStr} {k : Prog}
    (h : (Prog.rep x y .done).idle A F = true) {s s' : PyStr} (hs : InCore A F s)
    (hr : (Prog.rep x y k).run E s = .ok s') : k.run E s = .ok s' := by
  have h1 : (Prog.rep x y .done).run E s = .ok (pyReplace s x y) := rfl
  have := Prog.idle_sound h hs h1
  simpa only [Prog.run, this] using hr

theorem run_sub_idle {E : Env} {A : CharSet} {F : List PyStr} {p t : PyStr} {k : Prog}
    (h : (Prog.sub p t .done).idle A F = true) {s s' : PyStr} (hs : InCore A F s)
    (hr : (Prog.sub p t k).run E s = .ok s') : k.run E s = .ok s' := by
  simp only [Prog.run] at hr
  split at hr
  · cases hr
  · rename_i r tm hc
    have h1 : (Prog.sub p t .done).run E s = .ok (reSubC E.uni r tm s) := by simp only [Prog.run, hc]
    rw [Prog.idle_sound h hs h1] at hr
    exact hr

theorem run_ite_idle {E : Env} {A : CharSet} {F : List PyStr} {c : Cond} {t e k : Prog}
    (h : (Prog.ite c t e .done).idle A F = true) {s s' : PyStr} (hs : InCore A F s)
    (hr : (Prog.ite c t e k).run E s = .ok s') : k.run E s = .ok s' := by
  simp only [Prog.run] at hr
  split at hr
  · rename_i s1 hs1
    have h1 : (Prog.ite c t e .done).run E s = .ok s1 := by simp only [Prog.run]; rw [hs1]
    have := Prog.idle_sound h hs h1
    subst this
    exact hr
  · cases hr

theorem run_ite_never {E : Env} {A : CharSet} {F : List PyStr} {c : Cond} {t e k : Prog} (hc : c.never A F = true)
    (h : e.idle A F = true) {s s' : PyStr} (hs : InCore A F s) (hr : (Prog.ite c t e k).run E s = .ok s') :
    k.run E s = .ok s' := by
  simp only [Prog.run, Cond.never_sound hc hs] at hr
  split at hr
  · rename_i s1 hs1
    have := Prog.idle_sound h hs hs1
    subst this
    exact hr
  · cases hr

theorem run_attempt_idle {E : Env} {A : CharSet} {F : List PyStr} {p k : Prog}
    (h : (Prog.attempt p .done).idle A F = true) {s s' : PyStr} (hs : InCore A F s)
    (hr : (Prog.attempt p k).run E s = .ok s') : k.run E s = .ok s' := by
  simp only [Prog.run] at hr
  split at hr
  · rename_i s1 hs1
    have h1 : (Prog.attempt p .done).run E s = .ok s1 := by simp only [Prog.run, hs1]
    have := Prog.idle_sound h hs h1
    subst this
    exact hr
  · exact hr
  · cases hr

theorem run_evens_idle {E : Env} {A : CharSet} {F : List PyStr} {sep : PyStr} {p k : Prog}
    (h : (Prog.evens sep p .done).idle A F = true) {s s' : PyStr} (hs : InCore A F s)
    (hr : (Prog.evens sep p k).run E s = .ok s') : k.run E s = .ok s' := by
  simp only [Prog.run] at hr
  split at hr
  · rename_i s1 hs1
    have h1 : (Prog.evens sep p .done).run E s = .ok s1 := by simp only [Prog.run, hs1]
    have := Prog.idle_sound h hs h1
    subst this
    exact hr
  · cases hr

theorem run_nat_idle {E : Env} {A : CharSet} {F : List PyStr} {f : Native} {k : Prog}
    (h : (Prog.nat f .done).idle A F = true) {s s' : PyStr} (hs : InCore A F s)
    (hr : (Prog.nat f k).run E s = .ok s') : k.run E s = .ok s' := by
  have h1 : (Prog.nat f .done).run E s = .ok (f.sem E.uni s) := rfl
  simpa only [Prog.run, Prog.idle_sound h hs h1] using hr

theorem run_host_keep {E : Env} {h : Host} {k : Prog} {s s' : PyStr} (hk : E.host h s = .ok s)
    (hr : (Prog.host h k).run E s = .ok s') : k.run E s = .ok s' := by
  simpa only [Prog.run, hk] using hr

theorem Prog.still_sound {E : Env} {A : CharSet} {F : List PyStr} {K : Host → Bool} {p : Prog}
    (h : p.still A F K = true) {s s' : PyStr} (hs : InCore A F s) (hK : ∀ g, K g = true → E.host g s = .ok s)
    (hr : p.run E s = .ok s') : s' = s := by
  induction p with
  | done => cases hr; rfl
  | rep x y k ih =>
    simp only [Prog.still] at h
    split at h
    · rename_i hi; exact ih h (run_rep_idle hi hs hr)
    · cases h
  | sub p t k ih =>
    simp only [Prog.still] at h
    split at h
    · rename_i hi; exact ih h (run_sub_idle hi hs hr)
    · cases h
  | ite c t e k iht ihe ih =>
    simp only [Prog.still] at h
    split at h
    · rename_i hc
      split at h
      · rename_i hi; exact ih h (run_ite_never hc hi hs hr)
      · cases h
    · split at h
      · rename_i hi; exact ih h (run_ite_idle hi hs hr)
      · cases h
  | attempt p k ihp ih =>
    simp only [Prog.still] at h
    split at h
    · rename_i hi; exact ih h (run_attempt_idle hi hs hr)
    · cases h
  | evens sep p k ihp ih =>
    simp only [Prog.still] at h
    split at h
    · rename_i hi; exact ih h (run_evens_idle hi hs hr)
    · cases h
  | nat f k ih =>
    simp only [Prog.still] at h
    split at h
    · rename_i hi; exact ih h (run_nat_idle hi hs hr)
    · cases h
  | host g k ih =>
    simp only [Prog.still] at h
    split at h
    · rename_i hi; exact ih h (run_host_keep (hK g hi) hr)
    · cases h
  | _ => simp [Prog.still] at h

/-! ## Replacements in the middle of a program -/

/-- The program begins with these replacements; what follows. -/
def Prog.after : List (PyStr × PyStr) → Prog → Option Prog
  | [], p => some p
  | (x, y) :: H, .rep x' y' k => match strEq x x', strEq y y' with
    | true, true => k.after H
    | _, _ => none
  | _, _ => none

theorem Prog.after_run {E : Env} {H : List (PyStr × PyStr)} {p q : Prog} (h : p.after H = some q) (s : PyStr) :
    p.run E s = q.run E (applyRules H s) := by
  induction H generalizing p s with
  | nil => cases h; rfl
  | cons r H ih =>
    obtain ⟨x, y⟩ := r
    cases p with
    | rep x' y' k =>
      simp only [Prog.after] at h
      split at h
      · rename_i h1 h2
        have := strEq_iff.1 h1
        have := strEq_iff.1 h2
        subst_vars
        simp only [Prog.run]
        exact ih h _
      · cases h
    | _ => simp [Prog.after] at h

/-- The program applies the replacements `H` once and does nothing else: up to there on texts over
`A` without the factors `F`, from there on over `B` without `G`. -/
def Prog.applies (A : CharSet) (F : List PyStr) (B : CharSet) (G : List PyStr) (K : Host → Bool)
    (H : List (PyStr × PyStr)) : Prog → Bool
  | .rep x y k => match (Prog.rep x y k).after H with
    | some q => q.still B G K
    | none => match (Prog.rep x y .done).idle A F with | true => k.applies A F B G K H | false => false
  | .sub p t k => match (Prog.sub p t .done).idle A F with | true => k.applies A F B G K H | false => false
  | .ite c t e k => match c.never A F with
    | true => match e.idle A F with | true => k.applies A F B G K H | false => false
    | false => match (Prog.ite c t e .done).idle A F with | true => k.applies A F B G K H | false => false
  | .host h k => match K h with | true => k.applies A F B G K H | false => false
  | _ => false

theorem Prog.applies_sound {E : Env} {A B : CharSet} {F G : List PyStr} {K : Host → Bool} {H : List (PyStr × PyStr)}
    {p : Prog} (h : p.applies A F B G K H = true) {s s' : PyStr} (hs : InCore A F s) (hs' : InCore B G (applyRules H s))
    (hK : ∀ g, K g = true → E.host g s = .ok s) (hK' : ∀ g, K g = true → E.host g (applyRules H s) = .ok (applyRules H s))
    (hr : p.run E s = .ok s') : s' = applyRules H s := by
  induction p with
  | rep x y k ih =>
    simp only [Prog.applies] at h
    split at h
    · rename_i q hq
      rw [Prog.after_run hq] at hr
      exact Prog.still_sound h hs' hK' hr
    · split at h
      · rename_i hi; exact ih h (run_rep_idle hi hs hr)
      · cases h
  | sub p t k ih =>
    simp only [Prog.applies] at h
    split at h
    · rename_i hi; exact ih h (run_sub_idle hi hs hr)
    · cases h
  | ite c t e k iht ihe ih =>
    simp only [Prog.applies] at h
    split at h
    · rename_i hc
      split at h
      · rename_i hi; exact ih h (run_ite_never hc hi hs hr)
      · cases h
    · split at h
      · rename_i hi; exact ih h (run_ite_idle hi hs hr)
      · cases h
  | host g k ih =>
    simp only [Prog.applies] at h
    split at h
    · rename_i hi; exact ih h (run_host_keep (hK g hi) hr)
    · cases h
  | _ => simp [Prog.applies] at h

end Verif
