import Verif.Lib.PlainGood

/-!
# Programs that insert no watched character
-/

namespace Verif

/-- The template has no watched character. -/
def Prog.noNew (N : CharSet) : Prog → Bool
  | .done => true
  | .rep _ y k => freeOf N.mem y && k.noNew N
  | .sub _ t k => freeOf N.mem t && k.noNew N
  | .app y k => freeOf N.mem y && k.noNew N
  | .pre y k => freeOf N.mem y && k.noNew N
  | .set y k => freeOf N.mem y && k.noNew N
  | .ite _ t e k => t.noNew N && (e.noNew N && k.noNew N)
  | .attempt p k => p.noNew N && k.noNew N
  | .evens _ p k => p.noNew N && k.noNew N
  | .host h k => h.isUnicode && k.noNew N
  | .nat _ k => numeralsOut N && k.noNew N
  | .fail _ => true

theorem freeOf_all {N : Nat → Bool} {s : PyStr} : freeOf N s = true ↔ AllC (fun c => N c = false) s := by
  induction s with
  | nil => simp [freeOf, AllC]
  | cons c s ih =>
    simp only [freeOf, AllC.cons, ← ih]
    cases N c <;> simp

/-- Case mapping and normalisation produce no member of `N` from texts without any. -/
def Env.NoNew (E : Env) (N : CharSet) : Prop :=
  ∀ h, h.isUnicode = true → ∀ s s', freeOf N.mem s = true → E.host h s = .ok s' → freeOf N.mem s' = true

/-- A text without watched characters stays so. -/
theorem Prog.noNew_sound {E : Env} {N : CharSet} (hE : E.NoNew N)
    (hctl : ∀ c, 7 ≤ c → c ≤ 13 → N.mem c = false) {p : Prog} (h : p.noNew N = true) {s s' : PyStr}
    (hs : freeOf N.mem s = true) (hr : p.run E s = .ok s') : freeOf N.mem s' = true := by
  induction p generalizing s s' with
  | done => cases hr; exact hs
  | rep x y k ih =>
    simp only [Prog.noNew, Bool.and_eq_true] at h
    obtain ⟨hy, h⟩ := h
    exact ih h (freeOf_all.2 (pyReplace_all (freeOf_all.1 hs) (freeOf_all.1 hy))) hr
  | sub p t k ih =>
    simp only [Prog.noNew, Bool.and_eq_true] at h
    obtain ⟨hy, h⟩ := h
    simp only [Prog.run] at hr
    cases hc : compileSub p t with
    | none => rw [hc] at hr; cases hr
    | some rt =>
      rw [hc] at hr
      refine ih h (freeOf_all.2 (reSubC_all ?_ (freeOf_all.1 hs))) hr
      unfold compileSub at hc
      split at hc
      · cases hc
      · split at hc
        · cases hc
        · rename_i htm
          cases hc
          exact parseTmpl_lits hctl (freeOf_all.1 hy) htm
  | app y k ih =>
    simp only [Prog.noNew, Bool.and_eq_true] at h
    obtain ⟨hy, h⟩ := h
    exact ih h (freeOf_append.2 ⟨hs, hy⟩) hr
  | pre y k ih =>
    simp only [Prog.noNew, Bool.and_eq_true] at h
    obtain ⟨hy, h⟩ := h
    exact ih h (freeOf_append.2 ⟨hy, hs⟩) hr
  | set y k ih =>
    simp only [Prog.noNew, Bool.and_eq_true] at h
    obtain ⟨hy, h⟩ := h
    exact ih h hy hr
  | ite c t e k iht ihe ih =>
    simp only [Prog.noNew, Bool.and_eq_true] at h
    obtain ⟨ht, he, h⟩ := h
    simp only [Prog.run] at hr
    cases hcs : c.eval s with
    | true =>
      simp only [hcs] at hr
      cases htr : t.run E s with
      | ok s1 => rw [htr] at hr; exact ih h (iht ht hs htr) hr
      | error x => rw [htr] at hr; cases hr
    | false =>
      simp only [hcs] at hr
      cases htr : e.run E s with
      | ok s1 => rw [htr] at hr; exact ih h (ihe he hs htr) hr
      | error x => rw [htr] at hr; cases hr
  | attempt p k ihp ih =>
    simp only [Prog.noNew, Bool.and_eq_true] at h
    obtain ⟨hp, h⟩ := h
    simp only [Prog.run] at hr
    split at hr
    · rename_i s1 h1; exact ih h (ihp hp hs h1) hr
    · exact ih h hs hr
    · cases hr
  | evens sep p k ihp ih =>
    simp only [Prog.noNew, Bool.and_eq_true] at h
    obtain ⟨hp, h⟩ := h
    simp only [Prog.run] at hr
    split at hr
    · rename_i s1 h1
      refine ih h (freeOf_all.2 ?_) hr
      exact evensRun_all (P := fun c => N.mem c = false) (Q := fun c => N.mem c = false)
        (fun s s' hs' hr' => freeOf_all.1 (ihp hp (freeOf_all.2 hs') hr')) (fun _ h => h)
        (splitGo_all (fun c hc => by cases hc) (freeOf_all.1 hs)) h1
    · cases hr
  | host g k ih =>
    simp only [Prog.noNew, Bool.and_eq_true] at h
    obtain ⟨hg, h⟩ := h
    simp only [Prog.run] at hr
    split at hr
    · rename_i s1 h1
      exact ih h (hE g hg s s1 hs h1) hr
    · cases hr
  | nat f k ih =>
    simp only [Prog.noNew, Bool.and_eq_true] at h
    obtain ⟨hg, h⟩ := h
    refine ih h (freeOf_iff.2 ?_) hr
    rw [native_keeps hg]
    exact freeOf_iff.1 hs
  | fail e => cases hr

theorem Prog.noNew_append {N : CharSet} {p q : Prog} (hp : p.noNew N = true) (hq : q.noNew N = true) :
    (p.append q).noNew N = true := by
  induction p with
  | done => exact hq
  | fail e => rfl
  | ite c t e k iht ihe ih =>
    simp only [Prog.append, Prog.noNew, Bool.and_eq_true] at *
    exact ⟨hp.1, hp.2.1, ih hp.2.2⟩
  | rep x y k ih => simp only [Prog.append, Prog.noNew, Bool.and_eq_true] at *; exact ⟨hp.1, ih hp.2⟩
  | sub x y k ih => simp only [Prog.append, Prog.noNew, Bool.and_eq_true] at *; exact ⟨hp.1, ih hp.2⟩
  | app y k ih => simp only [Prog.append, Prog.noNew, Bool.and_eq_true] at *; exact ⟨hp.1, ih hp.2⟩
  | pre y k ih => simp only [Prog.append, Prog.noNew, Bool.and_eq_true] at *; exact ⟨hp.1, ih hp.2⟩
  | set y k ih => simp only [Prog.append, Prog.noNew, Bool.and_eq_true] at *; exact ⟨hp.1, ih hp.2⟩
  | attempt p k ihp ih => simp only [Prog.append, Prog.noNew, Bool.and_eq_true] at *; exact ⟨hp.1, ih hp.2⟩
  | evens x p k ihp ih => simp only [Prog.append, Prog.noNew, Bool.and_eq_true] at *; exact ⟨hp.1, ih hp.2⟩
  | host x k ih => simp only [Prog.append, Prog.noNew, Bool.and_eq_true] at *; exact ⟨hp.1, ih hp.2⟩
  | nat x k ih => simp only [Prog.append, Prog.noNew, Bool.and_eq_true] at *; exact ⟨hp.1, ih hp.2⟩

/-- Inserting no member of `N`, as an analysis of conversion pieces. -/
def noNewAna (N : CharSet) : Ana where
  ok := fun p => p.noNew N
  src := fun x => freeOf N.mem x
  tgt := fun x => freeOf N.mem x
  done := rfl
  append := Prog.noNew_append
  rep := by intro x y _ hy; simp [Prog.noNew, hy]
  sub_inv := by
    intro a b q h
    simp only [Prog.noNew, Bool.and_eq_true, and_true] at h ⊢
    exact h
  sub_insert := by
    intro p a t b ht _ h
    simp only [Prog.noNew, Bool.and_true, freeOf_append] at h ⊢
    exact ⟨h.1, ht, h.2⟩
  tgt_append := fun hx hy => freeOf_append.2 ⟨hx, hy⟩
  src_tgt := id
  src_append := fun hx hy => freeOf_append.2 ⟨hx, hy⟩

theorem freeOf_mono {M N : Nat → Bool} (h : ∀ c, N c = true → M c = true) {s : PyStr}
    (hs : freeOf M s = true) : freeOf N s = true := by
  rw [freeOf_all] at *
  intro c hc
  cases hN : N c with
  | false => rfl
  | true => have : M c = false := hs c hc; rw [h c hN] at this; cases this

theorem Prog.noNew_mono {M N : CharSet} (h : ∀ c, N.mem c = true → M.mem c = true)
    (hn : numeralsOut N = true) {p : Prog} (hp : p.noNew M = true) : p.noNew N = true := by
  induction p with
  | done => rfl
  | fail e => rfl
  | ite c t e k iht ihe ih =>
    simp only [Prog.noNew, Bool.and_eq_true] at *
    exact ⟨iht hp.1, ihe hp.2.1, ih hp.2.2⟩
  | rep x y k ih => simp only [Prog.noNew, Bool.and_eq_true] at *; exact ⟨freeOf_mono h hp.1, ih hp.2⟩
  | sub x y k ih => simp only [Prog.noNew, Bool.and_eq_true] at *; exact ⟨freeOf_mono h hp.1, ih hp.2⟩
  | app y k ih => simp only [Prog.noNew, Bool.and_eq_true] at *; exact ⟨freeOf_mono h hp.1, ih hp.2⟩
  | pre y k ih => simp only [Prog.noNew, Bool.and_eq_true] at *; exact ⟨freeOf_mono h hp.1, ih hp.2⟩
  | set y k ih => simp only [Prog.noNew, Bool.and_eq_true] at *; exact ⟨freeOf_mono h hp.1, ih hp.2⟩
  | attempt p k ihp ih => simp only [Prog.noNew, Bool.and_eq_true] at *; exact ⟨ihp hp.1, ih hp.2⟩
  | evens x p k ihp ih => simp only [Prog.noNew, Bool.and_eq_true] at *; exact ⟨ihp hp.1, ih hp.2⟩
  | host x k ih => simp only [Prog.noNew, Bool.and_eq_true] at *; exact ⟨hp.1, ih hp.2⟩
  | nat x k ih => simp only [Prog.noNew, Bool.and_eq_true] at *; exact ⟨hn, ih hp.2⟩

theorem noNewAna_le {M N : CharSet} (h : ∀ c, N.mem c = true → M.mem c = true)
    (hn : numeralsOut N = true) : (noNewAna M).Le (noNewAna N) :=
  ⟨fun h' => Prog.noNew_mono h hn h', fun h' => freeOf_mono h h', fun h' => freeOf_mono h h'⟩

/-! ## Assumptions on text operations that hold only for some texts -/

/-- The environment whose text operations return texts with members of `N` unchanged. -/
def Env.guard (E : Env) (N : CharSet) : Env :=
  { E with host := fun h s => match freeOf N.mem s with | true => E.host h s | false => .ok s }

/-- Programs that insert no member of `N` do not notice the guard on texts without any. -/
theorem Prog.run_guard {E : Env} {N : CharSet} (hE : E.NoNew N)
    (hctl : ∀ c, 7 ≤ c → c ≤ 13 → N.mem c = false) {p : Prog} (h : p.noNew N = true) {s : PyStr}
    (hs : freeOf N.mem s = true) : p.run (E.guard N) s = p.run E s := by
  induction p generalizing s with
  | done => rfl
  | fail e => rfl
  | rep x y k ih =>
    have h1 := h
    simp only [Prog.noNew, Bool.and_eq_true] at h1
    exact ih h1.2 (freeOf_all.2 (pyReplace_all (freeOf_all.1 hs) (freeOf_all.1 h1.1)))
  | sub p t k ih =>
    have h1 := h
    simp only [Prog.noNew, Bool.and_eq_true] at h1
    simp only [Prog.run]
    cases hc : compileSub p t with
    | none => rfl
    | some rt =>
      have : (Prog.sub p t .done).noNew N = true := by simp [Prog.noNew, h1.1]
      refine ih h1.2 (Prog.noNew_sound hE hctl this hs (s' := reSubC E.uni rt.1 rt.2 s) ?_)
      simp only [Prog.run, hc]
  | app y k ih =>
    simp only [Prog.noNew, Bool.and_eq_true] at h
    exact ih h.2 (freeOf_append.2 ⟨hs, h.1⟩)
  | pre y k ih =>
    simp only [Prog.noNew, Bool.and_eq_true] at h
    exact ih h.2 (freeOf_append.2 ⟨h.1, hs⟩)
  | set y k ih =>
    simp only [Prog.noNew, Bool.and_eq_true] at h
    exact ih h.2 h.1
  | ite c t e k iht ihe ih =>
    simp only [Prog.noNew, Bool.and_eq_true] at h
    simp only [Prog.run]
    cases hcs : c.eval s with
    | true =>
      simp only
      rw [iht h.1 hs]
      cases htr : t.run E s with
      | ok s1 => exact ih h.2.2 (Prog.noNew_sound hE hctl h.1 hs htr)
      | error x => rfl
    | false =>
      simp only
      rw [ihe h.2.1 hs]
      cases htr : e.run E s with
      | ok s1 => exact ih h.2.2 (Prog.noNew_sound hE hctl h.2.1 hs htr)
      | error x => rfl
  | attempt p k ihp ih =>
    simp only [Prog.noNew, Bool.and_eq_true] at h
    simp only [Prog.run]
    rw [ihp h.1 hs]
    cases htr : p.run E s with
    | ok s1 => exact ih h.2 (Prog.noNew_sound hE hctl h.1 hs htr)
    | error x => cases x <;> first | rfl | exact ih h.2 hs
  | evens sep p k ihp ih =>
    simp only [Prog.noNew, Bool.and_eq_true] at h
    have hpieces : ∀ w ∈ pySplit s sep, freeOf N.mem w = true := fun w hw =>
      freeOf_all.2 (splitGo_all (fun c hc => by cases hc) (freeOf_all.1 hs) w hw)
    have key : ∀ (l : List PyStr) (b : Bool), (∀ w ∈ l, freeOf N.mem w = true) →
        evensRun (p.run (E.guard N)) b l = evensRun (p.run E) b l := by
      intro l
      induction l with
      | nil => intro b _; rfl
      | cons w l ihl =>
        intro b hl
        have hl' : ∀ w ∈ l, freeOf N.mem w = true := fun w hw => hl w (List.mem_cons_of_mem _ hw)
        cases b with
        | true => simp only [evensRun]; rw [ihp h.1 (hl w (List.mem_cons_self ..)), ihl _ hl']
        | false => simp only [evensRun]; rw [ihl _ hl']
    have hs' : (Prog.evens sep p .done).noNew N = true := by simp [Prog.noNew, h.1]
    simp only [Prog.run] at *
    rw [key _ _ hpieces]
    split
    · rename_i s1 h1
      refine ih h.2 (Prog.noNew_sound hE hctl hs' hs (s' := s1) ?_)
      simp only [Prog.run]
      rw [h1]
    · rfl
  | host g k ih =>
    simp only [Prog.noNew, Bool.and_eq_true] at h
    simp only [Prog.run]
    have : (E.guard N).host g s = E.host g s := by simp only [Env.guard, hs]
    rw [this]
    cases hh : E.host g s with
    | ok s1 => exact ih h.2 (hE g h.1 s s1 hs hh)
    | error x => rfl
  | nat f k ih =>
    simp only [Prog.noNew, Bool.and_eq_true] at h
    refine ih h.2 (freeOf_iff.2 ?_)
    show (f.sem E.uni s).filter N.mem = []
    rw [native_keeps h.1]
    exact freeOf_iff.1 hs

end Verif
