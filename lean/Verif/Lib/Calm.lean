import Verif.Lib.LineWise
import Verif.Lib.NoNew

/-!
# Programs that work part by part on texts without certain characters

`Prog.calm W zs p`: on texts without the characters `W`, the program works part by part around each of `zs`,
and brings in none of `W`.
-/

namespace Verif

/-- All characters but those in the list. -/
def allBut (W : List Nat) : CharSet where
  mem := fun c => !(natMem c W)
  rangeOut := fun a b => Nat.beq a b && natMem a W
  noSpace := false
  range_sound := by
    intro a b c h h1 h2
    simp only [Bool.and_eq_true, Nat.beq_eq] at h
    obtain ⟨rfl, h⟩ := h
    have : c = a := by omega
    simp [this, h]
  space_sound := by intro h; cases h

theorem over_allBut {W : List Nat} {s : PyStr} : Over (allBut W) s ↔ AllC (fun c => c ∉ W) s := by
  simp only [Over, AllC, allBut, Bool.not_eq_true']
  refine forall_congr' fun c => imp_congr_right fun _ => ?_
  rw [← natMem_iff]
  simp

/-- None of the characters is in the string. -/
def lacksAll (W : List Nat) (s : PyStr) : Bool := W.all fun w => lacks w s

theorem lacksAll_iff {W : List Nat} {s : PyStr} : lacksAll W s = true ↔ AllC (fun c => c ∉ W) s := by
  simp only [lacksAll, List.all_eq_true, lacks_iff, AllC]
  exact ⟨fun h c hc hw => h c hw hc, fun h w hw hs => h w hs hw⟩

/-- The characters that composition is assumed not to bring in. -/
def tameChars : List Nat := [111, 124]

/-- Composition brings in no plain `o` and no vertical bar. -/
def Env.NfcPlain (E : Env) : Prop :=
  ∀ c ∈ tameChars, ∀ s s', c ∉ s → E.host .nfc s = .ok s' → c ∉ s'

/-- On texts without `W`: works part by part around each of `zs`, and brings in none of `W`. -/
def Prog.calm (W : List Nat) (zs : List Nat) : Prog → Bool
  | .done => true
  | .rep x y k => cond (outside (allBut W) x) true (zs.all (fun z => lacks z x) && !x.isEmpty && lacksAll W y) && k.calm W zs
  | .sub p t k =>
    (match compileSub p t with
    | none => false
    | some (r, _) => cond (r.blocked (allBut W)) true (zs.all (fun z => r.apart z) && lacksAll W t)) && k.calm W zs
  | .ite c t e k =>
    (match c.words with
    | none => false
    | some ws => cond (ws.all (outside (allBut W))) (e.calm W zs) (e.isDone && t.onlyOn ws && t.calm W zs)) && k.calm W zs
  | .attempt p k => p.safe false && p.calm W zs && k.calm W zs
  | .host h k => (match h with
    | .nfc => W.all fun c => natMem c tameChars
    | _ => h.isUnicode && W.isEmpty) && k.calm W zs
  | _ => false

theorem outside_infix {W : List Nat} {w s : PyStr} (h : outside (allBut W) w = true) (hs : AllC (fun c => c ∉ W) s) :
    isInfix w s = false := by
  cases hi : isInfix w s with
  | false => rfl
  | true => exact absurd (isInfix_iff.1 hi) (outside_not_infix h (over_allBut.2 hs))

theorem words_absent {c : Cond} {W : List Nat} {ws : List PyStr} (hw : c.words = some ws)
    (h : ws.all (outside (allBut W)) = true) {s : PyStr} (hs : AllC (fun c => c ∉ W) s) : c.eval s = false := by
  rw [Cond.words_eval hw, List.any_eq_false]
  intro w hm
  rw [outside_infix (List.all_eq_true.1 h w hm) hs]
  simp

theorem Prog.calm_sound {E : Env} {W zs : List Nat} {z : Nat} (hzs : z ∈ zs) (hN : E.NfcPlain) (ht : E.Total) (hU : E.uni.Apart z) (hE : E.SplitsAt z)
    (hz : z ∉ W) (hctl : ∀ c, 7 ≤ c → c ≤ 13 → c ∉ W) {p : Prog} (h : p.calm W zs = true) {a b a' b' : PyStr}
    (wa : AllC (fun c => c ∉ W) a) (wb : AllC (fun c => c ∉ W) b)
    (ha : p.run E a = .ok a') (hb : p.run E b = .ok b') :
    p.run E (a ++ z :: b) = .ok (a' ++ z :: b') ∧ AllC (fun c => c ∉ W) a' ∧ AllC (fun c => c ∉ W) b' := by
  have whole : ∀ {a b : PyStr}, AllC (fun c => c ∉ W) a → AllC (fun c => c ∉ W) b →
      AllC (fun c => c ∉ W) (a ++ z :: b) := by
    intro a b wa wb c hc
    rcases List.mem_append.1 hc with h | h
    · exact wa c h
    · rcases List.mem_cons.1 h with rfl | h
      · exact hz
      · exact wb c h
  induction p generalizing a b a' b' with
  | done => cases ha; cases hb; exact ⟨rfl, wa, wb⟩
  | rep x y k ih =>
    simp only [Prog.calm, Bool.and_eq_true] at h
    obtain ⟨h, hk⟩ := h
    simp only [Prog.run] at *
    cases ho : outside (allBut W) x with
    | true =>
      rw [pyReplace_outside ho (over_allBut.2 wa)] at ha
      rw [pyReplace_outside ho (over_allBut.2 wb)] at hb
      rw [pyReplace_outside ho (over_allBut.2 (whole wa wb))]
      exact ih hk wa wb ha hb
    | false =>
      rw [ho] at h
      simp only [cond_false, Bool.and_eq_true, Bool.not_eq_true'] at h
      have hx := lacks_iff.1 (List.all_eq_true.1 h.1.1 z hzs)
      have h0 : x ≠ [] := by rintro rfl; simp at h
      have hy := lacksAll_iff.1 h.2
      rw [pyReplace_apart hx h0]
      exact ih hk (pyReplace_all wa hy) (pyReplace_all wb hy) ha hb
  | sub p t k ih =>
    simp only [Prog.calm, Bool.and_eq_true] at h
    obtain ⟨h, hk⟩ := h
    simp only [Prog.run] at *
    cases hc : compileSub p t with
    | none => rw [hc] at h; cases h
    | some rt =>
      obtain ⟨r, tm⟩ := rt
      rw [hc] at h ha hb
      simp only at h ha hb ⊢
      cases ho : r.blocked (allBut W) with
      | true =>
        rw [reSubC_blocked ho (over_allBut.2 wa)] at ha
        rw [reSubC_blocked ho (over_allBut.2 wb)] at hb
        rw [reSubC_blocked ho (over_allBut.2 (whole wa wb))]
        exact ih hk wa wb ha hb
      | false =>
        rw [ho] at h
        simp only [cond_false, Bool.and_eq_true] at h
        have hl : LitsAll (fun c => c ∉ W) tm := by
          unfold compileSub at hc
          split at hc
          · cases hc
          · split at hc
            · cases hc
            · rename_i htm
              cases hc
              exact parseTmpl_lits hctl (lacksAll_iff.1 h.2) htm
        rw [reSubC_apart hU (List.all_eq_true.1 h.1 z hzs)]
        exact ih hk (reSubC_all hl wa) (reSubC_all hl wb) ha hb
  | ite c t e k iht ihe ihk =>
    simp only [Prog.calm, Bool.and_eq_true] at h
    obtain ⟨h1, h2⟩ := h
    have key : ∀ x y, cond (c.eval a) (t.run E a) (e.run E a) = .ok x →
        cond (c.eval b) (t.run E b) (e.run E b) = .ok y →
        cond (c.eval (a ++ z :: b)) (t.run E (a ++ z :: b)) (e.run E (a ++ z :: b)) =
          .ok (x ++ z :: y) ∧ AllC (fun c => c ∉ W) x ∧ AllC (fun c => c ∉ W) y := by
      intro x y hx hy
      cases hw : c.words with
      | none => rw [hw] at h1; cases h1
      | some ws =>
        rw [hw] at h1
        simp only at h1
        cases ho : ws.all (outside (allBut W)) with
        | true =>
          rw [ho] at h1
          rw [words_absent hw ho wa] at hx
          rw [words_absent hw ho wb] at hy
          rw [words_absent hw ho (whole wa wb)]
          exact ihe h1 wa wb hx hy
        | false =>
          rw [ho] at h1
          simp only [cond_false, Bool.and_eq_true] at h1
          obtain ⟨⟨h3, h4⟩, h5⟩ := h1
          have he : e = .done := by cases e <;> first | rfl | cases h3
          subst he
          have same : ∀ s, cond (c.eval s) (t.run E s) (Prog.done.run E s) = t.run E s := by
            intro s
            cases hs : c.eval s with
            | true => rfl
            | false =>
              rw [Cond.words_eval hw s] at hs
              exact (Prog.onlyOn_sound h4 fun w hw => by simpa using List.any_eq_false.1 hs w hw).symm
          rw [same] at hx hy ⊢
          exact iht h5 wa wb hx hy
    rw [Prog.run_ite] at ha hb ⊢
    cases hx : cond (c.eval a) (t.run E a) (e.run E a) with
    | error er => rw [hx] at ha; cases ha
    | ok x =>
      cases hy : cond (c.eval b) (t.run E b) (e.run E b) with
      | error er => rw [hy] at hb; cases hb
      | ok y =>
        rw [hx] at ha
        rw [hy] at hb
        obtain ⟨h3, h4, h5⟩ := key x y hx hy
        rw [h3]
        exact ihk h2 h4 h5 ha hb
  | attempt p k ihp ihk =>
    simp only [Prog.calm, Bool.and_eq_true] at h
    obtain ⟨x, hx⟩ := Prog.safe_total ht h.1.1 a
    obtain ⟨y, hy⟩ := Prog.safe_total ht h.1.1 b
    simp only [Prog.run, hx, hy] at ha hb
    obtain ⟨h3, h4, h5⟩ := ihp h.1.2 wa wb hx hy
    simp only [Prog.run, h3]
    exact ihk h.2 h4 h5 ha hb
  | host h' k ih =>
    simp only [Prog.calm, Bool.and_eq_true] at h
    obtain ⟨h1, h2⟩ := h
    have hu : h'.isUnicode = true := by
      cases h' <;> first | rfl | (simp at h1; exact h1.1)
    have keep : ∀ s s', AllC (fun c => c ∉ W) s → E.host h' s = .ok s' → AllC (fun c => c ∉ W) s' := by
      intro s s' hs hr
      by_cases hn : h' = .nfc
      · subst hn
        simp only [List.all_eq_true, natMem_iff] at h1
        exact fun c hc hw => hN c (h1 c hw) s s' (fun hcs => hs c hcs hw) hr hc
      · have : W = [] := by
          cases h' <;> first | exact absurd rfl hn | (simp at h1; exact h1) | (simp at h1; exact h1.2)
        subst this
        exact fun _ _ => by simp
    simp only [Prog.run] at *
    cases hx : E.host h' a with
    | error er => rw [hx] at ha; cases ha
    | ok x =>
      cases hy : E.host h' b with
      | error er => rw [hy] at hb; cases hb
      | ok y =>
        rw [hx] at ha
        rw [hy] at hb
        rw [hE h' hu a b x y hx hy]
        exact ih h2 (keep a x wa hx) (keep b y wb hy) ha hb
  | _ => cases h

/-- The program after a first lower-casing. -/
def Prog.dropLower : Prog → Prog
  | .host .lower k => k
  | p => p

/-- The same when the text is lower-cased first, if lower-casing brings in none of `W` either. -/
theorem Prog.calm_lower {E : Env} {W zs : List Nat} {z : Nat} (hzs : z ∈ zs) (hN : E.NfcPlain) (ht : E.Total) (hU : E.uni.Apart z)
    (hE : E.SplitsAt z) (hz : z ∉ W) (hctl : ∀ c, 7 ≤ c → c ≤ 13 → c ∉ W) {p : Prog}
    (h : p.dropLower.calm W zs = true) {a b a' b' : PyStr}
    (wa : AllC (fun c => c ∉ W) a) (wb : AllC (fun c => c ∉ W) b)
    (la : ∀ l, E.host .lower a = .ok l → AllC (fun c => c ∉ W) l)
    (lb : ∀ l, E.host .lower b = .ok l → AllC (fun c => c ∉ W) l)
    (ha : p.run E a = .ok a') (hb : p.run E b = .ok b') :
    p.run E (a ++ z :: b) = .ok (a' ++ z :: b') ∧ AllC (fun c => c ∉ W) a' ∧ AllC (fun c => c ∉ W) b' := by
  have plain : p.dropLower = p → p.run E (a ++ z :: b) = .ok (a' ++ z :: b') ∧ AllC (fun c => c ∉ W) a' ∧
      AllC (fun c => c ∉ W) b' := fun e => Prog.calm_sound hzs hN ht hU hE hz hctl (e ▸ h) wa wb ha hb
  cases p with
  | host g k =>
    cases g with
    | lower =>
      simp only [Prog.run] at *
      cases hx : E.host .lower a with
      | error er => rw [hx] at ha; cases ha
      | ok x =>
        cases hy : E.host .lower b with
        | error er => rw [hy] at hb; cases hb
        | ok y =>
          rw [hx] at ha
          rw [hy] at hb
          rw [hE .lower rfl a b x y hx hy]
          exact Prog.calm_sound hzs hN ht hU hE hz hctl h (la x hx) (lb y hy) ha hb
    | _ => exact plain rfl
  | _ => exact plain rfl

theorem Prog.calm_append {W zs : List Nat} {p q : Prog} (hp : p.calm W zs = true) (hq : q.calm W zs = true) :
    (p.append q).calm W zs = true := by
  induction p with
  | done => exact hq
  | rep x y k ih => simp only [Prog.append, Prog.calm, Bool.and_eq_true] at *; exact ⟨hp.1, ih hp.2⟩
  | sub x y k ih => simp only [Prog.append, Prog.calm, Bool.and_eq_true] at *; exact ⟨hp.1, ih hp.2⟩
  | ite c t e k _ _ ih => simp only [Prog.append, Prog.calm, Bool.and_eq_true] at *; exact ⟨hp.1, ih hp.2⟩
  | attempt p k _ ih => simp only [Prog.append, Prog.calm, Bool.and_eq_true] at *; exact ⟨hp.1, ih hp.2⟩
  | host g k ih => simp only [Prog.append, Prog.calm, Bool.and_eq_true] at *; exact ⟨hp.1, ih hp.2⟩
  | _ => cases hp

theorem Prog.calm_dropLower {W zs : List Nat} {p : Prog} (h : p.calm W zs = true) : p.dropLower.calm W zs = true := by
  cases p with
  | host g k =>
    cases g with
    | lower => simp only [Prog.calm, Bool.and_eq_true] at h; exact h.2
    | _ => exact h
  | _ => exact h

theorem Prog.calm_first {W zs : List Nat} {p q : Prog} (hp : p.dropLower.calm W zs = true) (hq : q.calm W zs = true) :
    (p.append q).dropLower.calm W zs = true := by
  have plain : p.calm W zs = true → (p.append q).dropLower.calm W zs = true :=
    fun h => Prog.calm_dropLower (Prog.calm_append h hq)
  cases p with
  | host g k =>
    cases g with
    | lower => exact Prog.calm_append hp hq
    | _ => exact plain hp
  | _ => exact plain hp

/-- Does nothing on texts without `W`. -/
def Prog.dormant (W : List Nat) : Prog → Bool
  | .done => true
  | .rep x _ k => outside (allBut W) x && k.dormant W
  | .sub p t k =>
    (match compileSub p t with
    | none => false
    | some (r, _) => r.blocked (allBut W)) && k.dormant W
  | _ => false

theorem Prog.dormant_sound {E : Env} {W : List Nat} {p : Prog} (h : p.dormant W = true) {a : PyStr}
    (wa : AllC (fun c => c ∉ W) a) : p.run E a = .ok a := by
  induction p with
  | done => rfl
  | rep x y k ih =>
    simp only [Prog.dormant, Bool.and_eq_true] at h
    simp only [Prog.run, pyReplace_outside h.1 (over_allBut.2 wa)]
    exact ih h.2
  | sub p t k ih =>
    simp only [Prog.dormant, Bool.and_eq_true] at h
    obtain ⟨h, hk⟩ := h
    simp only [Prog.run]
    cases hc : compileSub p t with
    | none => rw [hc] at h; cases h
    | some rt =>
      obtain ⟨r, tm⟩ := rt
      rw [hc] at h
      simp only at h ⊢
      rw [reSubC_blocked h (over_allBut.2 wa)]
      exact ih hk
  | _ => cases h

theorem Prog.dormant_append {W : List Nat} {p q : Prog} (hp : p.dormant W = true) (hq : q.dormant W = true) :
    (p.append q).dormant W = true := by
  induction p with
  | done => exact hq
  | rep x y k ih => simp only [Prog.dormant, Prog.append, Bool.and_eq_true] at *; exact ⟨hp.1, ih hp.2⟩
  | sub x y k ih => simp only [Prog.dormant, Prog.append, Bool.and_eq_true] at *; exact ⟨hp.1, ih hp.2⟩
  | _ => cases hp

theorem outside_append {A : CharSet} {x y : PyStr} (h : outside A x = true) : outside A (x ++ y) = true := by
  induction x with
  | nil => cases h
  | cons c x ih =>
    simp only [outside, List.cons_append] at *
    cases hm : A.mem c <;> rw [hm] at h <;> simp_all

/-- Doing nothing on texts without `W`, as an analysis of conversion pieces. -/
def dormantAna (W : List Nat) : Ana where
  ok := fun p => p.dormant W
  src := fun x => outside (allBut W) x
  tgt := fun _ => true
  done := rfl
  append := Prog.dormant_append
  rep := by intro x y hx _; simp [Prog.dormant, hx]
  sub_inv := by
    intro a b q h
    simp only [Prog.dormant, Bool.and_eq_true, and_true] at h ⊢
    exact h
  sub_insert := by
    intro p a t b _ hpt h
    simp only [Prog.dormant, Bool.and_true, compileSub] at h ⊢
    cases hp : parseRe p with
    | none => rw [hp] at h; cases h
    | some r =>
      rw [hp] at h
      simp only at h ⊢
      obtain ⟨A, hA⟩ := hpt r.2
      rcases hA with hA | ⟨B, hA, hB⟩
      · rw [hA] at h; cases h
      · rw [hA] at h
        rw [hB]
        exact h
  tgt_append := fun _ _ => rfl
  src_tgt := fun _ => rfl
  src_append := fun hx _ => outside_append hx

end Verif
