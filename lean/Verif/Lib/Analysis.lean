import Verif.Lib.ReChars

/-!
# Static analyses of programs

Each analysis is a total Boolean function on programs, with a theorem saying what a positive
answer means for every text and every environment that respects the stated contract.
-/

namespace Verif

/-! ## No crash -/

/-- Case mapping and normalisation return a string. -/
def Env.Total (E : Env) : Prop := ∀ h, h.isUnicode = true → ∀ s, ∃ s', E.host h s = .ok s'

/-- No exception is possible; with `attr`, none but `AttributeError`. -/
def Prog.safe (attr : Bool) : Prog → Bool
  | .done => true
  | .rep _ _ k => k.safe attr
  | .sub p t k =>
    match compileSub p t with
    | some _ => k.safe attr
    | none => false
  | .app _ k => k.safe attr
  | .pre _ k => k.safe attr
  | .set _ k => k.safe attr
  | .ite _ t e k =>
    match t.safe attr with
    | false => false
    | true => match e.safe attr with
      | false => false
      | true => k.safe attr
  | .attempt p k =>
    match p.safe true with
    | false => false
    | true => k.safe attr
  | .evens _ p k =>
    match p.safe attr with
    | false => false
    | true => k.safe attr
  | .host h k =>
    match h.isUnicode with
    | false => false
    | true => k.safe attr
  | .nat _ k => k.safe attr
  | .fail e =>
    match e with
    | .attributeError => attr
    | _ => false

/-- The result is a string, or `attr` and the exception is `AttributeError`. -/
def Fine (attr : Bool) (r : Except Exn PyStr) : Prop :=
  (∃ s, r = .ok s) ∨ (attr = true ∧ r = .error .attributeError)

theorem evensRun_fine {attr : Bool} {f : PyStr → Except Exn PyStr} (hf : ∀ s, Fine attr (f s))
    (b : Bool) (l : List PyStr) : Fine attr (evensRun f b l) := by
  induction l generalizing b with
  | nil => exact Or.inl ⟨[], by cases b <;> rfl⟩
  | cons w l ih =>
    cases b with
    | true =>
      simp only [evensRun]
      rcases hf w with ⟨s, hs⟩ | ⟨ha, hs⟩
      · rw [hs]
        simp only
        rcases ih false with ⟨t, ht⟩ | ⟨ha, ht⟩
        · rw [ht]; exact Or.inl ⟨_, rfl⟩
        · rw [ht]; exact Or.inr ⟨ha, rfl⟩
      · rw [hs]; exact Or.inr ⟨ha, rfl⟩
    | false =>
      simp only [evensRun]
      rcases ih true with ⟨t, ht⟩ | ⟨ha, ht⟩
      · rw [ht]; exact Or.inl ⟨_, rfl⟩
      · rw [ht]; exact Or.inr ⟨ha, rfl⟩

theorem Prog.safe_sound {E : Env} (hE : E.Total) {p : Prog} {attr : Bool} (h : p.safe attr = true)
    (s : PyStr) : Fine attr (p.run E s) := by
  induction p generalizing attr s with
  | done => exact Or.inl ⟨s, rfl⟩
  | rep x y k ih => exact ih h _
  | sub p t k ih =>
    simp only [Prog.safe] at h
    simp only [Prog.run]
    split at h
    · rename_i rt hrt
      rw [hrt]
      exact ih h _
    · cases h
  | app y k ih => exact ih h _
  | pre y k ih => exact ih h _
  | set y k ih => exact ih h _
  | ite c t e k iht ihe ih =>
    simp only [Prog.safe] at h
    split at h
    · cases h
    · rename_i ht
      split at h
      · cases h
      · rename_i he
        simp only [Prog.run]
        cases c.eval s with
        | true =>
          rcases iht ht s with ⟨s', hs⟩ | ⟨ha, hs⟩
          · simp only [hs]; exact ih h _
          · simp only [hs]; exact Or.inr ⟨ha, rfl⟩
        | false =>
          rcases ihe he s with ⟨s', hs⟩ | ⟨ha, hs⟩
          · simp only [hs]; exact ih h _
          · simp only [hs]; exact Or.inr ⟨ha, rfl⟩
  | attempt p k ihp ih =>
    simp only [Prog.safe] at h
    split at h
    · cases h
    · rename_i hp
      simp only [Prog.run]
      rcases ihp hp s with ⟨s', hs⟩ | ⟨_, hs⟩
      · rw [hs]; exact ih h _
      · rw [hs]; exact ih h _
  | evens sep p k ihp ih =>
    simp only [Prog.safe] at h
    split at h
    · cases h
    · rename_i hp
      simp only [Prog.run]
      rcases evensRun_fine (ihp hp) true (pySplit s sep) with ⟨s', hs⟩ | ⟨ha, hs⟩
      · rw [hs]; exact ih h _
      · rw [hs]; exact Or.inr ⟨ha, rfl⟩
  | host g k ih =>
    simp only [Prog.safe] at h
    split at h
    · cases h
    · rename_i hp
      obtain ⟨s', hs⟩ := hE g hp s
      simp only [Prog.run, hs]
      exact ih h _
  | nat f k ih => exact ih h _
  | fail e =>
    cases e <;> simp [Prog.safe] at h
    exact Or.inr ⟨h, rfl⟩

/-- A safe program returns a string for every text. -/
theorem Prog.safe_total {E : Env} (hE : E.Total) {p : Prog} (h : p.safe false = true) (s : PyStr) :
    ∃ s', p.run E s = .ok s' := by
  rcases Prog.safe_sound hE h s with h | ⟨h, _⟩
  · exact h
  · cases h

/-! ## Keeping the members of a set -/

/-- Case mapping and normalisation keep the members of `N`, in order, and none of them is a
combining mark. -/
structure Env.Keeps (E : Env) (N : CharSet) : Prop where
  ops : ∀ h, h.isUnicode = true → ∀ s s', E.host h s = .ok s' → s'.filter N.mem = s.filter N.mem
  marks : ∀ c, N.mem c = true → E.uni.isMark c = false

/-- Digits and numerals written by the numeral functions are not in the set. -/
def numeralsOut (N : CharSet) : Bool :=
  match N.rangeOut 48 57, N.rangeOut 0x10A40 0x10A47, N.rangeOut 0x103D1 0x103D5 with
  | true, true, true => true
  | _, _, _ => false

/-- The program keeps the members of `N`. -/
def Prog.keeps (N : CharSet) : Prog → Bool
  | .done => true
  | .rep x y k =>
    match freeOf N.mem x with
    | false => match strEq x y with | false => false | true => k.keeps N
    | true => match freeOf N.mem y with
      | false => false
      | true => k.keeps N
  | .sub p t k =>
    match compileSub p t with
    | none => true
    | some (r, tm) => match subKeeps N r tm with
      | false => false
      | true => k.keeps N
  | .app y k => match freeOf N.mem y with | false => false | true => k.keeps N
  | .pre y k => match freeOf N.mem y with | false => false | true => k.keeps N
  | .set _ _ => false
  | .ite _ t e k =>
    match t.keeps N with
    | false => false
    | true => match e.keeps N with
      | false => false
      | true => k.keeps N
  | .attempt p k => match p.keeps N with | false => false | true => k.keeps N
  | .evens sep p k =>
    match sep with
    | [] => false
    | _ :: _ =>
      match freeOf N.mem sep with
      | false => false
      | true => match p.keeps N with
        | false => false
        | true => k.keeps N
  | .host h k => match h.isUnicode with | false => false | true => k.keeps N
  | .nat _ k => match numeralsOut N with | false => false | true => k.keeps N
  | .fail _ => true

theorem evensRun_filter {N : Nat → Bool} {f : PyStr → Except Exn PyStr}
    (hf : ∀ s s', f s = .ok s' → s'.filter N = s.filter N) {b : Bool} {l : List PyStr} {s : PyStr}
    (h : evensRun f b l = .ok s) : s.filter N = l.flatten.filter N := by
  induction l generalizing b s with
  | nil => cases b <;> (cases h; rfl)
  | cons w l ih =>
    cases b with
    | true =>
      simp only [evensRun] at h
      split at h
      · cases h
      · rename_i a ha
        split at h
        · cases h
        · rename_i t ht
          cases h
          rw [List.filter_append, List.flatten_cons, List.filter_append, hf _ _ ha, ih ht]
    | false =>
      simp only [evensRun] at h
      split at h
      · cases h
      · rename_i t ht
        cases h
        rw [List.filter_append, List.flatten_cons, List.filter_append, ih ht]

theorem freeOf_of_all {N : CharSet} {s : PyStr} {a b : Nat} (h : N.rangeOut a b = true)
    (hs : ∀ c ∈ s, a ≤ c ∧ c ≤ b) : freeOf N.mem s = true := by
  rw [freeOf_iff, List.filter_eq_nil_iff]
  intro c hc
  rw [N.range_sound a b c h (hs c hc).1 (hs c hc).2]
  exact Bool.false_ne_true

theorem decDigits_range (fuel n : Nat) : ∀ c ∈ decDigits fuel n, 48 ≤ c ∧ c ≤ 57 := by
  induction fuel generalizing n with
  | zero => simp [decDigits]
  | succ fuel ih =>
    simp only [decDigits]
    split
    · intro c hc; simp at hc; omega
    · intro c hc
      rcases List.mem_append.1 hc with h | h
      · exact ih _ c h
      · simp at h; omega

theorem pyMul_range {a b : Nat} {s : PyStr} (h : ∀ c ∈ s, a ≤ c ∧ c ≤ b) (n : Nat) :
    ∀ c ∈ pyMul s n, a ≤ c ∧ c ≤ b := by
  intro c hc
  simp only [pyMul, List.mem_flatten, List.mem_replicate] at hc
  obtain ⟨t, ⟨_, rfl⟩, hc⟩ := hc
  exact h c hc

theorem kharoshthiOnes_range (n : Nat) : ∀ c ∈ kharoshthiOnes n, 0x10A40 ≤ c ∧ c ≤ 0x10A47 := by
  unfold kharoshthiOnes
  split <;> decide

theorem kharoshthiNumberF_range (fuel n : Nat) :
    ∀ c ∈ kharoshthiNumberF fuel n, 0x10A40 ≤ c ∧ c ≤ 0x10A47 := by
  induction fuel generalizing n with
  | zero => simp [kharoshthiNumberF]
  | succ fuel ih =>
    intro c hc
    have opt : ∀ (p q : Prop) [Decidable p] [Decidable q] (m : Nat) (z : Nat), 0x10A40 ≤ z → z ≤ 0x10A47 →
        c ∈ (if p then (if q then kharoshthiNumberF fuel m else []) ++ [z] else []) → 0x10A40 ≤ c ∧ c ≤ 0x10A47 := by
      intro p q _ _ m z hz1 hz2 h
      split at h
      · rcases List.mem_append.1 h with h | h
        · split at h
          · exact ih _ c h
          · cases h
        · simp at h; subst h; exact ⟨hz1, hz2⟩
      · cases h
    simp only [kharoshthiNumberF, List.mem_append] at hc
    rcases hc with (((h | h) | h) | h) | h
    · exact opt _ _ _ 0x10A47 (by decide) (by decide) (by simpa only [List.mem_append] using h)
    · exact opt _ _ _ 0x10A46 (by decide) (by decide) (by simpa only [List.mem_append] using h)
    · exact pyMul_range (by decide) _ c h
    · exact opt _ _ _ 0x10A44 (by decide) (by decide) (by simpa only [List.mem_append] using h)
    · exact kharoshthiOnes_range _ c h

theorem oldPersianNumber_range (n : Nat) : ∀ c ∈ oldPersianNumber n, 0x103D1 ≤ c ∧ c ≤ 0x103D5 := by
  intro c hc
  simp only [oldPersianNumber, List.mem_append] at hc
  rcases hc with (((h | h) | h) | h) | h <;> exact pyMul_range (by decide) _ c h

theorem foldl_replace_filter {N : Nat → Bool} (f g : Nat → PyStr) (l : List Nat)
    (hf : ∀ n, freeOf N (f n) = true) (hg : ∀ n, freeOf N (g n) = true) (s : PyStr) :
    (l.foldl (fun t num => pyReplace t (f num) (g num)) s).filter N = s.filter N := by
  induction l generalizing s with
  | nil => rfl
  | cons n l ih => rw [List.foldl_cons, ih, pyReplace_filter (hf n) (hg n)]

theorem native_keeps {N : CharSet} (h : numeralsOut N = true) (U : Uni) (f : Native) (s : PyStr) :
    (f.sem U s).filter N.mem = s.filter N.mem := by
  simp only [numeralsOut] at h
  split at h
  · rename_i h1 h2 h3
    cases f with
    | kharoshthiNumerals =>
      exact foldl_replace_filter _ _ _ (fun n => freeOf_of_all h1 (decDigits_range _ n))
        (fun n => freeOf_of_all h2 (kharoshthiNumberF_range _ n)) s
    | oldPersianNumeral =>
      exact foldl_replace_filter _ _ _ (fun n => freeOf_of_all h1 (decDigits_range _ n))
        (fun n => freeOf_of_all h3 (oldPersianNumber_range n)) s
  · cases h

theorem Prog.keeps_sound {E : Env} {N : CharSet} (hE : E.Keeps N) {p : Prog} (h : p.keeps N = true)
    {s s' : PyStr} (hr : p.run E s = .ok s') : s'.filter N.mem = s.filter N.mem := by
  induction p generalizing s s' with
  | done => cases hr; rfl
  | rep x y k ih =>
    simp only [Prog.keeps] at h
    split at h
    · rename_i hx
      split at h
      · cases h
      · rename_i hxy
        have := strEq_iff.1 hxy
        subst this
        rw [ih h hr, pyReplace_self (by rintro rfl; simp [freeOf] at hx)]
    · rename_i hx
      split at h
      · cases h
      · rename_i hy
        rw [ih h hr, pyReplace_filter hx hy]
  | sub p t k ih =>
    simp only [Prog.keeps] at h
    simp only [Prog.run] at hr
    split at h
    · rename_i hc; rw [hc] at hr; cases hr
    · rename_i r tm hc
      rw [hc] at hr
      split at h
      · cases h
      · rename_i hk
        rw [ih h hr, reSubC_keeps hE.marks hk]
  | app y k ih =>
    simp only [Prog.keeps] at h
    split at h
    · cases h
    · rename_i hy
      rw [ih h hr, List.filter_append, freeOf_iff.1 hy, List.append_nil]
  | pre y k ih =>
    simp only [Prog.keeps] at h
    split at h
    · cases h
    · rename_i hy
      rw [ih h hr, List.filter_append, freeOf_iff.1 hy, List.nil_append]
  | set y k ih => simp [Prog.keeps] at h
  | ite c t e k iht ihe ih =>
    simp only [Prog.keeps] at h
    split at h
    · cases h
    · rename_i ht
      split at h
      · cases h
      · rename_i he
        simp only [Prog.run] at hr
        cases hc : c.eval s with
        | true =>
          rw [hc] at hr
          simp only at hr
          split at hr
          · rename_i s1 hs1; rw [ih h hr, iht ht hs1]
          · cases hr
        | false =>
          rw [hc] at hr
          simp only at hr
          split at hr
          · rename_i s1 hs1; rw [ih h hr, ihe he hs1]
          · cases hr
  | attempt p k ihp ih =>
    simp only [Prog.keeps] at h
    split at h
    · cases h
    · rename_i hp
      simp only [Prog.run] at hr
      split at hr
      · rename_i s1 hs1; rw [ih h hr, ihp hp hs1]
      · exact ih h hr
      · cases hr
  | evens sep p k ihp ih =>
    simp only [Prog.keeps] at h
    split at h
    · cases h
    · rename_i c sep'
      split at h
      · cases h
      · rename_i hsep
        split at h
        · cases h
        · rename_i hp
          simp only [Prog.run] at hr
          split at hr
          · rename_i s1 hs1
            rw [ih h hr, evensRun_filter (fun _ _ => ihp hp) hs1, pySplit_filter (by simp) hsep]
          · cases hr
  | host g k ih =>
    simp only [Prog.keeps] at h
    split at h
    · cases h
    · rename_i hg
      simp only [Prog.run] at hr
      split at hr
      · rename_i s1 hs1; rw [ih h hr, hE.ops g hg _ _ hs1]
      · cases hr
  | nat f k ih =>
    simp only [Prog.keeps] at h
    split at h
    · cases h
    · rename_i hn
      rw [ih h hr, native_keeps hn]
  | fail e => cases hr

/-! ## Doing nothing on texts over an alphabet -/

/-- Case mapping and normalisation leave texts over `A` alone. -/
def Env.Fixes (E : Env) (A : CharSet) : Prop :=
  ∀ h, h.isUnicode = true → ∀ s, Over A s → E.host h s = .ok s

/-- None of the characters is in the range. -/
def rangeFree (a b : Nat) : PyStr → Bool
  | [] => true
  | c :: y =>
    match Nat.ble a c, Nat.ble c b with
    | true, true => false
    | _, _ => rangeFree a b y

theorem rangeFree_sound {a b : Nat} {y : PyStr} (h : rangeFree a b y = true) {c : Nat} (h1 : a ≤ c) (h2 : c ≤ b) :
    c ∉ y := by
  induction y with
  | nil => simp
  | cons d y ih =>
    simp only [rangeFree] at h
    split at h
    · cases h
    · rename_i hn
      simp only [List.mem_cons, not_or]
      refine ⟨?_, ih h⟩
      rintro rfl
      exact hn (Nat.ble_eq_true_of_le h1) (Nat.ble_eq_true_of_le h2)

/-- No white space among the characters. -/
def spaceFree : PyStr → Bool
  | [] => true
  | c :: y => match isSpace c with | true => false | false => spaceFree y

theorem spaceFree_sound {y : PyStr} (h : spaceFree y = true) {c : Nat} (hc : isSpace c = true) : c ∉ y := by
  induction y with
  | nil => simp
  | cons d y ih =>
    simp only [spaceFree] at h
    split at h
    · cases h
    · rename_i hn
      simp only [List.mem_cons, not_or]
      refine ⟨?_, ih h⟩
      rintro rfl
      rw [hn] at hc
      cases hc

/-- The alphabet with the characters of `y` added. -/
def CharSet.plus (A : CharSet) (y : PyStr) : CharSet where
  mem := fun c => match A.mem c with | true => true | false => natMem c y
  rangeOut := fun a b => match A.rangeOut a b with | false => false | true => rangeFree a b y
  noSpace := match A.noSpace with | false => false | true => spaceFree y
  range_sound := by
    intro a b c h h1 h2
    split at h
    · cases h
    · rename_i hA
      rw [A.range_sound a b c hA h1 h2]
      cases hm : natMem c y with
      | false => rfl
      | true => exact absurd (natMem_iff.1 hm) (rangeFree_sound h h1 h2)
  space_sound := by
    intro h c hc
    split at h
    · cases h
    · rename_i hA
      rw [A.space_sound hA c hc]
      cases hm : natMem c y with
      | false => rfl
      | true => exact absurd (natMem_iff.1 hm) (spaceFree_sound h hc)

theorem Over.plus {A : CharSet} {y s : PyStr} (hs : Over A s) : Over (A.plus y) (y ++ s) := by
  intro c hc
  simp only [CharSet.plus]
  split
  · rfl
  · rename_i hA
    rcases List.mem_append.1 hc with h | h
    · exact natMem_iff.2 h
    · rw [hs c h] at hA; cases hA

/-- On texts over `A` the program does nothing (exceptions aside).  With a mark `y`, the text has
been written after `y`, and the program removes it again. -/
def Prog.inertM (A : CharSet) : Prog → Option PyStr → Bool
  | .done, m => match m with | none => true | some _ => false
  | .rep x e k, m =>
    match m with
    | none =>
      match outside A x with
      | true => k.inertM A none
      | false =>
        match x with
        | [] => false
        | _ :: _ => match strEq x e with | true => k.inertM A none | false => false
    | some y =>
      match e, strEq x y with
      | [], true => k.inertM A none
      | _, _ => match outside (A.plus y) x with | true => k.inertM A (some y) | false => false
  | .sub p t k, m =>
    match compileSub p t with
    | none => true
    | some (r, _) =>
      match m with
      | none => match r.blocked A with | false => false | true => k.inertM A none
      | some y => match r.blocked (A.plus y) with | false => false | true => k.inertM A (some y)
  | .app _ _, _ => false
  | .pre y k, m =>
    match m with
    | none => match outside A y with | true => k.inertM A (some y) | false => false
    | some _ => false
  | .set _ _, _ => false
  | .ite _ t e k, m =>
    match m with
    | none =>
      match t.inertM A none with
      | false => false
      | true => match e.inertM A none with
        | false => false
        | true => k.inertM A none
    | some _ => false
  | .attempt p k, m =>
    match m with
    | none => match p.inertM A none with | false => false | true => k.inertM A none
    | some _ => false
  | .evens sep p k, m =>
    match m with
    | none =>
      match outside A sep with
      | false => false
      | true => match p.inertM A none with
        | false => false
        | true => k.inertM A none
    | some _ => false
  | .host h k, m =>
    match m with
    | none => match h.isUnicode with | false => false | true => k.inertM A none
    | some _ => false
  | .nat _ k, m =>
    match m with
    | none => match A.rangeOut 48 57 with | false => false | true => k.inertM A none
    | some _ => false
  | .fail _, _ => true

/-- On texts over `A` the program does nothing (exceptions aside). -/
def Prog.inert (A : CharSet) (p : Prog) : Bool := p.inertM A none

theorem decDigits_ne_nil {fuel : Nat} (hf : fuel ≠ 0) (n : Nat) : decDigits fuel n ≠ [] := by
  cases fuel with
  | zero => exact absurd rfl hf
  | succ fuel => simp only [decDigits]; split <;> simp

theorem foldl_replace_outside {A : CharSet} (f g : Nat → PyStr) (l : List Nat)
    (hf : ∀ n ∈ l, outside A (f n) = true) {s : PyStr} (hs : Over A s) :
    l.foldl (fun t num => pyReplace t (f num) (g num)) s = s := by
  induction l with
  | nil => rfl
  | cons n l ih =>
    rw [List.foldl_cons, pyReplace_outside (hf n (List.mem_cons_self ..)) hs]
    exact ih fun n hn => hf n (List.mem_cons_of_mem _ hn)

theorem outside_of_range {A : CharSet} {a b : Nat} (h : A.rangeOut a b = true) {s : PyStr} (hne : s ≠ [])
    (hs : ∀ c ∈ s, a ≤ c ∧ c ≤ b) : outside A s = true := by
  cases s with
  | nil => exact absurd rfl hne
  | cons c s =>
    have := hs c (List.mem_cons_self ..)
    simp only [outside, A.range_sound a b c h this.1 this.2]

/-- The numeral functions leave a text without ASCII digits alone. -/
theorem native_inert {A : CharSet} (h : A.rangeOut 48 57 = true) (U : Uni) (f : Native) {s : PyStr}
    (hs : Over A s) : f.sem U s = s := by
  cases f with
  | kharoshthiNumerals =>
    exact foldl_replace_outside _ _ _
      (fun n _ => outside_of_range h (decDigits_ne_nil (Nat.succ_ne_zero _) n) (decDigits_range _ n)) hs
  | oldPersianNumeral =>
    exact foldl_replace_outside _ _ _
      (fun n _ => outside_of_range h (decDigits_ne_nil (Nat.succ_ne_zero _) n) (decDigits_range _ n)) hs

/-- The text as it stands at a point of the program. -/
def marked (m : Option PyStr) (s : PyStr) : PyStr := m.getD [] ++ s

theorem Prog.inertM_sound {E : Env} {A : CharSet} (hE : E.Fixes A) {p : Prog} {m : Option PyStr}
    (hm : ∀ y, m = some y → outside A y = true) (h : p.inertM A m = true)
    {s s' : PyStr} (hs : Over A s) (hr : p.run E (marked m s) = .ok s') : s' = s := by
  induction p generalizing m s s' with
  | done =>
    cases m with
    | none => cases hr; rfl
    | some y => simp [Prog.inertM] at h
  | rep x e k ih =>
    cases m with
    | none =>
      simp only [Prog.inertM] at h
      simp only [Prog.run, marked, Option.getD_none, List.nil_append] at hr
      split at h
      · rename_i hx
        rw [pyReplace_outside hx hs] at hr
        exact ih (m := none) hm h hs hr
      · split at h
        · cases h
        · split at h
          · rename_i hxe
            have := strEq_iff.1 hxe
            subst this
            rw [pyReplace_self (by simp)] at hr
            exact ih (m := none) hm h hs hr
          · cases h
    | some y =>
      simp only [Prog.inertM] at h
      simp only [Prog.run, marked, Option.getD_some] at hr
      have hy := hm y rfl
      split at h
      · rename_i hxy
        have := strEq_iff.1 hxy
        subst this
        rw [pyReplace_hit (outside_ne_nil hy), pyReplace_outside hy hs, List.nil_append] at hr
        exact ih (m := none) (by simp) h hs hr
      · split at h
        · rename_i hx
          rw [pyReplace_outside hx hs.plus] at hr
          exact ih (m := some y) hm h hs hr
        · cases h
  | sub p t k ih =>
    simp only [Prog.inertM] at h
    simp only [Prog.run] at hr
    split at h
    · rename_i hc; rw [hc] at hr; cases hr
    · rename_i r tm hc
      rw [hc] at hr
      cases m with
      | none =>
        simp only at h
        split at h
        · cases h
        · rename_i hk
          simp only [marked, Option.getD_none, List.nil_append, reSubC_blocked hk hs] at hr
          exact ih (m := none) hm h hs hr
      | some y =>
        simp only at h
        split at h
        · cases h
        · rename_i hk
          simp only [marked, Option.getD_some, reSubC_blocked hk hs.plus] at hr
          exact ih (m := some y) hm h hs hr
  | app y k ih => simp [Prog.inertM] at h
  | pre y k ih =>
    cases m with
    | some _ => simp [Prog.inertM] at h
    | none =>
      simp only [Prog.inertM] at h
      split at h
      · rename_i hy
        exact ih (m := some y) (by rintro _ ⟨⟩; exact hy) h hs hr
      · cases h
  | set y k ih => simp [Prog.inertM] at h
  | ite c t e k iht ihe ih =>
    cases m with
    | some _ => simp [Prog.inertM] at h
    | none =>
      simp only [Prog.inertM] at h
      split at h
      · cases h
      · rename_i ht
        split at h
        · cases h
        · rename_i he
          simp only [Prog.run] at hr
          cases hc : c.eval (marked none s) with
          | true =>
            rw [hc] at hr
            simp only at hr
            split at hr
            · rename_i s1 hs1
              have := iht hm ht hs hs1
              subst this
              exact ih hm h hs hr
            · cases hr
          | false =>
            rw [hc] at hr
            simp only at hr
            split at hr
            · rename_i s1 hs1
              have := ihe hm he hs hs1
              subst this
              exact ih hm h hs hr
            · cases hr
  | attempt p k ihp ih =>
    cases m with
    | some _ => simp [Prog.inertM] at h
    | none =>
      simp only [Prog.inertM] at h
      split at h
      · cases h
      · rename_i hp
        simp only [Prog.run] at hr
        split at hr
        · rename_i s1 hs1
          have := ihp hm hp hs hs1
          subst this
          exact ih hm h hs hr
        · exact ih hm h hs hr
        · cases hr
  | evens sep p k ihp ih =>
    cases m with
    | some _ => simp [Prog.inertM] at h
    | none =>
      simp only [Prog.inertM] at h
      split at h
      · cases h
      · rename_i hsep
        split at h
        · cases h
        · rename_i hp
          simp only [Prog.run, marked, Option.getD_none, List.nil_append,
            pySplit_of_not_infix (outside_not_infix hsep hs), evensRun] at hr
          cases hr1 : p.run E s with
          | error e => rw [hr1] at hr; cases hr
          | ok s1 =>
            rw [hr1] at hr
            have := ihp hm hp hs hr1
            subst this
            simp only [List.append_nil] at hr
            exact ih hm h hs hr
  | host g k ih =>
    cases m with
    | some _ => simp [Prog.inertM] at h
    | none =>
      simp only [Prog.inertM] at h
      split at h
      · cases h
      · rename_i hg
        simp only [Prog.run, marked, Option.getD_none, List.nil_append, hE g hg s hs] at hr
        exact ih hm h hs hr
  | nat f k ih =>
    cases m with
    | some _ => simp [Prog.inertM] at h
    | none =>
      simp only [Prog.inertM] at h
      split at h
      · cases h
      · rename_i hn
        simp only [Prog.run, marked, Option.getD_none, List.nil_append, native_inert hn _ f hs] at hr
        exact ih hm h hs hr
  | fail e => cases hr

theorem Prog.inert_sound {E : Env} {A : CharSet} (hE : E.Fixes A) {p : Prog} (h : p.inert A = true)
    {s s' : PyStr} (hs : Over A s) (hr : p.run E s = .ok s') : s' = s :=
  Prog.inertM_sound hE (m := none) (by simp) h hs hr

end Verif
