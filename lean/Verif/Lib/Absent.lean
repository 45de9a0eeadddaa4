import Verif.Lib.Analysis

/-!
# Which characters a program can leave in its result
-/

namespace Verif

/-- Replacing a single character. -/
theorem pyReplace_single (m : Nat) (y s : PyStr) :
    pyReplace s [m] y = s.flatMap fun c => if c = m then y else [c] := by
  induction s with
  | nil => rfl
  | cons c cs ih =>
    rw [pyReplace_cons, List.flatMap_cons]
    by_cases h : c = m
    · subst h
      rw [if_pos (List.cons_prefix_cons.2 ⟨rfl, List.nil_prefix⟩), if_pos rfl]
      simp [ih]
    · rw [if_neg (fun hp => h (by simpa using (List.cons_prefix_cons.1 hp).1.symm)), if_neg h, ih]
      rfl

theorem pyReplace_single_all {P : Nat → Prop} {m : Nat} {y s : PyStr} (hs : AllC (fun c => c = m ∨ P c) s)
    (hy : AllC P y) : AllC P (pyReplace s [m] y) := by
  rw [pyReplace_single]
  intro c hc
  obtain ⟨d, hd, hc⟩ := List.mem_flatMap.1 hc
  split at hc
  · exact hy c hc
  · rename_i hm
    simp only [List.mem_cons, List.not_mem_nil, or_false] at hc
    subst hc
    exact (hs c hd).resolve_left hm

/-- The literals of a template are characters of its source text, or control characters 7-13. -/
theorem parseTmpl_lits {P : Nat → Prop} (hctl : ∀ c, 7 ≤ c → c ≤ 13 → P c) {ng skip : Nat} {t : PyStr}
    (ht : AllC P t) {tm : List TItem} (h : parseTmpl ng skip t = some tm) : LitsAll P tm := by
  induction t generalizing skip tm with
  | nil => cases skip <;> (simp [parseTmpl] at h; subst h; intro c hc; cases hc)
  | cons c cs ih =>
    have hcs := (AllC.cons.1 ht).2
    have hc := (AllC.cons.1 ht).1
    have key : ∀ {k : Nat} {l : List TItem} {tm : List TItem}, LitsAll P l →
        (parseTmpl ng k cs).map (l ++ ·) = some tm → LitsAll P tm := by
      intro k l tm hl hm
      obtain ⟨t', h1, rfl⟩ := Option.map_eq_some_iff.1 hm
      intro x hx
      rcases List.mem_append.1 hx with hx | hx
      · exact hl x hx
      · exact ih hcs h1 x hx
    have one : ∀ x, P x → LitsAll P [.lit x] := by
      intro x hx y hy
      simp only [List.mem_cons, List.not_mem_nil, or_false, TItem.lit.injEq] at hy
      exact hy ▸ hx
    have refs : ∀ n, LitsAll P [.ref n] := by
      intro n y hy
      simp at hy
    cases skip with
    | succ k => simp only [parseTmpl] at h; exact ih hcs h
    | zero =>
      simp only [parseTmpl] at h
      split at h
      · rename_i h92
        subst h92
        split at h
        · cases h
        · rename_i d rest
          have hd := (AllC.cons.1 hcs).1
          split at h
          · split at h
            · cases h
            · split at h
              · split at h
                · split at h
                  · exact key (refs _) h
                  · cases h
                · split at h
                  · exact key (refs _) h
                  · cases h
              · split at h
                · exact key (refs _) h
                · cases h
          · split at h
            · rename_i e he
              refine key (one e (hctl e ?_ ?_)) h <;>
              · unfold escCtl at he
                split at he <;> simp at he <;> omega
            · split at h
              · exact key (one _ hc) h
              · split at h
                · cases h
                · refine key (l := [.lit 92, .lit d]) ?_ h
                  intro y hy
                  simp only [List.mem_cons, List.not_mem_nil, or_false, TItem.lit.injEq] at hy
                  rcases hy with rfl | rfl
                  · exact hc
                  · exact hd
      · exact key (one _ hc) h

/-! ## Bookkeeping of watched characters -/

/-- Add the watched characters of a string. -/
def soil (M : Nat → Bool) (d : List Nat) : PyStr → List Nat
  | [] => d
  | c :: y =>
    match M c with
    | true => c :: soil M d y
    | false => soil M d y

/-- The string contains a watched character that the text does not. -/
def cannotOccur (M : Nat → Bool) (d : List Nat) : PyStr → Bool
  | [] => false
  | c :: x =>
    match M c with
    | false => cannotOccur M d x
    | true => match natMem c d with
      | true => cannotOccur M d x
      | false => true

/-- The watched characters that the text may contain after the program, if it may contain those in
`d` before it.  `Ml` lists the watched characters. -/
def Prog.dirt (M : Nat → Bool) (Ml : List Nat) : Prog → List Nat → List Nat
  | .done, d => d
  | .rep x y k, d =>
    match cannotOccur M d x with
    | true => k.dirt M Ml d
    | false =>
      k.dirt M Ml (soil M (match x with
        | [m] => match M m with
          | true => d.filter (fun c => !(Nat.beq c m))
          | false => d
        | _ => d) y)
  | .sub _ t k, d => k.dirt M Ml (soil M d t)
  | .app y k, d => k.dirt M Ml (soil M d y)
  | .pre y k, d => k.dirt M Ml (soil M d y)
  | .set y k, _ => k.dirt M Ml (soil M [] y)
  | .ite _ t e k, d => k.dirt M Ml (t.dirt M Ml d ++ e.dirt M Ml d)
  | .attempt p k, d => k.dirt M Ml (p.dirt M Ml d ++ d)
  | .evens _ p k, d => k.dirt M Ml (p.dirt M Ml d ++ d)
  | .host _ k, _ => k.dirt M Ml Ml
  | .nat _ k, _ => k.dirt M Ml Ml
  | .fail _, _ => []

/-- All watched characters of the text are in `d`. -/
def Within (M : Nat → Bool) (d : List Nat) (s : PyStr) : Prop := AllC (fun c => M c = true → c ∈ d) s

theorem within_mono {M : Nat → Bool} {d d' : List Nat} (h : ∀ c ∈ d, c ∈ d') {s : PyStr}
    (hs : Within M d s) : Within M d' s := fun c hc hm => h c (hs c hc hm)

theorem soil_sub (M : Nat → Bool) (d : List Nat) (y : PyStr) : ∀ c ∈ d, c ∈ soil M d y := by
  induction y with
  | nil => exact fun c hc => hc
  | cons a y ih =>
    intro c hc
    simp only [soil]
    split
    · exact List.mem_cons_of_mem _ (ih c hc)
    · exact ih c hc

theorem soil_within (M : Nat → Bool) (d : List Nat) (y : PyStr) : Within M (soil M d y) y := by
  induction y with
  | nil => exact AllC.nil
  | cons a y ih =>
    simp only [soil]
    split
    · exact AllC.cons.2 ⟨fun _ => List.mem_cons_self .., within_mono (fun c hc => List.mem_cons_of_mem _ hc) ih⟩
    · rename_i h
      exact AllC.cons.2 ⟨fun h' => absurd (h ▸ h') Bool.false_ne_true, ih⟩

theorem splitGo_all {P : Nat → Prop} {sep acc : PyStr} (hacc : AllC P acc) {n : Nat} {s : PyStr} (hs : AllC P s) :
    ∀ w ∈ splitGo sep n acc s, AllC P w := by
  induction s generalizing acc n with
  | nil =>
    intro w hw
    cases n <;> (simp only [splitGo, List.mem_cons, List.not_mem_nil, or_false] at hw; subst hw
                 exact AllC.reverse.2 hacc)
  | cons c cs ih =>
    have hcs := (AllC.cons.1 hs).2
    cases n with
    | succ n => simp only [splitGo]; exact ih hacc hcs
    | zero =>
      simp only [splitGo]
      split
      · intro w hw
        rcases List.mem_cons.1 hw with rfl | hw
        · exact AllC.reverse.2 hacc
        · exact ih AllC.nil hcs w hw
      · exact ih (AllC.cons.2 ⟨(AllC.cons.1 hs).1, hacc⟩) hcs

theorem evensRun_all {P Q : Nat → Prop} {f : PyStr → Except Exn PyStr}
    (hf : ∀ s s', AllC P s → f s = .ok s' → AllC Q s') (hPQ : ∀ c, P c → Q c) {b : Bool} {l : List PyStr}
    (hl : ∀ w ∈ l, AllC P w) {s : PyStr} (h : evensRun f b l = .ok s) : AllC Q s := by
  induction l generalizing b s with
  | nil => cases b <;> (cases h; exact AllC.nil)
  | cons w l ih =>
    have hl' : ∀ w ∈ l, AllC P w := fun w hw => hl w (List.mem_cons_of_mem _ hw)
    have hw := hl w (List.mem_cons_self ..)
    cases b with
    | true =>
      simp only [evensRun] at h
      split at h
      · cases h
      · rename_i a ha
        split at h
        · cases h
        · rename_i t ht
          cases h
          exact AllC.append.2 ⟨hf _ _ hw ha, ih hl' ht⟩
    | false =>
      simp only [evensRun] at h
      split at h
      · cases h
      · rename_i t ht
        cases h
        exact AllC.append.2 ⟨fun c hc => hPQ c (hw c hc), ih hl' ht⟩

theorem cannotOccur_sound {M : Nat → Bool} {d : List Nat} {x : PyStr} (h : cannotOccur M d x = true) :
    ∃ c ∈ x, M c = true ∧ c ∉ d := by
  induction x with
  | nil => simp [cannotOccur] at h
  | cons a x ih =>
    have lift : cannotOccur M d x = true → ∃ c ∈ a :: x, M c = true ∧ c ∉ d := fun h => by
      obtain ⟨c, hc, h1⟩ := ih h
      exact ⟨c, List.mem_cons_of_mem _ hc, h1⟩
    simp only [cannotOccur] at h
    split at h
    · exact lift h
    · rename_i hM
      split at h
      · exact lift h
      · rename_i hd
        exact ⟨a, List.mem_cons_self .., hM, fun hm => by rw [natMem_iff.2 hm] at hd; cases hd⟩

theorem Prog.dirt_sound {E : Env} {M : Nat → Bool} {Ml : List Nat} (hM : ∀ c, M c = true → c ∈ Ml)
    (hctl : ∀ c, 7 ≤ c → c ≤ 13 → M c = false) {p : Prog} {d : List Nat} {s s' : PyStr}
    (hs : Within M d s) (hr : p.run E s = .ok s') : Within M (p.dirt M Ml d) s' := by
  have hall : ∀ s : PyStr, Within M Ml s := fun s c _ hm => hM c hm
  induction p generalizing d s s' with
  | done => cases hr; exact hs
  | rep x y k ih =>
    simp only [Prog.dirt]
    split
    · rename_i hx
      obtain ⟨c, hc, hm, hd⟩ := cannotOccur_sound hx
      have : pyReplace s x y = s := pyReplace_of_not_infix (List.ne_nil_of_mem hc)
        fun hi => hd (hs c (hi.subset hc) hm)
      simp only [Prog.run, this] at hr
      exact ih hs hr
    refine ih (s := pyReplace s x y) ?_ hr
    split
    · rename_i m _
      split
      · refine pyReplace_single_all (fun c hc => ?_) (soil_within _ _ _)
        by_cases hcm : c = m
        · exact Or.inl hcm
        · refine Or.inr fun hm => soil_sub M _ y c ?_
          rw [List.mem_filter]
          exact ⟨hs c hc hm, by simp [beq_false.2 hcm]⟩
      · exact pyReplace_all (within_mono (soil_sub _ _ _) hs) (soil_within _ _ _)
    · exact pyReplace_all (within_mono (soil_sub _ _ _) hs) (soil_within _ _ _)
  | sub p t k ih =>
    simp only [Prog.run] at hr
    split at hr
    · cases hr
    · rename_i r tm hc
      refine ih (s := reSubC E.uni r tm s) ?_ hr
      refine reSubC_all ?_ (within_mono (soil_sub M d t) hs)
      unfold compileSub at hc
      split at hc
      · cases hc
      · split at hc
        · cases hc
        · rename_i htm
          cases hc
          refine parseTmpl_lits ?_ (soil_within M d t) htm
          intro c h1 h2 hm
          rw [hctl c h1 h2] at hm
          cases hm
  | app y k ih =>
    exact ih (s := s ++ y) (AllC.append.2 ⟨within_mono (soil_sub _ _ _) hs, soil_within _ _ _⟩) hr
  | pre y k ih =>
    exact ih (s := y ++ s) (AllC.append.2 ⟨soil_within _ _ _, within_mono (soil_sub _ _ _) hs⟩) hr
  | set y k ih => exact ih (s := y) (soil_within _ _ _) hr
  | ite c t e k iht ihe ih =>
    simp only [Prog.run] at hr
    cases hc : c.eval s with
    | true =>
      rw [hc] at hr
      simp only at hr
      split at hr
      · rename_i s1 hs1
        exact ih (within_mono (fun c hc => List.mem_append_left _ hc) (iht hs hs1)) hr
      · cases hr
    | false =>
      rw [hc] at hr
      simp only at hr
      split at hr
      · rename_i s1 hs1
        exact ih (within_mono (fun c hc => List.mem_append_right _ hc) (ihe hs hs1)) hr
      · cases hr
  | attempt p k ihp ih =>
    simp only [Prog.run] at hr
    split at hr
    · rename_i s1 hs1
      exact ih (within_mono (fun c hc => List.mem_append_left _ hc) (ihp hs hs1)) hr
    · exact ih (within_mono (fun c hc => List.mem_append_right _ hc) hs) hr
    · cases hr
  | evens sep p k ihp ih =>
    simp only [Prog.run] at hr
    split at hr
    · rename_i s1 hs1
      refine ih (s := s1) ?_ hr
      exact evensRun_all (P := fun c => M c = true → c ∈ d)
        (fun a b ha hb => within_mono (fun c hc => List.mem_append_left _ hc) (ihp ha hb))
        (fun c hc hm => List.mem_append_right _ (hc hm)) (splitGo_all AllC.nil hs) hs1
    · cases hr
  | host g k ih =>
    simp only [Prog.run] at hr
    split at hr
    · rename_i s1 hs1; exact ih (hall s1) hr
    · cases hr
  | nat f k ih => exact ih (hall _) hr
  | fail e => cases hr

/-! ## Characters a program can insert -/

/-- All characters of the string satisfy the test. -/
def allIn (B : Nat → Bool) : PyStr → Bool
  | [] => true
  | c :: s => match B c with | true => allIn B s | false => false

theorem allIn_iff {B : Nat → Bool} {s : PyStr} : allIn B s = true ↔ AllC (fun c => B c = true) s := by
  induction s with
  | nil => simp [allIn, AllC]
  | cons c s ih =>
    simp only [allIn, AllC.cons, ← ih]
    cases B c <;> simp

/-- Everything the program inserts is in `B`. -/
def Prog.emits (B : Nat → Bool) : Prog → Bool
  | .done => true
  | .rep _ y k => match allIn B y with | true => k.emits B | false => false
  | .sub _ t k => match allIn (fun c => B c || isDig c || Nat.beq c 92) t with | true => k.emits B | false => false
  | .app y k => match allIn B y with | true => k.emits B | false => false
  | .pre y k => match allIn B y with | true => k.emits B | false => false
  | .set _ _ => false
  | .ite _ t e k =>
    match t.emits B with
    | false => false
    | true => match e.emits B with
      | false => false
      | true => k.emits B
  | .attempt p k => match p.emits B with | false => false | true => k.emits B
  | .evens _ p k => match p.emits B with | false => false | true => k.emits B
  | .host _ _ => false
  | .nat _ _ => false
  | .fail _ => true

theorem Prog.emits_sound {E : Env} {B : Nat → Bool} {P : Nat → Prop} (hBP : ∀ c, B c = true → P c)
    (hdig : ∀ c, isDig c = true → P c) (hbs : P 92) (hctl : ∀ c, 7 ≤ c → c ≤ 13 → P c)
    {p : Prog} (h : p.emits B = true) {s s' : PyStr} (hs : AllC P s) (hr : p.run E s = .ok s') :
    AllC P s' := by
  have lift : ∀ {y : PyStr}, allIn B y = true → AllC P y := fun hy c hc => hBP c (allIn_iff.1 hy c hc)
  induction p generalizing s s' with
  | done => cases hr; exact hs
  | rep x y k ih =>
    simp only [Prog.emits] at h
    split at h
    · rename_i hy; exact ih h (pyReplace_all hs (lift hy)) hr
    · cases h
  | sub p t k ih =>
    simp only [Prog.emits] at h
    split at h
    · rename_i hy
      simp only [Prog.run] at hr
      split at hr
      · cases hr
      · rename_i r tm hc
        refine ih h (reSubC_all ?_ hs) hr
        unfold compileSub at hc
        split at hc
        · cases hc
        · split at hc
          · cases hc
          · rename_i htm
            cases hc
            refine parseTmpl_lits hctl (fun c hc => ?_) htm
            have := allIn_iff.1 hy c hc
            simp only [Bool.or_eq_true] at this
            rcases this with (h | h) | h
            · exact hBP c h
            · exact hdig c h
            · exact beq_true.1 h ▸ hbs
    · cases h
  | app y k ih =>
    simp only [Prog.emits] at h
    split at h
    · rename_i hy; exact ih h (AllC.append.2 ⟨hs, lift hy⟩) hr
    · cases h
  | pre y k ih =>
    simp only [Prog.emits] at h
    split at h
    · rename_i hy; exact ih h (AllC.append.2 ⟨lift hy, hs⟩) hr
    · cases h
  | set y k ih => simp [Prog.emits] at h
  | ite c t e k iht ihe ih =>
    simp only [Prog.emits] at h
    split at h
    · cases h
    · rename_i ht
      split at h
      · cases h
      · rename_i he
        simp only [Prog.run] at hr
        cases hc : c.eval s with
        | true =>
          rw [hc] at hr
          simp only at hr
          split at hr
          · rename_i s1 hs1; exact ih h (iht ht hs hs1) hr
          · cases hr
        | false =>
          rw [hc] at hr
          simp only at hr
          split at hr
          · rename_i s1 hs1; exact ih h (ihe he hs hs1) hr
          · cases hr
  | attempt p k ihp ih =>
    simp only [Prog.emits] at h
    split at h
    · cases h
    · rename_i hp
      simp only [Prog.run] at hr
      split at hr
      · rename_i s1 hs1; exact ih h (ihp hp hs hs1) hr
      · exact ih h hs hr
      · cases hr
  | evens sep p k ihp ih =>
    simp only [Prog.emits] at h
    split at h
    · cases h
    · rename_i hp
      simp only [Prog.run] at hr
      split at hr
      · rename_i s1 hs1
        exact ih h (evensRun_all (fun a b ha hb => ihp hp ha hb) (fun c hc => hc) (splitGo_all AllC.nil hs) hs1) hr
      · cases hr
  | host g k ih => simp [Prog.emits] at h
  | nat f k ih => simp [Prog.emits] at h
  | fail e => cases hr

end Verif
