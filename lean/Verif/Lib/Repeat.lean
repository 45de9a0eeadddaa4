import Verif.Lib.Absent
import Verif.Lib.OptionOrder
import Verif.Spec.Repeat

/-!
# Programs that change nothing when run again
-/

namespace Verif

theorem pyReplace_cases {x : PyStr} (hx : x ≠ []) (y : PyStr) (c : Nat) (s : PyStr) :
    (∃ r, c :: s = x ++ r ∧ pyReplace (c :: s) x y = y ++ pyReplace r x y) ∨
      (¬ x <+: c :: s ∧ pyReplace (c :: s) x y = c :: pyReplace s x y) := by
  cases x with
  | nil => exact absurd rfl hx
  | cons a x =>
    rw [pyReplace_cons]
    by_cases hp : (a :: x) <+: c :: s
    · left
      obtain ⟨r, hr⟩ := hp
      refine ⟨r, hr.symm, ?_⟩
      rw [if_pos ⟨r, hr⟩, ← hr, List.drop_left]
    · exact .inr ⟨hp, if_neg hp⟩

/-- Words without the characters of the replacement begin the result only where they begin the text. -/
theorem prefix_before_replacing {x y w s : PyStr} (hx : x ≠ []) (hy : y ≠ []) (hw : ∀ c ∈ y, c ∉ w) (h : w <+: pyReplace s x y) :
    w <+: s := by
  induction s generalizing w with
  | nil => cases x with
    | nil => exact absurd rfl hx
    | cons a x => exact h
  | cons c s ih =>
    cases w with
    | nil => exact List.nil_prefix
    | cons d w =>
      rcases pyReplace_cases hx y c s with ⟨r, -, he⟩ | ⟨-, he⟩
      · rw [he] at h
        cases y with
        | nil => exact absurd rfl hy
        | cons e y =>
          rw [List.cons_append, List.cons_prefix_cons] at h
          exact absurd (by rw [h.1]; simp) (hw e (by simp))
      · rw [he, List.cons_prefix_cons] at h
        rw [List.cons_prefix_cons]
        exact ⟨h.1, ih (fun e he hm => hw e he (List.mem_cons_of_mem _ hm)) h.2⟩

/-- A word without the characters of `y` does not begin in `y`. -/
theorem infix_after {w y r : PyStr} (hw : ∀ c ∈ y, c ∉ w) (hne : w ≠ []) (h : w <:+: y ++ r) : w <:+: r := by
  induction y with
  | nil => exact h
  | cons c y ih =>
    rw [List.cons_append] at h
    rcases List.infix_cons_iff.1 h with hp | hi
    · cases w with
      | nil => exact absurd rfl hne
      | cons d w =>
        rw [List.cons_prefix_cons] at hp
        exact absurd (by rw [hp.1]; simp) (hw c (by simp))
    · exact ih (fun d hd => hw d (List.mem_cons_of_mem _ hd)) hi

theorem infix_of_replaced {x y w s : PyStr} (hx : x ≠ []) (hy : y ≠ []) (hw : ∀ c ∈ y, c ∉ w) (hne : w ≠ [])
    (h : w <:+: pyReplace s x y) : w <:+: s ∧ w ≠ x := by
  induction hn : s.length using Nat.strongRecOn generalizing s with
  | _ n ih =>
    cases s with
    | nil =>
      have : pyReplace [] x y = [] := by
        cases x with
        | nil => exact absurd rfl hx
        | cons a x => rfl
      rw [this] at h
      exact absurd (List.infix_nil.1 h) hne
    | cons c s =>
      rcases pyReplace_cases hx y c s with ⟨r, hr, he⟩ | ⟨hp, he⟩
      · rw [he] at h
        have hl : 0 < x.length := List.length_pos_iff.2 hx
        have := ih r.length (by rw [← hn, hr, List.length_append]; omega) (infix_after hw hne h) rfl
        exact ⟨hr ▸ this.1.trans (List.suffix_append x r).isInfix, this.2⟩
      · rw [he] at h
        rcases List.infix_cons_iff.1 h with h | h
        · have hpre : w <+: c :: s := by
            refine prefix_before_replacing hx hy hw ?_
            rw [he]
            exact h
          exact ⟨hpre.isInfix, by rintro rfl; exact hp hpre⟩
        · have := ih s.length (by rw [← hn]; simp) h rfl
          exact ⟨this.1.trans (List.suffix_cons c s).isInfix, this.2⟩

theorem char_of_replaced {x y s : PyStr} (hx : x ≠ []) {c : Nat} (hc : c ∉ y) (h : c ∈ pyReplace s x y) : c ∈ s ∧ [c] ≠ x := by
  induction hn : s.length using Nat.strongRecOn generalizing s with
  | _ n ih =>
    cases s with
    | nil =>
      cases x with
      | nil => exact absurd rfl hx
      | cons a x => cases h
    | cons d s =>
      rcases pyReplace_cases hx y d s with ⟨r, hr, he⟩ | ⟨hp, he⟩
      · rw [he] at h
        have hl : 0 < x.length := List.length_pos_iff.2 hx
        have := ih r.length (by rw [← hn, hr, List.length_append]; omega) ((List.mem_append.1 h).resolve_left hc) rfl
        exact ⟨hr ▸ List.mem_append_right _ this.1, this.2⟩
      · rw [he] at h
        rcases List.mem_cons.1 h with rfl | h
        · exact ⟨by simp, by rintro rfl; exact hp ⟨s, rfl⟩⟩
        · have := ih s.length (by rw [← hn]; simp) h rfl
          exact ⟨List.mem_cons_of_mem _ this.1, this.2⟩

/-- The replacement by `y` does not bring the word `w` about. -/
def noNewWord (w y : PyStr) : Bool :=
  y.all (fun c => !(natMem c w)) && (!y.isEmpty || Nat.beq w.length 1)

theorem noNewWord_sound {w x y s : PyStr} (h : noNewWord w y = true) (hx : x ≠ []) (hne : w ≠ []) (hi : w <:+: pyReplace s x y) :
    w <:+: s ∧ w ≠ x := by
  simp only [noNewWord, Bool.and_eq_true, List.all_eq_true, Bool.not_eq_true', Bool.or_eq_true] at h
  obtain ⟨h1, h2⟩ := h
  have h1 : ∀ c ∈ y, c ∉ w := fun c hc hm => by
    have := h1 c hc
    rw [natMem_iff.2 hm] at this
    cases this
  by_cases hy : y = []
  · subst hy
    have h2 := h2.resolve_left (by simp)
    cases w with
    | nil => exact absurd rfl hne
    | cons c w =>
      cases w with
      | nil =>
        have := char_of_replaced hx (by simp) (hi.subset (by simp : c ∈ [c]))
        exact ⟨by obtain ⟨l, r, h⟩ := List.append_of_mem this.1; exact ⟨l, r, by rw [h]; simp⟩, this.2⟩
      | cons d w => cases h2
  · exact infix_of_replaced hx hy h1 hne hi

/-- Replacements only, and none brings the word `w` about. -/
def Prog.spares (w : PyStr) : Prog → Bool
  | .done => true
  | .rep _ y k => noNewWord w y && k.spares w
  | _ => false

/-- Replacements only; none of them, and none that follows, brings the replaced word about. -/
def Prog.settles : Prog → Bool
  | .done => true
  | .rep x y k => !x.isEmpty && noNewWord x y && k.spares x && k.settles
  | _ => false

theorem Prog.spares_sound {E : Env} {w : PyStr} (hw : w ≠ []) {p : Prog} (hs : p.settles = true)
    (h : p.spares w = true) {s t : PyStr} (hr : p.run E s = .ok t) (hn : ¬ w <:+: s) : ¬ w <:+: t := by
  induction p generalizing s with
  | done => cases hr; exact hn
  | rep x y k ih =>
    simp only [Prog.settles, Prog.spares, Bool.and_eq_true, Bool.not_eq_true', List.isEmpty_eq_false_iff] at hs h
    exact ih hs.2 h.2 hr fun hi => hn (noNewWord_sound h.1 hs.1.1.1 hw hi).1
  | _ => cases hs

theorem Prog.settles_total {E : Env} {p : Prog} (h : p.settles = true) (s : PyStr) : ∃ t, p.run E s = .ok t := by
  induction p generalizing s with
  | done => exact ⟨s, rfl⟩
  | rep x y k ih =>
    simp only [Prog.settles, Bool.and_eq_true] at h
    exact ih h.2 _
  | _ => cases h

/-- The program run again changes nothing. -/
theorem Prog.settles_again {E : Env} {p : Prog} (h : p.settles = true) {s t : PyStr} (hr : p.run E s = .ok t) : p.run E t = .ok t := by
  induction p generalizing s with
  | done => rfl
  | rep x y k ih =>
    simp only [Prog.settles, Bool.and_eq_true, Bool.not_eq_true', List.isEmpty_eq_false_iff] at h
    obtain ⟨⟨⟨hx, hxy⟩, hsp⟩, hk⟩ := h
    have hno : ¬ x <:+: t := by
      refine Prog.spares_sound hx hk hsp (s := pyReplace s x y) hr fun hi => ?_
      exact (noNewWord_sound hxy hx hx hi).2 rfl
    show k.run E (pyReplace t x y) = .ok t
    rw [pyReplace_of_not_infix hx hno]
    exact ih hk hr
  | _ => cases h

/-! ## The options -/

def settlesIn (fns : List (PyStr × Gen Unit)) (sp : List PyStr) (o : PyStr) : Bool :=
  !(strMem o sp) && (match dictGet? fns o with
    | some g => g.prog.settles
    | none => false)

theorem repeatablePost_all : repeatablePost.all (settlesIn postFns specialPost) = true := by decide +kernel
theorem repeatablePre_all : repeatablePre.all (settlesIn preFns specialPre) = true := by decide +kernel

theorem settlesIn_known {fns : List (PyStr × Gen Unit)} {sp : List PyStr} {o : PyStr} (h : settlesIn fns sp o = true) :
    (o ∈ names fns ∧ o ∉ sp) ∧ ∃ g, dictGet? fns o = some g ∧ g.prog.settles = true := by
  simp only [settlesIn, Bool.and_eq_true, Bool.not_eq_true', strMem_false] at h
  cases hd : dictGet? fns o with
  | none => rw [hd] at h; cases h.2
  | some g =>
    rw [hd] at h
    exact ⟨⟨List.mem_map.2 ⟨_, dictGet?_some hd, rfl⟩, h.1⟩, g, rfl, h.2⟩

theorem applyInTurn_twice {E : Env} {fns : List (PyStr × Gen Unit)} {sp : List PyStr} {o : PyStr} (h : settlesIn fns sp o = true)
    (os os' : List PyStr) (t : PyStr) :
    applyInTurn E fns (os ++ o :: o :: os') t = applyInTurn E fns (os ++ o :: os') t := by
  obtain ⟨-, g, hg, hs⟩ := settlesIn_known h
  induction os generalizing t with
  | nil =>
    obtain ⟨t', ht⟩ := Prog.settles_total (E := E) hs t
    have step : ∀ (l : List PyStr) (u u' : PyStr), g.prog.run E u = .ok u' → applyInTurn E fns (o :: l) u = applyInTurn E fns l u' := by
      intro l u u' hu
      simp only [applyInTurn, hg, hu]
    rw [List.nil_append, List.nil_append, step _ _ _ ht, step _ _ _ ht, step _ _ _ (Prog.settles_again hs ht)]
  | cons a os ih =>
    simp only [List.cons_append, applyInTurn]
    cases dictGet? fns a with
    | none => rfl
    | some f =>
      simp only
      cases f.prog.run E t with
      | error e => rfl
      | ok t' => exact ih t'

end Verif
