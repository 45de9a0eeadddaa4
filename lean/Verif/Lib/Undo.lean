import Verif.Lib.Segments

/-!
# Replacements that can be undone
-/

namespace Verif

/-- What comes out of a replacement begins as the text does, or like the new string. -/
theorem prefix_of_replaced {z t k o : PyStr} (hk : k ≠ []) (ho : ∀ x ∈ o.head?, x ∉ z) (hne : o ≠ [])
    (h : z <+: pyReplace t k o) : z <+: t := by
  cases k with
  | nil => exact absurd rfl hk
  | cons a x =>
    induction z generalizing t with
    | nil => exact List.nil_prefix
    | cons d z ih =>
      cases t with
      | nil => exact h
      | cons c t =>
        rw [pyReplace_cons] at h
        split at h
        · cases o with
          | nil => exact absurd rfl hne
          | cons b o =>
            have := (List.cons_prefix_cons.1 h).1
            exact absurd (by rw [this]; simp) (ho b rfl)
        · obtain ⟨h1, h2⟩ := List.cons_prefix_cons.1 h
          rw [h1]
          refine List.cons_prefix_cons.2 ⟨rfl, ih (fun b hb hm => ho b hb (List.mem_cons_of_mem _ hm)) h2⟩

/-- A replacement is undone by the opposite one if the new string did not occur. -/
theorem replace_undo {t k o : PyStr} (hk : k ≠ []) (hne : o ≠ []) (ho : ∀ x ∈ o.head?, x ∉ o.tail) (h : ¬ o <:+: t) :
    pyReplace (pyReplace t k o) o k = t := by
  induction hn : t.length using Nat.strongRecOn generalizing t with
  | _ n ih =>
    cases t with
    | nil =>
      cases k with
      | nil => exact absurd rfl hk
      | cons a x => cases o with
        | nil => exact absurd rfl hne
        | cons b y => rfl
    | cons c t =>
      by_cases hp : k <+: c :: t
      · obtain ⟨u, hu⟩ := hp
        rw [← hu, pyReplace_hit hk, pyReplace_hit hne, ih u.length ?_ ?_ rfl]
        · rw [← hn, ← hu]
          have : 0 < k.length := List.length_pos_iff.2 hk
          simp; omega
        · intro hi
          exact h (hi.trans (by rw [← hu]; exact (List.suffix_append _ _).isInfix))
      · have e1 : pyReplace (c :: t) k o = c :: pyReplace t k o := by
          cases k with
          | nil => exact absurd rfl hk
          | cons a x => rw [pyReplace_cons, if_neg hp]
        have ih := ih t.length (by rw [← hn]; simp) (fun hi => h (hi.trans (List.suffix_cons _ _).isInfix)) rfl
        rw [e1]
        cases o with
        | nil => exact absurd rfl hne
        | cons b y =>
          rw [pyReplace_cons, if_neg, ih]
          intro hq
          obtain ⟨h1, h2⟩ := List.cons_prefix_cons.1 hq
          have := prefix_of_replaced hk (o := b :: y) (fun x hx => ho x hx) (by simp) h2
          exact h (List.cons_prefix_cons.2 ⟨h1, this⟩).isInfix

/-- Two strings cannot begin at the same place. -/
def Clash (a b : PyStr) : Prop := ¬ a <+: b ∧ ¬ b <+: a

theorem clash_append {a b t : PyStr} (h : Clash a b) : ¬ a <+: b ++ t := by
  intro hp
  rcases List.prefix_or_prefix_of_prefix hp (List.prefix_append b t) with h1 | h1
  · exact h.1 h1
  · exact h.2 h1

/-- A string does not come in with a replacement. -/
theorem replaced_free {t k o z : PyStr} (hk : k ≠ []) (hz : z ≠ []) (hne : o ≠ []) (ho : ∀ x ∈ o.head?, x ∉ z.tail)
    (hs : ∀ w, w ≠ [] → w <:+ o → Clash z w) (h : ¬ z <:+: t) : ¬ z <:+: pyReplace t k o := by
  have inside : ∀ w u, w <:+ o → ¬ z <:+: u → ¬ z <:+: w ++ u := by
    intro w u
    induction w with
    | nil => intro _ h; exact h
    | cons c w ih =>
      intro hw hu hi
      rw [List.cons_append] at hi
      rcases List.infix_cons_iff.1 hi with hi | hi
      · exact clash_append (t := u) (hs (c :: w) (by simp) hw) hi
      · exact ih ((List.suffix_cons c w).trans hw) hu hi
  induction hn : t.length using Nat.strongRecOn generalizing t with
  | _ n ih =>
    cases t with
    | nil =>
      cases k with
      | nil => exact absurd rfl hk
      | cons a x => exact h
    | cons c t =>
      by_cases hp : k <+: c :: t
      · obtain ⟨u, hu⟩ := hp
        rw [← hu, pyReplace_hit hk]
        refine inside o _ (List.suffix_refl _) (ih u.length ?_ ?_ rfl)
        · rw [← hn, ← hu]
          have : 0 < k.length := List.length_pos_iff.2 hk
          simp; omega
        · intro hi
          exact h (hi.trans (by rw [← hu]; exact (List.suffix_append _ _).isInfix))
      · have e1 : pyReplace (c :: t) k o = c :: pyReplace t k o := by
          cases k with
          | nil => exact absurd rfl hk
          | cons a x => rw [pyReplace_cons, if_neg hp]
        rw [e1]
        intro hi
        rcases List.infix_cons_iff.1 hi with hi | hi
        · cases z with
          | nil => exact hz rfl
          | cons b y =>
            obtain ⟨h1, h2⟩ := List.cons_prefix_cons.1 hi
            exact h (List.cons_prefix_cons.2 ⟨h1, prefix_of_replaced hk ho hne h2⟩).isInfix
        · exact ih t.length (by rw [← hn]; simp) (fun hi => h (hi.trans (List.suffix_cons _ _).isInfix)) rfl hi

/-- What makes two replacements independent, one way. -/
structure Indep (k o k' : PyStr) : Prop where
  key : ¬ k' <:+: k
  out : ¬ k' <:+: o
  keyEnd : ∀ x ∈ k.getLast?, x ∉ k'
  outEnd : ∀ x ∈ o.getLast?, x ∉ k'
  head : ∀ x ∈ o.head?, x ∉ k'.tail

theorem not_pair {x y : Nat} {k : PyStr} (h : x ∉ k) : ¬ [x, y] <:+: k := fun hi => h (hi.subset (by simp))

theorem replace_comm {t k o k' o' : PyStr} (hk : k ≠ []) (hk' : k' ≠ []) (ho : o ≠ []) (ho' : o' ≠ [])
    (i : Indep k o k') (i' : Indep k' o' k) :
    pyReplace (pyReplace t k o) k' o' = pyReplace (pyReplace t k' o') k o := by
  induction hn : t.length using Nat.strongRecOn generalizing t with
  | _ n ih =>
    cases t with
    | nil =>
      cases k with
      | nil => exact absurd rfl hk
      | cons a x => cases k' with
        | nil => exact absurd rfl hk'
        | cons b y => rfl
    | cons c t =>
      by_cases hp : k <+: c :: t
      · obtain ⟨u, hu⟩ := hp
        have hl : u.length < n := by
          rw [← hn, ← hu]
          have : 0 < k.length := List.length_pos_iff.2 hk
          simp; omega
        rw [← hu, pyReplace_hit hk,
          pyReplace_pass (p := o) hk' i.out (fun x hx y _ => not_pair (i.outEnd x hx)),
          pyReplace_pass (p := k) hk' i.key (fun x hx y _ => not_pair (i.keyEnd x hx)),
          pyReplace_hit hk, ih u.length hl rfl]
      · by_cases hp' : k' <+: c :: t
        · obtain ⟨u, hu⟩ := hp'
          have hl : u.length < n := by
            rw [← hn, ← hu]
            have : 0 < k'.length := List.length_pos_iff.2 hk'
            simp; omega
          rw [← hu, pyReplace_hit hk',
            pyReplace_pass (p := o') hk i'.out (fun x hx y _ => not_pair (i'.outEnd x hx)),
            pyReplace_pass (p := k') hk i'.key (fun x hx y _ => not_pair (i'.keyEnd x hx)),
            pyReplace_hit hk', ih u.length hl rfl]
        · have step : ∀ {q w : PyStr} (v : PyStr), q ≠ [] → ¬ q <+: c :: v → pyReplace (c :: v) q w = c :: pyReplace v q w := by
            intro q w v hq h
            cases q with
            | nil => exact absurd rfl hq
            | cons a x => rw [pyReplace_cons, if_neg h]
          have cross : ∀ {q w q' : PyStr}, q ≠ [] → w ≠ [] → (∀ x ∈ w.head?, x ∉ q'.tail) → q' ≠ [] → ¬ q' <+: c :: t →
              ¬ q' <+: c :: pyReplace t q w := by
            intro q w q' hq hw hh hq' h hi
            cases q' with
            | nil => exact hq' rfl
            | cons b y =>
              obtain ⟨h1, h2⟩ := List.cons_prefix_cons.1 hi
              exact h (List.cons_prefix_cons.2 ⟨h1, prefix_of_replaced hq hh hw h2⟩)
          rw [step t hk hp, step t hk' hp', step _ hk' (cross hk ho i.head hk' hp'), step _ hk (cross hk' ho' i'.head hk hp),
            ih t.length (by rw [← hn]; simp) rfl]

/-! ## Checked form -/

def clashOk2 (a b : PyStr) : Bool := !(a.isPrefixOf b) && !(b.isPrefixOf a)

def suffixesOf : PyStr → List PyStr
  | [] => []
  | c :: s => (c :: s) :: suffixesOf s

theorem suffixesOf_mem {w s : PyStr} (h : w <:+ s) (hw : w ≠ []) : w ∈ suffixesOf s := by
  induction s with
  | nil => exact absurd (List.suffix_nil.1 h) hw
  | cons c s ih =>
    rcases List.suffix_cons_iff.1 h with h | h
    · rw [h]; exact List.mem_cons_self
    · exact List.mem_cons_of_mem _ (ih h)

def headNotIn (o z : PyStr) : Bool := match o with | x :: _ => !(natMem x z) | [] => false
def lastNotIn (o z : PyStr) : Bool := match o.getLast? with | some x => !(natMem x z) | none => false

theorem headNotIn_sound {o z : PyStr} (h : headNotIn o z = true) : o ≠ [] ∧ ∀ x ∈ o.head?, x ∉ z := by
  cases o with
  | nil => cases h
  | cons b o =>
    refine ⟨by simp, fun x hx hm => ?_⟩
    cases hx
    simp only [headNotIn, Bool.not_eq_true'] at h
    rw [natMem_iff.2 hm] at h; cases h

theorem lastNotIn_sound {o z : PyStr} (h : lastNotIn o z = true) : ∀ x ∈ o.getLast?, x ∉ z := by
  intro x hx hm
  unfold lastNotIn at h
  rw [Option.mem_def] at hx
  rw [hx] at h
  simp only [Bool.not_eq_true'] at h
  rw [natMem_iff.2 hm] at h; cases h

def indepOk (k o k' : PyStr) : Bool :=
  !(isInfix k' k) && !(isInfix k' o) && lastNotIn k k' && lastNotIn o k' && headNotIn o k'.tail

theorem indepOk_sound {k o k' : PyStr} (h : indepOk k o k' = true) : Indep k o k' := by
  simp only [indepOk, Bool.and_eq_true, Bool.not_eq_true'] at h
  obtain ⟨⟨⟨⟨h1, h2⟩, h3⟩, h4⟩, h5⟩ := h
  refine ⟨fun hi => ?_, fun hi => ?_, lastNotIn_sound h3, lastNotIn_sound h4, (headNotIn_sound h5).2⟩
  · rw [isInfix_iff.2 hi] at h1; cases h1
  · rw [isInfix_iff.2 hi] at h2; cases h2

/-- Two replacements can be undone, in the same order. -/
def undoOk (H : List (PyStr × PyStr)) : Bool :=
  match H with
  | [] => true
  | [p, q] => !(p.1.isEmpty) && !(q.1.isEmpty) && headNotIn p.2 p.2.tail && headNotIn q.2 q.2.tail &&
      indepOk p.1 p.2 q.1 && indepOk q.1 q.2 p.1 && headNotIn q.2 p.2.tail && (suffixesOf q.2).all (clashOk2 p.2)
  | _ => false

theorem undoOk_sound {H : List (PyStr × PyStr)} (h : undoOk H = true) {t : PyStr} (ht : ∀ p ∈ H, ¬ p.2 <:+: t) :
    applyRules (H.map fun p => (p.2, p.1)) (H.foldl (fun t p => pyReplace t p.1 p.2) t) = t := by
  unfold undoOk at h
  split at h
  · rfl
  · rename_i p q
    simp only [Bool.and_eq_true, Bool.not_eq_true', List.all_eq_true] at h
    obtain ⟨⟨⟨⟨⟨⟨⟨h1, h2⟩, h3⟩, h4⟩, h5⟩, h6⟩, h7⟩, h8⟩ := h
    have k1 : p.1 ≠ [] := by intro h0; rw [h0] at h1; cases h1
    have k2 : q.1 ≠ [] := by intro h0; rw [h0] at h2; cases h2
    obtain ⟨o1, d1⟩ := headNotIn_sound h3
    obtain ⟨o2, d2⟩ := headNotIn_sound h4
    have hc := replace_comm (t := t) k1 k2 o1 o2 (indepOk_sound h5) (indepOk_sound h6)
    have hf : ¬ p.2 <:+: pyReplace t q.1 q.2 := by
      refine replaced_free k2 o1 o2 (headNotIn_sound h7).2 (fun w hw hs => ?_) (ht p (by simp))
      have := h8 w (suffixesOf_mem hs hw)
      simp only [clashOk2, Bool.and_eq_true, Bool.not_eq_true'] at this
      refine ⟨fun hp => ?_, fun hp => ?_⟩
      · rw [List.isPrefixOf_iff_prefix.2 hp] at this; cases this.1
      · rw [List.isPrefixOf_iff_prefix.2 hp] at this; cases this.2
    show pyReplace (pyReplace (pyReplace (pyReplace t p.1 p.2) q.1 q.2) p.2 p.1) q.2 q.1 = t
    rw [hc, replace_undo k1 o1 d1 hf, replace_undo k2 o2 d2 (ht q (by simp))]
  · cases h

end Verif
