import Verif.Lib.RomanFix

/-!
# Reading romanised text: consonants and vowels are put together

`renT` is a text of the intermediate alphabet, made from the sounds of an Indic text: what is
written after a consonant depends on what follows.  The three rules of `RomanPreFix` change what is
written there.
-/

namespace Verif

/-- What follows a consonant: `v` if a virama comes next, `g` if a vowel sign, `a` otherwise. -/
def afterT (R a v g : PyStr) : List Sound → PyStr
  | .virama :: _ => v
  | .sign _ :: _ => g
  | t => a ++ (separator R t).flatten

/-- The text in letters `z`. -/
def renT (R : PyStr) (σ : Nat → Sound) (z : Nat → Nat) (a v g : PyStr) : PyStr → PyStr
  | [] => []
  | c :: s => match σ c with
    | .virama => renT R σ z a v g s
    | .cons _ => z c :: (afterT R a v g (s.map σ) ++ renT R σ z a v g s)
    | .vowel y => z c :: ((if y = inherentA R then (separator R (s.map σ)).flatten else []) ++ renT R σ z a v g s)
    | _ => z c :: renT R σ z a v g s

theorem separator_cases (R : PyStr) (t : List Sound) : (separator R t).flatten = [] ∨ (separator R t).flatten = [cSep] := by
  unfold separator
  split
  · split
    · right; rfl
    · left; rfl
  · left; rfl

theorem afterT_plain {R a v g : PyStr} {t : List Sound} (h : signed t = false) :
    afterT R a v g t = a ++ (separator R t).flatten := by
  unfold afterT
  split
  · cases h
  · cases h
  · rfl

/-- The consonants, vowel signs, the nukta and the vowel a of the intermediate alphabet. -/
structure Inter where
  C : PyStr
  V : PyStr
  N : Nat
  A : Nat

/-- The letter fits the sound. -/
def Inter.Item (K : Inter) (x : Sound) (z : Nat) : Prop :=
  z ≠ K.N ∧ z ≠ cDep ∧ z ≠ cSep ∧ (x ≠ .virama → z ≠ cVir) ∧
  match x with
  | .cons _ => z ∈ K.C ∧ z ∉ K.V ∧ z ≠ K.A
  | .vowel _ => z ∉ K.C
  | .sign _ => z ∈ K.V ∧ z ∉ K.C ∧ z ≠ K.A
  | .virama => True
  | .mark _ => z ∉ K.C ∧ z ∉ K.V ∧ z ≠ K.A
  | .other _ => z ∉ K.C ∧ z ∉ K.V ∧ z ≠ K.A

/-- The letters and signs are different. -/
structure Inter.Apart (K : Inter) : Prop where
  ac : K.A ∉ K.C
  av : K.A ∉ K.V
  an : K.A ≠ K.N
  ad : K.A ≠ cDep
  ax : K.A ≠ cVir
  as : K.A ≠ cSep
  dc : cDep ∉ K.C
  dv : cDep ∉ K.V
  dn : cDep ≠ K.N
  xc : cVir ∉ K.C
  xn : cVir ≠ K.N
  sc : cSep ∉ K.C
  sv : cSep ∉ K.V
  sn : cSep ≠ K.N

section

variable {K : Inter} (hK : K.Apart) {R : PyStr} {σ : Nat → Sound} {z : Nat → Nat}

/-- A character that is kept. -/
theorem walk_keep {P : PyStr → Nat → PyStr → Bool} {out : Nat → PyStr} {pre : PyStr} {c : Nat} {t : PyStr}
    (h : P pre c t = false) : walk P out pre (c :: t) = c :: walk P out (c :: pre) t := by
  rw [walk_one, h]; rfl

/-- The sounds of a text cannot begin with a vowel sign after anything but a consonant. -/
theorem formed_head {x y : Sound} {t : List Sound} (h : formedAfter x (y :: t) = true) :
    mayFollow x y = true ∧ formedAfter y t = true := by
  rw [formedAfter, Bool.and_eq_true] at h; exact h

include hK

/-- First rule: a virama after consonants without a vowel. -/
theorem renT_virama {W : List PyStr} (hW : ∀ t, anyPrefix W t = true ↔ ∃ x ∈ t.head?, x ∈ K.V ∨ x = K.A) (s : PyStr)
    (hs : ∀ c ∈ s, K.Item (σ c) (z c)) {x0 : Sound} (hf : formedAfter x0 (s.map σ) = true) (pre : PyStr) :
    walk (fun _ c t => K.C.contains c && (anyPrefix W t != true)) (fun c => [c, cDep, cVir]) pre
      (renT R σ z [K.A] [] [] s) = renT R σ z [K.A] [cDep, cVir] [] s := by
  have keep : ∀ {c : Nat} (pre t : PyStr), c ∉ K.C → walk (fun _ c t => K.C.contains c && (anyPrefix W t != true))
      (fun c => [c, cDep, cVir]) pre (c :: t) =
      c :: walk (fun _ c t => K.C.contains c && (anyPrefix W t != true)) (fun c => [c, cDep, cVir]) (c :: pre) t :=
    fun pre t h => walk_keep (by simp [h])
  have sep : ∀ (pre t : PyStr) (T : List Sound), ∃ pre', walk (fun _ c t => K.C.contains c && (anyPrefix W t != true))
      (fun c => [c, cDep, cVir]) pre ((separator R T).flatten ++ t) = (separator R T).flatten ++
      walk (fun _ c t => K.C.contains c && (anyPrefix W t != true)) (fun c => [c, cDep, cVir]) pre' t := by
    intro pre t T
    rcases separator_cases R T with h | h
    · exact ⟨pre, by rw [h]; rfl⟩
    · exact ⟨cSep :: pre, by rw [h]; exact keep _ _ hK.sc⟩
  induction s generalizing pre x0 with
  | nil => rfl
  | cons c s ih =>
    rw [List.map_cons] at hf
    obtain ⟨-, hf'⟩ := formed_head hf
    have ih := fun pre => ih (fun d hd => hs d (List.mem_cons_of_mem _ hd)) hf' pre
    obtain ⟨-, -, -, -, hc⟩ := hs c List.mem_cons_self
    simp only [renT]
    cases hx : σ c with
    | virama => exact ih pre
    | sign y => rw [hx] at hc; simp only [keep _ _ hc.2.1, ih]
    | mark y => rw [hx] at hc; simp only [keep _ _ hc.1, ih]
    | other y => rw [hx] at hc; simp only [keep _ _ hc.1, ih]
    | vowel y =>
      rw [hx] at hc
      simp only [keep _ _ hc]
      split
      · obtain ⟨p, hp⟩ := sep (z c :: pre) (renT R σ z [K.A] [] [] s) (s.map σ)
        rw [hp, ih]
      · simp only [List.nil_append, ih]
    | cons y =>
      rw [hx] at hc
      simp only
      cases hsg : signed (s.map σ) with
      | false =>
        rw [afterT_plain hsg, afterT_plain hsg]
        simp only [List.cons_append, List.nil_append]
        rw [walk_keep, keep _ _ hK.ac]
        · obtain ⟨p, hp⟩ := sep (K.A :: z c :: pre) (renT R σ z [K.A] [] [] s) (s.map σ)
          rw [hp, ih]
        · rw [(hW _).2 ⟨K.A, rfl, .inr rfl⟩]; simp
      | true =>
        cases s with
        | nil => cases hsg
        | cons d s =>
          rw [List.map_cons] at hsg hf' ⊢
          cases hd : σ d with
          | sign w =>
            have hd' := (hs d (by simp)).2.2.2.2
            rw [hd] at hd'
            simp only [afterT, List.nil_append]
            rw [walk_keep, ih]
            rw [(hW _).2 ⟨z d, by simp [renT, hd], .inl hd'.1⟩]; simp
          | virama =>
            simp only [afterT, List.nil_append]
            rw [walk_one, ih, if_pos]
            · rfl
            · rw [hd, formedAfter, Bool.and_eq_true] at hf'
              simp only [Bool.and_eq_true, bne_iff_ne, ne_eq]
              refine ⟨by simpa using hc.1, fun h => ?_⟩
              obtain ⟨q, hq, h⟩ := (hW _).1 h
              simp only [renT, hd] at hq
              cases s with
              | nil => cases hq
              | cons b s =>
                have hb := hs b (by simp)
                obtain ⟨hm, -⟩ := formed_head (by simpa using hf'.2 : formedAfter .virama (σ b :: s.map σ) = true)
                have hb' := hb.2.2.2.2
                cases hy : σ b with
                | cons w =>
                  rw [hy] at hb'
                  simp only [renT, hy, List.head?_cons, Option.mem_def, Option.some.injEq] at hq
                  subst hq
                  rcases h with h | h
                  · exact hb'.2.1 h
                  · exact hb'.2.2 h
                | mark w =>
                  rw [hy] at hb'
                  simp only [renT, hy, List.head?_cons, Option.mem_def, Option.some.injEq] at hq
                  subst hq
                  rcases h with h | h
                  · exact hb'.2.1 h
                  · exact hb'.2.2 h
                | other w =>
                  rw [hy] at hb'
                  simp only [renT, hy, List.head?_cons, Option.mem_def, Option.some.injEq] at hq
                  subst hq
                  rcases h with h | h
                  · exact hb'.2.1 h
                  · exact hb'.2.2 h
                | vowel w => rw [hy] at hm; cases hm
                | sign w => rw [hy] at hm; cases hm
                | virama => rw [hy] at hm; cases hm
          | _ => rw [hd] at hsg; cases hsg

end

theorem walkPairs_skip {C V mid : PyStr} {c : Nat} (h : c ∉ C) (t : PyStr) :
    walkPairs C V mid (c :: t) = c :: walkPairs C V mid t := by
  cases t with
  | nil => rfl
  | cons d t => rw [walkPairs, if_neg (fun h' => h h'.1)]

theorem walkPairs_skip2 {C V mid : PyStr} {c : Nat} {t : PyStr} (h : ∀ d ∈ t.head?, d ∉ V) :
    walkPairs C V mid (c :: t) = c :: walkPairs C V mid t := by
  cases t with
  | nil => rfl
  | cons d t => rw [walkPairs, if_neg (fun h' => h d rfl h'.2)]

section

variable {K : Inter} (hK : K.Apart) {R : PyStr} {σ : Nat → Sound} {z : Nat → Nat}
include hK

/-- Second rule: vowel signs after consonants are marked. -/
theorem renT_signs {C' : PyStr} (hC : ∀ c, c ∈ C' ↔ c ∈ K.C ∨ c = K.N) (s : PyStr)
    (hs : ∀ c ∈ s, K.Item (σ c) (z c)) :
    walkPairs C' K.V [cDep] (renT R σ z [K.A] [cDep, cVir] [] s) = renT R σ z [K.A] [cDep, cVir] [cDep] s := by
  have skip : ∀ {c : Nat} (t : PyStr), c ∉ K.C → c ≠ K.N → walkPairs C' K.V [cDep] (c :: t) = c :: walkPairs C' K.V [cDep] t :=
    fun t h1 h2 => walkPairs_skip (fun h => ((hC _).1 h).elim h1 h2) t
  have sep : ∀ (t : PyStr) (T : List Sound), walkPairs C' K.V [cDep] ((separator R T).flatten ++ t) =
      (separator R T).flatten ++ walkPairs C' K.V [cDep] t := by
    intro t T
    rcases separator_cases R T with h | h
    · rw [h]; rfl
    · rw [h]; exact skip _ hK.sc hK.sn
  induction s with
  | nil => rfl
  | cons c s ih =>
    have ih := ih (fun d hd => hs d (List.mem_cons_of_mem _ hd))
    obtain ⟨hn, -, -, -, hc⟩ := hs c List.mem_cons_self
    simp only [renT]
    cases hx : σ c with
    | virama => exact ih
    | sign y => rw [hx] at hc; simp only [skip _ hc.2.1 hn, ih]
    | mark y => rw [hx] at hc; simp only [skip _ hc.1 hn, ih]
    | other y => rw [hx] at hc; simp only [skip _ hc.1 hn, ih]
    | vowel y =>
      rw [hx] at hc
      simp only [skip _ hc hn]
      split
      · rw [sep, ih]
      · simp only [List.nil_append, ih]
    | cons y =>
      rw [hx] at hc
      simp only
      cases hsg : signed (s.map σ) with
      | false =>
        rw [afterT_plain hsg, afterT_plain hsg]
        simp only [List.cons_append, List.nil_append]
        rw [walkPairs_skip2, skip _ hK.ac hK.an, sep, ih]
        intro d hd
        simp only [List.head?_cons, Option.mem_def, Option.some.injEq] at hd
        subst hd
        exact hK.av
      | true =>
        cases s with
        | nil => cases hsg
        | cons d s =>
          rw [List.map_cons] at hsg ⊢
          cases hd : σ d with
          | sign w =>
            obtain ⟨hn', -, -, -, hd'⟩ := hs d (by simp)
            rw [hd] at hd'
            simp only [afterT, List.nil_append, List.cons_append]
            rw [← ih]
            simp only [renT, hd]
            rw [skip _ hd'.2.1 hn', walkPairs, if_pos ⟨(hC _).2 (.inl hc.1), hd'.1⟩]
            rfl
          | virama =>
            simp only [afterT, List.nil_append, List.cons_append]
            rw [walkPairs_skip2, skip _ hK.dc hK.dn, skip _ hK.xc hK.xn, ih]
            intro d hd
            simp only [List.head?_cons, Option.mem_def, Option.some.injEq] at hd
            subst hd
            exact hK.dv
          | _ => rw [hd] at hsg; cases hsg

/-- Third rule: the vowel a after consonants is dropped. -/
theorem renT_drop {W : List PyStr} (hW : ∀ t, anyPrefix W t = true ↔ ∃ x ∈ t.head?, x ∈ K.C) (s : PyStr)
    (hs : ∀ c ∈ s, K.Item (σ c) (z c)) {pre : PyStr} (hpre : ∀ x ∈ pre.head?, x ∉ K.C) :
    walk (fun pre c _ => anyPrefix W pre && [K.A].contains c) (fun _ => []) pre
      (renT R σ z [K.A] [cDep, cVir] [cDep] s) = renT R σ z [] [cDep, cVir] [cDep] s := by
  have keep : ∀ {c : Nat} (pre t : PyStr), c ≠ K.A → walk (fun pre c _ => anyPrefix W pre && [K.A].contains c)
      (fun _ => []) pre (c :: t) =
      c :: walk (fun pre c _ => anyPrefix W pre && [K.A].contains c) (fun _ => []) (c :: pre) t :=
    fun pre t h => walk_keep (by simp [h])
  have keep2 : ∀ {c : Nat} (pre t : PyStr), (∀ x ∈ pre.head?, x ∉ K.C) → walk (fun pre c _ => anyPrefix W pre && [K.A].contains c)
      (fun _ => []) pre (c :: t) =
      c :: walk (fun pre c _ => anyPrefix W pre && [K.A].contains c) (fun _ => []) (c :: pre) t := by
    intro c pre t h
    refine walk_keep ?_
    cases hw : anyPrefix W pre with
    | false => rfl
    | true =>
      obtain ⟨x, hx, hx'⟩ := (hW _).1 hw
      exact absurd hx' (h x hx)
  have hd1 : ∀ {c : Nat} {t : PyStr}, c ∉ K.C → ∀ x ∈ (c :: t).head?, x ∉ K.C := by
    intro c t h x hx
    simp only [List.head?_cons, Option.mem_def, Option.some.injEq] at hx
    subst hx; exact h
  have sep : ∀ (pre t : PyStr) (T : List Sound), (∀ x ∈ pre.head?, x ∉ K.C) → ∃ pre', (∀ x ∈ pre'.head?, x ∉ K.C) ∧
      walk (fun pre c _ => anyPrefix W pre && [K.A].contains c)
      (fun _ => []) pre ((separator R T).flatten ++ t) = (separator R T).flatten ++
      walk (fun pre c _ => anyPrefix W pre && [K.A].contains c) (fun _ => []) pre' t := by
    intro pre t T hp
    rcases separator_cases R T with h | h
    · exact ⟨pre, hp, by rw [h]; rfl⟩
    · exact ⟨cSep :: pre, hd1 hK.sc, by rw [h]; exact keep _ _ (Ne.symm hK.as)⟩
  induction s generalizing pre with
  | nil => rfl
  | cons c s ih =>
    have ih := fun {pre} hp => ih (fun d hd => hs d (List.mem_cons_of_mem _ hd)) (pre := pre) hp
    obtain ⟨hn, -, -, -, hc⟩ := hs c List.mem_cons_self
    simp only [renT]
    cases hx : σ c with
    | virama => exact ih hpre
    | sign y => rw [hx] at hc; simp only [keep _ _ hc.2.2]; rw [ih (hd1 hc.2.1)]
    | mark y => rw [hx] at hc; simp only [keep _ _ hc.2.2]; rw [ih (hd1 hc.1)]
    | other y => rw [hx] at hc; simp only [keep _ _ hc.2.2]; rw [ih (hd1 hc.1)]
    | vowel y =>
      rw [hx] at hc
      simp only
      rw [keep2 _ _ hpre]
      split
      · obtain ⟨p, hp, e⟩ := sep (z c :: pre) (renT R σ z [K.A] [cDep, cVir] [cDep] s) (s.map σ) (hd1 hc)
        rw [e, ih hp]
      · simp only [List.nil_append]; rw [ih (hd1 hc)]
    | cons y =>
      rw [hx] at hc
      simp only
      cases hsg : signed (s.map σ) with
      | false =>
        rw [afterT_plain hsg, afterT_plain hsg]
        simp only [List.cons_append, List.nil_append]
        rw [keep _ _ hc.2.2, walk_one, if_pos]
        · obtain ⟨p, hp, e⟩ := sep (K.A :: z c :: pre) (renT R σ z [K.A] [cDep, cVir] [cDep] s) (s.map σ) (hd1 hK.ac)
          rw [e, ih hp]
          rfl
        · rw [(hW _).2 ⟨z c, rfl, hc.1⟩]; simp
      | true =>
        cases s with
        | nil => cases hsg
        | cons d s =>
          rw [List.map_cons] at hsg ⊢
          cases hd : σ d with
          | sign w =>
            simp only [afterT, List.cons_append, List.nil_append]
            rw [keep _ _ hc.2.2, keep _ _ (Ne.symm hK.ad), ih (hd1 hK.dc)]
          | virama =>
            simp only [afterT, List.cons_append, List.nil_append]
            rw [keep _ _ hc.2.2, keep _ _ (Ne.symm hK.ad), keep _ _ (Ne.symm hK.ax), ih (hd1 hK.xc)]
          | _ => rw [hd] at hsg; cases hsg

omit hK in
theorem pair_cons {x y c : Nat} {t : PyStr} (h : [x, y] <:+: c :: t) : (c = x ∧ y ∈ t.head?) ∨ [x, y] <:+: t := by
  obtain ⟨p, q, h⟩ := h
  cases p with
  | nil =>
    simp only [List.nil_append, List.cons_append, List.cons.injEq] at h
    left
    exact ⟨h.1.symm, by rw [← h.2]; rfl⟩
  | cons b p =>
    simp only [List.cons_append, List.cons.injEq] at h
    right
    exact ⟨p, q, by simpa using h.2⟩

/-- No virama mark before a separator. -/
theorem renT_noSep (s : PyStr) (hs : ∀ c ∈ s, K.Item (σ c) (z c)) :
    cSep ∉ (renT R σ z [] [cDep, cVir] [cDep] s).head? ∧ ¬ [cVir, cSep] <:+: renT R σ z [] [cDep, cVir] [cDep] s := by
  induction s with
  | nil => exact ⟨by simp [renT], by simp [renT]⟩
  | cons c s ih =>
    have ih := ih (fun d hd => hs d (List.mem_cons_of_mem _ hd))
    obtain ⟨-, -, h1, h2, hc⟩ := hs c List.mem_cons_self
    have sep : ∀ (T : List Sound), ¬ [cVir, cSep] <:+: (separator R T).flatten ++ renT R σ z [] [cDep, cVir] [cDep] s := by
      intro T hi
      rcases separator_cases R T with h | h
      · rw [h] at hi; exact ih.2 hi
      · rw [h] at hi
        rcases pair_cons hi with h | h
        · exact cSep_ne_vir h.1
        · exact ih.2 h
    have one : (σ c ≠ .virama) → ∀ {t : PyStr}, ¬ [cVir, cSep] <:+: t → cSep ∉ (z c :: t).head? ∧ ¬ [cVir, cSep] <:+: z c :: t := by
      intro hv t ht
      refine ⟨by simpa using h1, fun hi => ?_⟩
      rcases pair_cons hi with h | h
      · exact h2 hv h.1
      · exact ht h
    simp only [renT]
    cases hx : σ c with
    | virama => exact ih
    | sign y => exact one (by rw [hx]; simp) ih.2
    | mark y => exact one (by rw [hx]; simp) ih.2
    | other y => exact one (by rw [hx]; simp) ih.2
    | vowel y =>
      refine one (by rw [hx]; simp) ?_
      split
      · exact sep _
      · exact ih.2
    | cons y =>
      refine one (by rw [hx]; simp) ?_
      cases hsg : signed (s.map σ) with
      | false =>
        rw [afterT_plain hsg]
        exact sep _
      | true =>
        unfold afterT
        split
        · intro hi
          rcases pair_cons hi with h | hi
          · exact cDep_ne_vir h.1
          · rcases pair_cons hi with h | hi
            · exact ih.1 h.2
            · exact ih.2 hi
        · intro hi
          rcases pair_cons hi with h | hi
          · exact cDep_ne_vir h.1
          · exact ih.2 hi
        · exact sep _

/-- The nukta does not occur. -/
theorem renT_noNukta (s : PyStr) (hs : ∀ c ∈ s, K.Item (σ c) (z c)) : K.N ∉ renT R σ z [] [cDep, cVir] [cDep] s := by
  induction s with
  | nil => simp [renT]
  | cons c s ih =>
    have ih := ih (fun d hd => hs d (List.mem_cons_of_mem _ hd))
    obtain ⟨h1, -, -, -, -⟩ := hs c List.mem_cons_self
    have sep : ∀ (T : List Sound), K.N ∉ (separator R T).flatten := by
      intro T hi
      rcases separator_cases R T with h | h
      · rw [h] at hi; cases hi
      · rw [h] at hi; exact hK.sn (List.mem_singleton.1 hi).symm
    have aft : ∀ T, K.N ∉ afterT R [] [cDep, cVir] [cDep] T := by
      intro T
      unfold afterT
      split
      · simp [Ne.symm hK.dn, Ne.symm hK.xn]
      · simp [Ne.symm hK.dn]
      · exact sep _
    simp only [renT]
    cases hx : σ c with
    | virama => exact ih
    | cons y => simp [Ne.symm h1, ih, aft]
    | vowel y =>
      have : K.N ∉ (if y = inherentA R then (separator R (s.map σ)).flatten else []) := by
        split
        · exact sep _
        · simp
      simp [Ne.symm h1, ih, this]
    | _ => simp [Ne.symm h1, ih]

end

end Verif
