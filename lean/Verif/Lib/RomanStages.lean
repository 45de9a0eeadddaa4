import Verif.Lib.RomanRead

/-!
# Reading romanised text: from spelling to letters, stage by stage
-/

namespace Verif

/-- The spelling of a sound. -/
def Sound.spelling : Sound → Option PyStr
  | .cons y => some y
  | .vowel y => some y
  | .sign y => some y
  | .virama => none
  | .mark y => some y
  | .other c => some [c]

/-- The separator as one piece. -/
theorem separator_pieces (R : PyStr) (t : List Sound) : separator R t = [] ∨ separator R t = [[cSep]] := by
  unfold separator
  split
  · split
    · right; rfl
    · left; rfl
  · left; rfl

/-- From spelling to the intermediate alphabet. -/
theorem stageA {R : PyStr} {σ : Nat → Sound} {z : Nat → Nat} {f : PyStr → PyStr} {A : Nat} (hA : f (inherentA R) = [A])
    (hS : f [cSep] = [cSep]) (s : PyStr) (hs : ∀ c ∈ s, ∀ y ∈ (σ c).spelling, f y = [z c]) :
    ((romanPieces R (s.map σ)).map f).flatten = renT R σ z [A] [] [] s := by
  have sep : ∀ T, ((separator R T).map f).flatten = (separator R T).flatten := by
    intro T
    rcases separator_pieces R T with h | h
    · rw [h]; rfl
    · rw [h]; simp [hS]
  induction s with
  | nil => rfl
  | cons c s ih =>
    have ih := ih fun d hd => hs d (List.mem_cons_of_mem _ hd)
    have hc := hs c List.mem_cons_self
    rw [List.map_cons]
    simp only [renT]
    cases hx : σ c with
    | virama => exact ih
    | sign y => rw [hx] at hc; simp only [romanPieces, List.map_cons, List.flatten_cons, hc y rfl, ih]; rfl
    | mark y => rw [hx] at hc; simp only [romanPieces, List.map_cons, List.flatten_cons, hc y rfl, ih]; rfl
    | other y => rw [hx] at hc; simp only [romanPieces, List.map_cons, List.flatten_cons, hc [y] rfl, ih]; rfl
    | vowel y =>
      rw [hx] at hc
      simp only [romanPieces, List.map_cons, List.flatten_cons, List.map_append, List.flatten_append, hc y rfl, ih]
      split
      · rw [sep]; rfl
      · rfl
    | cons y =>
      rw [hx] at hc
      simp only [romanPieces, List.map_cons, List.flatten_cons, List.map_append, List.flatten_append, hc y rfl, ih]
      cases hsg : signed (s.map σ) with
      | false =>
        rw [afterT_plain hsg]
        simp only [Bool.false_eq_true, if_false, List.map_cons, List.flatten_cons, hA, sep]
        rfl
      | true =>
        have : afterT R [A] [] [] (s.map σ) = [] := by
          unfold afterT
          split
          · rfl
          · rfl
          · rename_i h1 h2
            unfold signed at hsg
            split at hsg
            · rename_i y' t' he; exact absurd he (h2 y' t')
            · rename_i t' he; exact absurd he (h1 t')
            · cases hsg
        rw [this]
        rfl

/-- The marked letters of the intermediate alphabet, piece by piece. -/
def renP (R : PyStr) (σ : Nat → Sound) (z : Nat → Nat) : PyStr → List PyStr
  | [] => []
  | c :: s => match σ c with
    | .virama => [cDep, cVir] :: renP R σ z s
    | .sign _ => [cDep, z c] :: renP R σ z s
    | .cons _ => [z c] :: (separator R (s.map σ) ++ renP R σ z s)
    | .vowel y => [z c] :: ((if y = inherentA R then separator R (s.map σ) else []) ++ renP R σ z s)
    | _ => [z c] :: renP R σ z s

/-- The mark before the first piece. -/
def markT : List Sound → PyStr
  | .virama :: _ => [cDep, cVir]
  | .sign _ :: _ => [cDep]
  | _ => []

theorem markT_plain {t : List Sound} (h : signed t = false) : markT t = [] := by
  unfold markT
  split
  · cases h
  · cases h
  · rfl

theorem signed_after {x : Sound} {t : List Sound} (hx : ∀ y, x ≠ .cons y) (h : formedAfter x t = true) : signed t = false := by
  cases t with
  | nil => rfl
  | cons y t =>
    obtain ⟨hm, -⟩ := formed_head h
    cases x with
    | cons w => exact absurd rfl (hx w)
    | _ => cases y <;> first | rfl | cases hm

theorem separator_signed {R : PyStr} {t : List Sound} (h : signed t = true) : separator R t = [] := by
  unfold separator
  split
  · cases h
  · rfl

theorem renP_flatten {R : PyStr} {σ : Nat → Sound} {z : Nat → Nat} (s : PyStr) {x0 : Sound} (hf : formedAfter x0 (s.map σ) = true) :
    (renP R σ z s).flatten = markT (s.map σ) ++ renT R σ z [] [cDep, cVir] [cDep] s := by
  induction s generalizing x0 with
  | nil => rfl
  | cons c s ih =>
    rw [List.map_cons] at hf ⊢
    obtain ⟨-, hf'⟩ := formed_head hf
    have ih := ih hf'
    simp only [renT, renP]
    have plain : (∀ y, σ c ≠ .cons y) → (renP R σ z s).flatten = renT R σ z [] [cDep, cVir] [cDep] s := by
      intro h
      rw [ih, markT_plain (signed_after h hf')]
      rfl
    cases hx : σ c with
    | virama => simp only [List.flatten_cons, markT, plain (by rw [hx]; simp)]
    | sign y => simp only [List.flatten_cons, markT, plain (by rw [hx]; simp)]; rfl
    | mark y => simp only [List.flatten_cons, markT, plain (by rw [hx]; simp)]; rfl
    | other y => simp only [List.flatten_cons, markT, plain (by rw [hx]; simp)]; rfl
    | vowel y =>
      simp only [List.flatten_cons, List.flatten_append, markT, plain (by rw [hx]; simp)]
      split <;> rfl
    | cons y =>
      have m0 : markT (.cons y :: s.map σ) = [] := rfl
      simp only [List.flatten_cons, List.flatten_append, ih, m0]
      cases hsg : signed (s.map σ) with
      | false => rw [afterT_plain hsg, markT_plain hsg]; rfl
      | true =>
        have : afterT R [] [cDep, cVir] [cDep] (s.map σ) = markT (s.map σ) := by
          cases hm : s.map σ with
          | nil => rw [hm] at hsg; cases hsg
          | cons x t =>
            rw [hm] at hsg
            cases x <;> first | rfl | cases hsg
        rw [separator_signed hsg, this]
        rfl

theorem renP_wellFormed {R : PyStr} {σ : Nat → Sound} {z : Nat → Nat} {s : PyStr} (hf : wellFormed (s.map σ) = true) :
    (renP R σ z s).flatten = renT R σ z [] [cDep, cVir] [cDep] s := by
  rw [renP_flatten s hf, markT_plain (signed_after (by simp) hf)]
  rfl

/-- The piece a sound makes. -/
def pieceOf (σ : Nat → Sound) (z : Nat → Nat) (c : Nat) : PyStr :=
  match σ c with
  | .virama => [cDep, cVir]
  | .sign _ => [cDep, z c]
  | _ => [z c]

theorem renP_mem {R : PyStr} {σ : Nat → Sound} {z : Nat → Nat} {s p : PyStr} (h : p ∈ renP R σ z s) :
    p = [cSep] ∨ ∃ c ∈ s, p = pieceOf σ z c := by
  have sep : ∀ T, p ∈ separator R T → p = [cSep] := by
    intro T hp
    rcases separator_pieces R T with h | h
    · rw [h] at hp; cases hp
    · rw [h] at hp; exact List.mem_singleton.1 hp
  induction s with
  | nil => cases h
  | cons c s ih =>
    have ih : p ∈ renP R σ z s → p = [cSep] ∨ ∃ d ∈ c :: s, p = pieceOf σ z d := by
      intro h
      rcases ih h with h | ⟨d, hd, h⟩
      · exact .inl h
      · exact .inr ⟨d, List.mem_cons_of_mem _ hd, h⟩
    have me : p = pieceOf σ z c → p = [cSep] ∨ ∃ d ∈ c :: s, p = pieceOf σ z d := fun h => .inr ⟨c, List.mem_cons_self, h⟩
    unfold pieceOf at me
    simp only [renP] at h
    cases hx : σ c with
    | cons y =>
      rw [hx] at h me
      simp only [List.mem_cons, List.mem_append] at h
      rcases h with h | h | h
      · exact me h
      · exact .inl (sep _ h)
      · exact ih h
    | vowel y =>
      rw [hx] at h me
      simp only [List.mem_cons, List.mem_append] at h
      rcases h with h | h | h
      · exact me h
      · split at h
        · exact .inl (sep _ h)
        · cases h
      · exact ih h
    | _ =>
      rw [hx] at h me
      rcases List.mem_cons.1 h with h | h
      · exact me h
      · exact ih h

/-! ## Separators in the target script -/

/-- A vowel letter that begins with i or u. -/
def vowelIU (R : PyStr) : Sound → Bool
  | .vowel (c :: _) => decide (c ∈ charsIU R)
  | _ => false

/-- The target text with separators; `b` says that an inherent vowel precedes. -/
def glue (R : PyStr) (σ : Nat → Sound) (κ : Nat → PyStr) : Bool → PyStr → List PyStr
  | _, [] => []
  | b, c :: s => (if (b && vowelIU R (σ c)) = true then cSep :: κ c else κ c) :: glue R σ κ ((σ c).endsA R) s

theorem separator_cons (R : PyStr) (x : Sound) (t : List Sound) :
    separator R (x :: t) = if vowelIU R x = true then [[cSep]] else [] := by
  cases x with
  | vowel y =>
    cases y with
    | nil => rfl
    | cons c w =>
      simp only [separator, vowelIU, decide_eq_true_eq]; rfl
  | _ => rfl

/-- From the intermediate alphabet to the target script. -/
theorem stageC {R : PyStr} {σ : Nat → Sound} {z : Nat → Nat} {κ : Nat → PyStr} {f : PyStr → PyStr} (hS : f [cSep] = [cSep])
    (s : PyStr) (hs : ∀ c ∈ s, f (pieceOf σ z c) = κ c) (b : Bool) :
    (if b = true then (separator R (s.map σ)).flatten else []) ++ ((renP R σ z s).map f).flatten = (glue R σ κ b s).flatten := by
  have sep : ∀ T, ((separator R T).map f).flatten = (separator R T).flatten := by
    intro T
    rcases separator_pieces R T with h | h
    · rw [h]; rfl
    · rw [h]; simp [hS]
  induction s generalizing b with
  | nil => cases b <;> rfl
  | cons c s ih =>
    have ih := fun b => ih (fun d hd => hs d (List.mem_cons_of_mem _ hd)) b
    have hc := hs c List.mem_cons_self
    have key : ((renP R σ z (c :: s)).map f).flatten = κ c ++ (glue R σ κ ((σ c).endsA R) s).flatten := by
      unfold pieceOf at hc
      simp only [renP]
      cases hx : σ c with
      | cons y =>
        rw [hx] at hc
        simp only [List.map_cons, List.flatten_cons, List.map_append, List.flatten_append, hc, sep, Sound.endsA]
        rw [← ih true]
        simp
      | vowel y =>
        rw [hx] at hc
        simp only [List.map_cons, List.flatten_cons, List.map_append, List.flatten_append, hc, Sound.endsA]
        rw [← ih]
        by_cases hy : y = inherentA R
        · simp [hy, sep]
        · simp [hy]
      | _ =>
        rw [hx] at hc
        simp only [List.map_cons, List.flatten_cons, hc, Sound.endsA]
        rw [← ih]
        rfl
    rw [key, List.map_cons, separator_cons]
    simp only [glue, List.flatten_cons]
    cases b with
    | false => rfl
    | true =>
      cases hv : vowelIU R (σ c) with
      | false => simp
      | true => simp

/-- The pieces with separators. -/
theorem glue_mem {R : PyStr} {σ : Nat → Sound} {κ : Nat → PyStr} {Q : PyStr → Prop} (s : PyStr) (b : Bool)
    (h : ∀ y, [[cSep], y] <:+: (if b = true then separator R (s.map σ) else []) ++ romanPieces R (s.map σ) → Q y) :
    ∀ g ∈ glue R σ κ b s, ∃ c ∈ s, g = κ c ∨ (g = cSep :: κ c ∧ ∃ y, σ c = .vowel y ∧ Q y) := by
  induction s generalizing b with
  | nil => intro g hg; cases hg
  | cons c s ih =>
    intro g hg
    simp only [glue, List.mem_cons] at hg
    rcases hg with rfl | hg
    · refine ⟨c, List.mem_cons_self, ?_⟩
      split
      · rename_i hb
        rw [Bool.and_eq_true] at hb
        obtain ⟨rfl, hv⟩ := hb
        right
        refine ⟨rfl, ?_⟩
        cases hx : σ c with
        | vowel y =>
          refine ⟨y, rfl, h y ?_⟩
          rw [List.map_cons, separator_cons, hv]
          refine ⟨[], ((if y = inherentA R then separator R (s.map σ) else []) ++ romanPieces R (s.map σ)), ?_⟩
          rw [hx]
          rfl
        | _ => rw [hx] at hv; cases hv
      · exact .inl rfl
    · have : ∀ y, [[cSep], y] <:+: (if (σ c).endsA R = true then separator R (s.map σ) else []) ++ romanPieces R (s.map σ) → Q y := by
        intro y hy
        refine h y (hy.trans ?_)
        refine List.IsInfix.trans ?_ (List.suffix_append _ _).isInfix
        rw [List.map_cons]
        cases hx : σ c with
        | cons w =>
          simp only [romanPieces, Sound.endsA, if_true]
          cases hsg : signed (s.map σ) with
          | true =>
            rw [separator_signed hsg]
            exact (List.suffix_cons _ _).isInfix
          | false =>
            simp only [Bool.false_eq_true, if_false, List.cons_append]
            exact ((List.suffix_cons _ _).trans (List.suffix_cons _ _)).isInfix
        | vowel w =>
          simp only [romanPieces, Sound.endsA]
          by_cases hw : w = inherentA R
          · simp only [hw, if_true, decide_true]
            exact (List.suffix_cons _ _).isInfix
          · simp only [hw, if_false, decide_false, Bool.false_eq_true]
            exact (List.suffix_cons _ _).isInfix
        | virama => exact List.infix_refl _
        | _ =>
          simp only [romanPieces, Sound.endsA, Bool.false_eq_true, if_false, List.nil_append]
          exact (List.suffix_cons _ _).isInfix
      obtain ⟨d, hd, h⟩ := ih _ this g hg
      exact ⟨d, List.mem_cons_of_mem _ hd, h⟩

/-- Without separators, the pieces make the target text. -/
theorem glue_strip {R : PyStr} {σ : Nat → Sound} {κ : Nat → PyStr} {f : PyStr → PyStr} (s : PyStr) (b : Bool)
    (h : ∀ c ∈ s, f (κ c) = κ c) (hb : ∀ c ∈ s, cSep :: κ c ∈ glue R σ κ b s → f (cSep :: κ c) = κ c) :
    ((glue R σ κ b s).map f).flatten = s.flatMap κ := by
  induction s generalizing b with
  | nil => rfl
  | cons c s ih =>
    simp only [glue, List.map_cons, List.flatten_cons, List.flatMap_cons] at hb ⊢
    rw [ih]
    · congr 1
      split
      · rename_i hv
        refine hb c List.mem_cons_self ?_
        rw [if_pos hv]; exact List.mem_cons_self
      · exact h c List.mem_cons_self
    · exact fun d hd => h d (List.mem_cons_of_mem _ hd)
    · exact fun d hd hm => hb d (List.mem_cons_of_mem _ hd) (List.mem_cons_of_mem _ hm)

end Verif
