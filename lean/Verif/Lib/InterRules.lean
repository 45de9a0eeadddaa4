import Verif.Lib.RomanInter

/-!
# The rules of `RomanPreFix` on the intermediate alphabet
-/

namespace Verif

/-- The intermediate alphabet. -/
def interK : Inter where
  C := (lettersOf GM.Inter GM.Consonants).flatten
  V := (lettersOf GM.Inter GM.VowelSigns).flatten
  N := (letterAt GM.Inter .NuktaMap 0).headD 0
  A := (letterAt GM.Inter .VowelMap 0).headD 0

/-- The rules between the two letter replacements, one by one. -/
def midOk (K : Inter) : Prog → Bool
  | .sub p1 t1 (.sub p2 t2 (.sub p3 t3 (.rep x4 _ (.sub p5 t5 (.rep x6 _ (.rep x7 _ (.rep x8 _ .done))))))) =>
    (match compileSub p1 t1 with
    | some (q, [.ref i, .lit a, .lit b]) =>
      Nat.beq i 1 && Nat.beq a cDep && Nat.beq b cVir && (match aheadShape q with
        | some (cs, true, W) => strEq cs K.C && (match asChars W with
          | some l => strEq l (K.V ++ [K.A])
          | none => false)
        | _ => false)
    | _ => false) &&
    (match compileSub p2 t2 with
    | some (q, [.ref i, .lit a, .ref j]) =>
      Nat.beq i 1 && Nat.beq a cDep && Nat.beq j 2 && (match pairShape q with
        | some (cs, V) => strEq cs (K.C ++ [K.N]) && strEq V K.V
        | _ => false)
    | _ => false) &&
    (match compileSub p3 t3 with
    | some (q, []) =>
      (match behindShape q with
        | some (W, cs) => strEq cs [K.A] && (match asChars W with
          | some l => strEq l K.C
          | none => false)
        | _ => false)
    | _ => false) &&
    natMem K.N x4 && deadSub [[K.N]] p5 t5 && natMem K.N x6 && strEq x7 [cDep, cVir, cSep] && strEq x8 [cDep, cVir, cSep]
  | _ => false

/-- Checked form of `Inter.Apart`. -/
def Inter.apartOk (K : Inter) : Bool :=
  [K.A, cDep, cSep, cVir].all (fun c => !(natMem c K.C) && !(Nat.beq c K.N)) &&
  [K.A, cDep, cSep].all (fun c => !(natMem c K.V)) &&
  !(Nat.beq K.A cDep) && !(Nat.beq K.A cVir) && !(Nat.beq K.A cSep)

theorem natMem_false {c : Nat} {l : PyStr} (h : natMem c l = false) : c ∉ l := by
  intro hm; rw [natMem_iff.2 hm] at h; cases h

theorem natBeq_false {a b : Nat} (h : Nat.beq a b = false) : a ≠ b := by
  rintro rfl; rw [Nat.beq_refl] at h; cases h

theorem Inter.apartOk_sound {K : Inter} (h : K.apartOk = true) : K.Apart := by
  simp only [Inter.apartOk, Bool.and_eq_true, List.all_cons, List.all_nil, Bool.not_eq_true', and_true] at h
  obtain ⟨⟨⟨⟨⟨a, b, c, d⟩, e, f, g⟩, i⟩, j⟩, k⟩ := h
  exact ⟨natMem_false a.1, natMem_false e, natBeq_false a.2, natBeq_false i, natBeq_false j, natBeq_false k,
    natMem_false b.1, natMem_false f, natBeq_false b.2, natMem_false d.1, natBeq_false d.2, natMem_false c.1, natMem_false g,
    natBeq_false c.2⟩

theorem interK_apart : interK.Apart := Inter.apartOk_sound (by decide +kernel)

theorem interK_mid : midOk interK midInter.prog = true := by decide +kernel

theorem anyPrefix_chars {l : PyStr} (t : PyStr) : anyPrefix (l.map fun c => [c]) t = true ↔ ∃ x ∈ t.head?, x ∈ l := by
  rw [anyPrefix_iff]
  constructor
  · rintro ⟨w, hw, q, rfl⟩
    obtain ⟨c, hc, rfl⟩ := List.mem_map.1 hw
    exact ⟨c, rfl, hc⟩
  · rintro ⟨x, hx, hl⟩
    cases t with
    | nil => cases hx
    | cons c t =>
      cases hx
      exact ⟨[x], List.mem_map.2 ⟨x, hl, rfl⟩, t, rfl⟩

/-- Consonants and vowels are put together. -/
theorem midOk_run {E : Env} {K : Inter} (hK : K.Apart) {p : Prog} (h : midOk K p = true) {R : PyStr} {σ : Nat → Sound}
    {z : Nat → Nat} {s : PyStr} (hs : ∀ c ∈ s, K.Item (σ c) (z c)) (hf : wellFormed (s.map σ) = true) :
    p.run E (renT R σ z [K.A] [] [] s) = .ok (renT R σ z [] [cDep, cVir] [cDep] s) := by
  unfold midOk at h
  split at h
  · rename_i p1 t1 p2 t2 p3 t3 x4 y4 p5 t5 x6 y6 x7 y7 x8 y8
    simp only [Bool.and_eq_true, strEq_iff, natMem_iff] at h
    obtain ⟨⟨⟨⟨⟨⟨⟨h1, h2⟩, h3⟩, h4⟩, h5⟩, h6⟩, rfl⟩, rfl⟩ := h
    have noN := renT_noNukta (R := R) hK s hs
    have noX := (renT_noSep (R := R) hK s hs).2
    have e1 : ∀ k : Prog, (Prog.sub p1 t1 k).run E (renT R σ z [K.A] [] [] s) = k.run E (renT R σ z [K.A] [cDep, cVir] [] s) := by
      intro k
      simp only [Prog.run]
      split at h1
      · rename_i q i a b hc
        rw [hc]
        simp only [Bool.and_eq_true, Nat.beq_eq] at h1
        obtain ⟨⟨⟨rfl, rfl⟩, rfl⟩, h1⟩ := h1
        split at h1
        · rename_i cs W hq
          simp only [Bool.and_eq_true, strEq_iff] at h1
          obtain ⟨rfl, h1⟩ := h1
          split at h1
          · rename_i l hl
            have hl := asChars_map hl
            subst hl
            rw [strEq_iff.1 h1] at hq
            show k.run E _ = _
            rw [aheadShape_sub hq E.uni (out := fun c => [c, cDep, cVir]) (fun c => rfl),
              renT_virama hK (fun t => ?_) s hs hf]
            rw [anyPrefix_chars]
            simp
          · cases h1
        · cases h1
      · cases h1
    have e2 : ∀ k : Prog, (Prog.sub p2 t2 k).run E (renT R σ z [K.A] [cDep, cVir] [] s) =
        k.run E (renT R σ z [K.A] [cDep, cVir] [cDep] s) := by
      intro k
      simp only [Prog.run]
      split at h2
      · rename_i q i a b hc
        rw [hc]
        simp only [Bool.and_eq_true, Nat.beq_eq] at h2
        obtain ⟨⟨⟨rfl, rfl⟩, rfl⟩, h2⟩ := h2
        split at h2
        · rename_i cs V hq
          simp only [Bool.and_eq_true, strEq_iff] at h2
          obtain ⟨rfl, rfl⟩ := h2
          show k.run E _ = _
          rw [pairShape_sub hq E.uni (mid := [cDep]) (fun c d => rfl), renT_signs hK (fun c => by simp) s hs]
        · cases h2
      · cases h2
    have e3 : ∀ k : Prog, (Prog.sub p3 t3 k).run E (renT R σ z [K.A] [cDep, cVir] [cDep] s) =
        k.run E (renT R σ z [] [cDep, cVir] [cDep] s) := by
      intro k
      simp only [Prog.run]
      split at h3
      · rename_i q hc
        rw [hc]
        split at h3
        · rename_i W cs hq
          simp only [Bool.and_eq_true, strEq_iff] at h3
          obtain ⟨rfl, h3⟩ := h3
          split at h3
          · rename_i l hl
            have hl := asChars_map hl
            subst hl
            rw [strEq_iff.1 h3] at hq
            show k.run E _ = _
            rw [behindShape_sub hq E.uni (out := fun _ => []) (fun c => rfl), renT_drop hK (fun t => ?_) s hs (by simp)]
            rw [List.map_map]
            exact anyPrefix_chars t
          · cases h3
        · cases h3
      · cases h3
    rw [e1, e2, e3]
    have noIn : ∀ x : PyStr, K.N ∈ x → ¬ x <:+: renT R σ z [] [cDep, cVir] [cDep] s := fun x hx hi => noN (hi.subset hx)
    have r4 : ∀ (x y : PyStr) (k : Prog), x ≠ [] → ¬ x <:+: renT R σ z [] [cDep, cVir] [cDep] s →
        (Prog.rep x y k).run E (renT R σ z [] [cDep, cVir] [cDep] s) = k.run E (renT R σ z [] [cDep, cVir] [cDep] s) := by
      intro x y k h0 hx
      simp only [Prog.run, pyReplace_of_not_infix h0 hx]
    have hx : ¬ [cDep, cVir, cSep] <:+: renT R σ z [] [cDep, cVir] [cDep] s :=
      fun hi => noX ((List.suffix_cons cDep [cVir, cSep]).isInfix.trans hi)
    rw [r4 _ _ _ (List.ne_nil_of_mem h4) (noIn _ h4), deadSub_sound h5 _ (fun f hf => by
      rw [List.mem_singleton.1 hf]; exact noIn _ (by simp)), r4 _ _ _ (List.ne_nil_of_mem h6) (noIn _ h6),
      r4 _ _ _ (by simp) hx, r4 _ _ _ (by simp) hx]
    rfl
  · cases h

theorem midInter_run {E : Env} {R : PyStr} {σ : Nat → Sound}
    {z : Nat → Nat} {s : PyStr} (hs : ∀ c ∈ s, interK.Item (σ c) (z c)) (hf : wellFormed (s.map σ) = true) :
    midInter.prog.run E (renT R σ z [interK.A] [] [] s) = .ok (renT R σ z [] [cDep, cVir] [cDep] s) :=
  midOk_run interK_apart interK_mid hs hf

end Verif
