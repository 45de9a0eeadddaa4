import Verif.Lib.Letterwise
import Verif.Lib.SampleEnv

/-!
# Roman letters in Semitic and kana texts (C26); Semitic scripts to themselves (C28)
-/

namespace Verif

/-! ## Letter by letter images -/

/-- A map on characters, extended to texts, that takes two texts to the same does not see one replaced
by the other. -/
theorem flatMap_pyReplace (g : Nat → PyStr) {x y : PyStr} (hx : x ≠ []) (h : x.flatMap g = y.flatMap g) (s : PyStr) :
    (pyReplace s x y).flatMap g = s.flatMap g := by
  cases x with
  | nil => exact absurd rfl hx
  | cons a x =>
    generalize hn : s.length = n
    induction n using Nat.strongRecOn generalizing s with
    | _ n ih =>
      cases s with
      | nil => rfl
      | cons c cs =>
        rw [pyReplace_cons]
        split
        · rename_i hp
          obtain ⟨r, hr⟩ := hp
          rw [← hr, List.drop_left, List.flatMap_append, List.flatMap_append, h]
          congr 1
          refine ih r.length ?_ r rfl
          rw [← hn, ← hr]
          simp only [List.length_append, List.length_cons]
          omega
        · rw [List.flatMap_cons, List.flatMap_cons, ih cs.length (by rw [← hn]; simp) cs rfl]

/-! ## C26: shielding -/

/-- `PreProcess.retainLatin(text)` -/
def shieldText (E : Env) (text : PyStr) : Except Exn PyStr := (PreProcess.retainLatin false).prog.run E text

/-- `PreProcess.retainLatin(text, reverse=True)` -/
def restoreText (E : Env) (text : PyStr) : Except Exn PyStr := (PreProcess.retainLatin true).prog.run E text

/-- The private characters used: U+EE01 and following, and the marks U+EA01 to U+EA06. -/
def PrivateShield (c : Nat) : Prop := 0xEE01 ≤ c ∧ c ≤ 0xEE49 ∨ 0xEA01 ≤ c ∧ c ≤ 0xEA06

/-- The letters meant to be protected: the basic Latin letters in both cases and those of the Semitic
romanisation, but for `A` and `ō`. -/
def shieldedLetters : PyStr :=
  u! "abcdefghijklmnopqrstuvwxyzḥṭṣʾʿšāīūēBCDEFGHIJKLMNOPQRSTUVWXYZḤṬṢŠĀĪŪĒŌ"

/-- The rules of `retainLatin`. -/
def shieldRules : List (PyStr × PyStr) := (pyEnumerate PreProcess.latn_all).map (fun p => (p.2, [60929 + p.1]))

/-- The rules for the marks. -/
def markRules : List (PyStr × PyStr) :=
  [([0xEA01], u! "r"), ([0xEA02], u! "ʿ"), ([0xEA03], u! "m"), ([0xEA04], u! "q"), ([0xEA05], u! "w"), ([0xEA06], u! "d")]

/-- The rules of the reverse. -/
def restoreRules : List (PyStr × PyStr) := (pyEnumerate PreProcess.latn_all).map (fun p => ([60929 + p.1], p.2))

theorem shieldText_eq (E : Env) (s : PyStr) : shieldText E s = .ok (applyRules markRules (applyRules shieldRules s)) := by
  have h : (PreProcess.retainLatin false).prog = (replaceAll (shieldRules ++ markRules)).prog := by rfl
  rw [shieldText, h, run_replaceAll]
  simp [applyRules, List.foldl_append]

theorem restoreText_eq (E : Env) (s : PyStr) : restoreText E s = .ok (applyRules restoreRules s) := by
  have h : (PreProcess.retainLatin true).prog = (replaceAll restoreRules).prog := by rfl
  rw [restoreText, h, run_replaceAll]

theorem restore_letterwise (s : PyStr) : applyRules restoreRules s = s.flatMap (charImage restoreRules) := by
  have h1 : ∀ p ∈ restoreRules, p.1.length = 1 := by decide +kernel
  have h2 : (restoreRules.all fun q => q.2.all fun d => restoreRules.all fun p => !(strEq p.1 [d])) = true := by decide +kernel
  refine applyRules_letterwise ?_ (fun p hp h => ?_) (fun p hp h => ?_) (fun c _ y hy d hd p hp h => ?_)
  · have : LongestFirst restoreRules := by
      unfold LongestFirst
      rw [List.pairwise_iff_getElem]
      intro i j hi hj _
      rw [h1 _ (List.getElem_mem hi), h1 _ (List.getElem_mem hj)]
      exact Nat.le_refl _
    exact this
  · have := h1 p hp
    rw [h] at this
    cases this
  · have := h1 p hp
    omega
  · have := List.all_eq_true.1 (List.all_eq_true.1 (List.all_eq_true.1 h2 _ hy) d hd) p hp
    rw [strEq_iff.2 h] at this
    cases this

theorem shield_unseen (s : PyStr) (g : Nat → PyStr) (L : List (PyStr × PyStr))
    (h : ∀ p ∈ L, p.1 ≠ [] ∧ p.1.flatMap g = p.2.flatMap g) : (applyRules L s).flatMap g = s.flatMap g := by
  induction L generalizing s with
  | nil => rfl
  | cons p L ih =>
    show (applyRules L (pyReplace s p.1 p.2)).flatMap g = _
    rw [ih _ (fun q hq => h q (List.mem_cons_of_mem _ hq))]
    have := h p (List.mem_cons_self ..)
    exact flatMap_pyReplace g this.1 this.2 s

theorem applyRules_mem {L : List (PyStr × PyStr)} {s : PyStr} {c : Nat} (h : c ∈ applyRules L s) :
    c ∈ s ∨ ∃ p ∈ L, c ∈ p.2 := by
  induction L generalizing s with
  | nil => exact .inl h
  | cons p L ih =>
    cases ih (s := pyReplace s p.1 p.2) h with
    | inl h =>
      cases pyReplace_mem h with
      | inl h => exact .inl h
      | inr h => exact .inr ⟨p, List.mem_cons_self .., h⟩
    | inr h =>
      obtain ⟨q, hq, hc⟩ := h
      exact .inr ⟨q, List.mem_cons_of_mem _ hq, hc⟩

theorem applyRules_none {L : List (PyStr × PyStr)} {s : PyStr} (h : ∀ p ∈ L, ∃ c, p.1 = [c] ∧ c ∉ s) :
    applyRules L s = s := by
  induction L with
  | nil => rfl
  | cons p L ih =>
    obtain ⟨c, hc, hn⟩ := h p (List.mem_cons_self ..)
    have : pyReplace s p.1 p.2 = s := by
      rw [hc]
      apply pyReplace_of_not_infix (by simp)
      intro hi
      exact hn (hi.subset (List.mem_singleton.2 rfl))
    show applyRules L (pyReplace s p.1 p.2) = s
    rw [this]
    exact ih fun q hq => h q (List.mem_cons_of_mem _ hq)

theorem markRules_idle {s : PyStr} (h : ∀ c ∈ s, ¬ PrivateShield c) :
    applyRules markRules (applyRules shieldRules s) = applyRules shieldRules s := by
  have hr : ∀ p ∈ shieldRules, ∀ c ∈ p.2, 0xEE01 ≤ c := by decide +kernel
  have hm : ∀ p ∈ markRules, ∃ c, p.1 = [c] ∧ 0xEA01 ≤ c ∧ c ≤ 0xEA06 := by
    intro p hp
    simp only [markRules, List.mem_cons, List.not_mem_nil, or_false] at hp
    rcases hp with rfl | rfl | rfl | rfl | rfl | rfl <;> exact ⟨_, rfl, by decide, by decide⟩
  apply applyRules_none
  intro p hp
  obtain ⟨c, hc, h1, h2⟩ := hm p hp
  refine ⟨c, hc, fun hmem => ?_⟩
  cases applyRules_mem hmem with
  | inl hs => exact h c hs (.inr ⟨h1, h2⟩)
  | inr hq =>
    obtain ⟨q, hq, hcq⟩ := hq
    have := hr q hq c hcq
    omega

/-- **C26**. A shielded text is restored exactly, whatever the text, unless it contains one of the private
characters used. -/
theorem C26_restored (E : Env) (text : PyStr) (h : ∀ c ∈ text, ¬ PrivateShield c) :
    ∃ t, shieldText E text = .ok t ∧ restoreText E t = .ok text := by
  refine ⟨_, shieldText_eq E text, ?_⟩
  rw [markRules_idle h, restoreText_eq, restore_letterwise, shield_unseen]
  · congr 1
    have hk : ∀ p ∈ restoreRules, ∃ k, p.1 = [k] ∧ 0xEE01 ≤ k ∧ k ≤ 0xEE49 := by
      have : (restoreRules.all fun p => match p.1 with
        | [k] => Nat.ble 0xEE01 k && Nat.ble k 0xEE49
        | _ => false) = true := by decide +kernel
      intro p hp
      have := List.all_eq_true.1 this p hp
      split at this
      · rename_i k hk
        rw [Bool.and_eq_true] at this
        exact ⟨k, hk, Nat.le_of_ble_eq_true this.1, Nat.le_of_ble_eq_true this.2⟩
      · cases this
    have : ∀ l : PyStr, (∀ c ∈ l, ¬ PrivateShield c) → l.flatMap (charImage restoreRules) = l := by
      intro l
      induction l with
      | nil => intro _; rfl
      | cons c l ih =>
        intro hl
        rw [List.flatMap_cons, ih fun d hd => hl d (List.mem_cons_of_mem _ hd)]
        have : restoreRules.lookup [c] = none := by
          rw [lookup_none]
          intro p hp he
          obtain ⟨k, hk1, hk2⟩ := hk p hp
          rw [hk1] at he
          injection he with he
          exact hl c (List.mem_cons_self ..) (.inl (he ▸ hk2))
        rw [charImage, this]
        rfl
    exact this text h
  · have : (shieldRules.all fun p => !p.1.isEmpty
        && strEq (p.1.flatMap (charImage restoreRules)) (p.2.flatMap (charImage restoreRules))) = true := by decide +kernel
    intro p hp
    have := List.all_eq_true.1 this p hp
    rw [Bool.and_eq_true] at this
    exact ⟨by intro hn; rw [hn] at this; simp at this, strEq_iff.1 this.2⟩

example : (∀ c ∈ u! "שלום Peace ōA Aō", ¬ PrivateShield c)
    ∧ (shieldText sampleEnv (u! "ש Aō")).toOption = some (u! "ש Aō")
    ∧ (shieldText sampleEnv (u! "ש pX")).toOption = some (u! "ש " ++ [0xEE10, 0xEE3C]) := by
  refine ⟨?_, by decide +kernel, by decide +kernel⟩
  unfold PrivateShield
  decide +kernel

/-- **C26**, shielding (all letters but `A` and `ō`): no Roman letter is left for the conversion to touch,
in any text without private characters.  Missing: `A` and `ō`, which are shielded in the sequence `ōA` only. -/
theorem C26_shielded_partial (E : Env) (text : PyStr) (h : ∀ c ∈ text, ¬ PrivateShield c) :
    ∃ t, shieldText E text = .ok t ∧ ∀ c ∈ t, c ∉ shieldedLetters := by
  refine ⟨_, shieldText_eq E text, ?_⟩
  rw [markRules_idle h]
  have hl : (shieldedLetters.all fun c => shieldRules.any fun p => strEq p.1 [c]) = true := by decide +kernel
  have hy : (shieldRules.all fun p => p.2.all fun c => !(natMem c shieldedLetters)) = true := by decide +kernel
  have key : ∀ (L : List (PyStr × PyStr)) (s : PyStr) (c : Nat), c ∈ shieldedLetters → (∀ p ∈ L, p ∈ shieldRules) →
      (∃ p ∈ L, p.1 = [c]) ∨ c ∉ s → c ∉ applyRules L s := by
    intro L
    induction L with
    | nil =>
      intro s c _ _ h
      rcases h with ⟨p, hp, _⟩ | h
      · cases hp
      · exact h
    | cons p L ih =>
      intro s c hc hL h
      have hpc : c ∉ p.2 := by
        intro hm
        have := List.all_eq_true.1 (List.all_eq_true.1 hy p (hL p (List.mem_cons_self ..))) c hm
        rw [natMem_iff.2 hc] at this
        cases this
      apply ih (pyReplace s p.1 p.2) c hc fun q hq => hL q (List.mem_cons_of_mem _ hq)
      rcases h with ⟨q, hq, he⟩ | h
      · rcases List.mem_cons.1 hq with rfl | hq
        · right
          rw [he, pyReplace_single]
          intro hm
          obtain ⟨d, _, hd⟩ := List.mem_flatMap.1 hm
          split at hd
          · exact hpc hd
          · rename_i hne
            simp only [List.mem_cons, List.not_mem_nil, or_false] at hd
            exact hne hd.symm
        · exact .inl ⟨q, hq, he⟩
      · right
        intro hm
        cases pyReplace_mem hm with
        | inl hm => exact h hm
        | inr hm => exact hpc hm
  intro c hc hm
  have := List.all_eq_true.1 hl c hm
  obtain ⟨p, hp, he⟩ := List.any_eq_true.1 this
  exact key shieldRules text c hm (fun _ h => h) (.inl ⟨p, hp, strEq_iff.1 he⟩) hc

/-- **C26 is false** for `A` and `ō`. -/
theorem C26_violated : (shieldText sampleEnv (u! "A ō")).toOption = some (u! "A ō") := by decide +kernel

/-! ## C28: Semitic scripts to themselves -/

/-- **C28**. `Transliterator.tr` from a script to itself returns every text unchanged, for every name. -/
theorem C28_same_script (E : Env) (S text : PyStr) : (Gim.tr S S).prog.run E text = .ok text := by
  have : (!(pyEq S S)) = false := by
    rw [pyEq_eq, strEq_iff.2 rfl]
    rfl
  unfold Gim.tr
  rw [this]
  rfl

end Verif
