import Verif.Spec.Digits
import Verif.Props.Spelling

/-!
# C57: numbers keep their value
-/

namespace Verif

/-- The ten digits are the last ten letters of the table, they are core letters that nativisation leaves alone, and every
forbidden sequence but two full stops has a character that is no digit and neither plain nor neutral. -/
def digitsOk (p : CoreEntry × Nat) : Bool :=
  (List.range 10).all (fun d => natMem (p.2 + d) p.1.letters && !(natMem (p.2 + d) p.1.natDrop)) &&
  decide (modAttr p.1.script .NumeralMap = (List.range 10).map fun d => [p.2 + d]) &&
  (p.1.forbid ++ p.1.natForbid).all (fun f => strEq f (u! "..") || f.any fun c =>
    !(Nat.ble p.2 c && Nat.blt c (p.2 + 10)) && !(natMem c plainChars) && !(neuMem c)) &&
  p.1.natDrop.all (fun c => !(natMem c plainChars) && !(neuMem c))

set_option maxRecDepth 100000 in
theorem digitsOk_all : digitScripts.all digitsOk = true := by decide +kernel

theorem digitScripts_core : ∀ p ∈ digitScripts, p.1 ∈ coreTable := by
  have : ∀ e ∈ digitScripts.map Prod.fst, e ∈ coreTable := by
    simp [digitScripts, coreTable]
  exact fun p hp => this _ (List.mem_map_of_mem hp)

/-- What `digitsOk` says. -/
structure DigitFacts (p : CoreEntry × Nat) : Prop where
  letter : ∀ c, p.2 ≤ c → c < p.2 + 10 → c ∈ p.1.letters ∧ c ∉ p.1.natDrop
  table : modAttr p.1.script .NumeralMap = (List.range 10).map fun d => [p.2 + d]
  forbid : ∀ f ∈ p.1.forbid ++ p.1.natForbid, f = u! ".." ∨
    ∃ c ∈ f, ¬ (p.2 ≤ c ∧ c < p.2 + 10) ∧ c ∉ plainChars ∧ isNeutral c = false
  drop : ∀ c ∈ p.1.natDrop, c ∉ plainChars ∧ isNeutral c = false

theorem digitFacts {p : CoreEntry × Nat} (hp : p ∈ digitScripts) : DigitFacts p := by
  have h := List.all_eq_true.1 digitsOk_all p hp
  have hf : ∀ {c : Nat} {l : List Nat}, natMem c l = false ↔ c ∉ l := fun {c l} => by
    rw [← natMem_iff, Bool.not_eq_true]
  simp only [digitsOk, Bool.and_eq_true, List.all_eq_true, Bool.not_eq_true', decide_eq_true_eq, natMem_iff, hf, Bool.or_eq_true,
    strEq_iff, List.any_eq_true, neuMem_eq] at h
  obtain ⟨⟨⟨h1, h2⟩, h3⟩, h4⟩ := h
  refine ⟨fun c hl hu => ?_, h2, fun f hm => (h3 f hm).imp id ?_, h4⟩
  · have := h1 (c - p.2) (List.mem_range.2 (by omega))
    rwa [show p.2 + (c - p.2) = c by omega] at this
  · rintro ⟨c, hc, ⟨h5, h6⟩, h7⟩
    refine ⟨c, hc, ?_, h6, h7⟩
    rintro ⟨ha, hb⟩
    rw [Bool.and_eq_false_iff] at h5
    rcases h5 with h5 | h5
    · rw [Nat.ble_eq_true_of_le ha] at h5; cases h5
    · have : Nat.blt c (p.2 + 10) = true := Nat.ble_eq_true_of_le hb
      rw [this] at h5; cases h5

theorem letterList_numerals (S : PyStr) : ∃ l, letterList S = l ++ modAttr S .NumeralMap := by
  refine ⟨(letterSecs.dropLast).flatMap (modAttr S), ?_⟩
  simp [letterList, letterSecs]

theorem digit_pair {a b : CoreEntry × Nat} (fa : DigitFacts a) (fb : DigitFacts b) (ta : hasTbl a.1.script = true)
    (tb : hasTbl b.1.script = true) {d : Nat} (hd : d < 10) :
    ([a.2 + d], [b.2 + d]) ∈ (letterList a.1.script).zip (letterList b.1.script) := by
  obtain ⟨l, hl⟩ := letterList_numerals a.1.script
  obtain ⟨m, hm⟩ := letterList_numerals b.1.script
  have hlen := letterList_length ta tb
  rw [hl, hm, fa.table, fb.table] at hlen ⊢
  simp only [List.length_append, List.length_map, List.length_range] at hlen
  rw [List.zip_append (by omega), List.mem_append]
  right
  rw [List.zip_map_left, List.zip_map_right]
  simp only [List.map_map, List.mem_map]
  refine ⟨(d, d), ?_, rfl⟩
  have : ∀ l : List Nat, d ∈ l → (d, d) ∈ l.zip l := by
    intro l
    induction l with
    | nil => simp
    | cons x l ih =>
      intro h
      rcases List.mem_cons.1 h with rfl | h
      · simp
      · exact List.mem_cons_of_mem _ (ih h)
  exact this _ (List.mem_range.2 hd)

/-- The text of numbers is core text. -/
theorem number_core {a : CoreEntry × Nat} (fa : DigitFacts a) {s : PyStr}
    (hs : ∀ c ∈ s, (a.2 ≤ c ∧ c < a.2 + 10) ∨ (c ∈ plainChars ∧ c ∉ a.1.notPlain) ∨ isNeutral c = true) (h2 : ¬ u! ".." <:+: s) :
    CoreText a.1 s ∧ NativeText a.1 s := by
  have free : ∀ f ∈ a.1.forbid ++ a.1.natForbid, ¬ f <:+: s := by
    intro f hf hi
    rcases fa.forbid f hf with rfl | ⟨c, hc, h3, h4, h5⟩
    · exact h2 hi
    · rcases hs c (hi.subset hc) with h | h | h
      · exact h3 h
      · exact h4 h.1
      · rw [h] at h5; cases h5
  refine ⟨⟨fun c hc => ?_, fun f hf => free f (List.mem_append_left _ hf)⟩, ⟨fun c hc hd => ?_, fun f hf => free f (List.mem_append_right _ hf)⟩⟩
  · rcases hs c hc with h | h
    · exact Or.inl (fa.letter c h.1 h.2).1
    · exact Or.inr h
  · obtain ⟨h3, h4⟩ := fa.drop c hd
    rcases hs c hc with h | h | h
    · exact (fa.letter c h.1 h.2).2 hd
    · exact h3 h.1
    · rw [h] at h4; cases h4

/-- **C57.** Numbers in the digits of one script become the same numbers in the digits of the other one, and what stands
between them stays: every text of numbers, with and without nativisation. -/
theorem C57_numbers_keep_value (E : Env) (hE : E.TextOps) (a b : CoreEntry × Nat) (ha : a ∈ digitScripts) (hb : b ∈ digitScripts)
    (hne : a.1.script ≠ b.1.script) (hag : Agree a.1.script b.1.script) (s : PyStr) (hs : NumberText a b s) (nativize : Bool) :
    process E a.1.script b.1.script s nativize [] [] (u! "default") = .ok (some (s.map (redigit a.2 b.2))) := by
  have fa := digitFacts ha
  have fb := digitFacts hb
  have ca := digitScripts_core a ha
  have cb := digitScripts_core b hb
  obtain ⟨ga⟩ := facts ca
  obtain ⟨gb⟩ := facts cb
  have hcore := (number_core fa (fun c hc => (hs.chars c hc).imp id fun h => h.imp (fun h => ⟨h.1, h.2.1⟩) id) hs.stops).1
  have himg : ∀ c ∈ s, image a.1.script b.1.script c = [redigit a.2 b.2 c] := by
    intro c hc
    by_cases hd : a.2 ≤ c ∧ c < a.2 + 10
    · have hp := digit_pair fa fb ga.tbl gb.tbl (d := c - a.2) (by omega)
      rw [show a.2 + (c - a.2) = c by omega] at hp
      rw [image_of_pair (ga.once c (fa.letter c hd.1 hd.2).1) hp, redigit, if_pos hd]
    · rw [redigit, if_neg hd]
      refine image_of_not fun hm => ?_
      obtain ⟨d, hd', he⟩ := ga.letter_in_core hcore hm (char_infix hc)
      cases he
      have := ga.apart c hd'
      rcases hs.chars c hc with h | h | h
      · exact hd h
      · exact this.2 h.1
      · rw [h] at this; cases this.1
  have hre : respell a.1.script b.1.script s = s.map (redigit a.2 b.2) := by
    unfold respell
    rw [flatMap_congr_mem himg]
    clear himg hcore hs
    induction s with
    | nil => rfl
    | cons c s ih => rw [List.flatMap_cons, ih]; rfl
  have hout : ∀ c ∈ s, redigit a.2 b.2 c = 46 → c = 46 := by
    intro c hc h
    unfold redigit at h
    split at h
    · exfalso
      rename_i hd
      have := (gb.apart 46 (h ▸ (fb.letter _ (by omega) (by omega)).1)).2
      exact this (by decide)
    · exact h
  have hstops : ¬ u! ".." <:+: s.map (redigit a.2 b.2) := by
    intro hi
    obtain ⟨t, ht, he⟩ := List.infix_map_iff.1 hi
    apply hs.stops
    have ht2 : t = t.map (redigit a.2 b.2) := by
      have : ∀ x ∈ t, x = redigit a.2 b.2 x := by
        intro x hx
        have h46 : redigit a.2 b.2 x = 46 := by
          have : redigit a.2 b.2 x ∈ u! ".." := he ▸ List.mem_map_of_mem hx
          simpa using this
        rw [h46]
        exact hout x (ht.subset hx) h46
      conv => lhs; rw [← List.map_id t]
      exact List.map_congr_left this
    rw [he, ← ht2]
    exact ht
  have htgt := number_core fb (s := s.map (redigit a.2 b.2)) (by
    intro x hx
    obtain ⟨c, hc, rfl⟩ := List.mem_map.1 hx
    unfold redigit
    split
    · exact Or.inl (by omega)
    · rename_i hd
      rcases hs.chars c hc with h | h | h
      · exact absurd h hd
      · exact Or.inr (Or.inl ⟨h.1, h.2.2⟩)
      · exact Or.inr (Or.inr h)) hstops
  rw [C15_letter_by_letter E hE a.1 b.1 ca cb hne hag s ⟨hcore, hre ▸ htgt.1⟩ nativize fun _ => hre ▸ htgt.2, hre]

/-- **C57**, for a single number: the result is a numeral of the target script with the same value. -/
theorem C57_value (E : Env) (hE : E.TextOps) (a b : CoreEntry × Nat) (ha : a ∈ digitScripts) (hb : b ∈ digitScripts)
    (hne : a.1.script ≠ b.1.script) (hag : Agree a.1.script b.1.script) (s : PyStr) (hs : ∀ c ∈ s, a.2 ≤ c ∧ c < a.2 + 10)
    (nativize : Bool) :
    ∃ t, process E a.1.script b.1.script s nativize [] [] (u! "default") = .ok (some t)
      ∧ t.length = s.length ∧ (∀ c ∈ t, b.2 ≤ c ∧ c < b.2 + 10) ∧ decimalValue b.2 t = decimalValue a.2 s := by
  refine ⟨_, C57_numbers_keep_value E hE a b ha hb hne hag s ⟨fun c hc => Or.inl (hs c hc), fun hi => ?_⟩ nativize,
    List.length_map _, ?_, ?_⟩
  · have h := hs 46 (hi.subset (by simp))
    obtain ⟨ga⟩ := facts (digitScripts_core a ha)
    exact (ga.apart 46 ((digitFacts ha).letter 46 h.1 h.2).1).2 (by decide)
  · intro x hx
    obtain ⟨c, hc, rfl⟩ := List.mem_map.1 hx
    have := hs c hc
    simp only [redigit, this, and_self, if_true]
    omega
  · unfold decimalValue
    generalize 0 = v
    induction s generalizing v with
    | nil => rfl
    | cons c s ih =>
      have := hs c (by simp)
      simp only [List.map_cons, List.foldl_cons]
      rw [ih fun c hc => hs c (by simp [hc])]
      congr 2
      simp only [redigit, this, and_self, if_true]
      omega

/-- The year 1996 in Devanagari digits, among signs, meets the hypotheses. -/
example : (coreDevanagari, 0x966) ∈ digitScripts ∧ (coreBurmese, 0x1040) ∈ digitScripts
    ∧ Agree (u! "Devanagari") (u! "Burmese") ∧ NumberText (coreDevanagari, 0x966) (coreBurmese, 0x1040) (u! "(१९९६), १०%")
    ∧ (u! "(१९९६), १०%").map (redigit 0x966 0x1040) = u! "(၁၉၉၆), ၁၀%" := by
  refine ⟨by simp [digitScripts], by simp [digitScripts], ?_, ⟨by decide +kernel, by decide +kernel⟩, by decide +kernel⟩
  have : (clashing.all fun p => !(strEq p.1 (u! "Devanagari"))) = true := by decide +kernel
  intro l hl
  have := List.all_eq_true.1 this _ hl
  simp at this

end Verif
