import Verif.Props.Digits
import Verif.Props.RomanBack

/-!
# C57: numbers in romanised text
-/

namespace Verif

/-- The characters of romanised numbers. -/
def romanNumberChar (c : Nat) : Bool := (Nat.ble 48 c && Nat.blt c 58) || natMem c numberSigns || neuMem c

/-- A text of numbers cannot contain the word. -/
def notInNumbers (f : PyStr) : Bool := f.any fun c => !(romanNumberChar c)

/-- No two characters of numbers stand side by side in the letter. -/
def noNumberPair : PyStr → Bool
  | c :: d :: t => !(romanNumberChar c && romanNumberChar d) && noNumberPair (d :: t)
  | _ => true

def romanDigitsOk (r : RomanEntry) : Bool :=
  hasTbl r.script &&
  decide (modAttr r.script .NumeralMap = (List.range 10).map fun d => [zeroASCII + d]) &&
  (List.range 10).all (fun d => strMem [zeroASCII + d] r.marks && !(strMem [zeroASCII + d] r.conss)) &&
  numberSigns.all (fun c => natMem c r.free) &&
  r.avoid.all notInNumbers &&
  r.hiatus.all (fun p => notInNumbers p.1) &&
  r.oneWay.all (fun c => !(romanNumberChar c)) &&
  (romanLetters r.script).all noNumberPair &&
  (romanCodes r.script).all notInNumbers

theorem romanDigitsOk_all : romanTable.all romanDigitsOk = true := by decide +kernel

theorem omNoNumber_all : digitScripts.all (fun p => (letterAt p.1.script .OmMap 0).any fun c =>
    !(Nat.ble p.2 c && Nat.blt c (p.2 + 10)) && !(natMem c numberSigns) && !(neuMem c)) = true := by decide +kernel

/-- What `romanDigitsOk` says. -/
structure RomanDigitFacts (r : RomanEntry) : Prop where
  tbl : hasTbl r.script = true
  table : modAttr r.script .NumeralMap = (List.range 10).map fun d => [zeroASCII + d]
  marks : ∀ d, d < 10 → [zeroASCII + d] ∈ r.marks ∧ [zeroASCII + d] ∉ r.conss
  free : ∀ c ∈ numberSigns, c ∈ r.free
  avoid : ∀ f ∈ r.avoid, notInNumbers f = true
  hiatus : ∀ p ∈ r.hiatus, notInNumbers p.1 = true
  oneWay : ∀ c ∈ r.oneWay, romanNumberChar c = false
  pair : ∀ k ∈ romanLetters r.script, noNumberPair k = true
  codes : ∀ f ∈ romanCodes r.script, notInNumbers f = true

theorem romanDigitFacts {r : RomanEntry} (hr : r ∈ romanTable) : RomanDigitFacts r := by
  have h := List.all_eq_true.1 romanDigitsOk_all r hr
  simp only [romanDigitsOk, Bool.and_eq_true, List.all_eq_true, Bool.not_eq_true', decide_eq_true_eq, natMem_iff, strMem_iff,
    strMem_false, List.mem_range] at h
  obtain ⟨⟨⟨⟨⟨⟨⟨⟨h1, h2⟩, h3⟩, h4⟩, h5⟩, h6⟩, h7⟩, h8⟩, h9⟩ := h
  exact ⟨h1, h2, h3, h4, h5, h6, h7, h8, h9⟩

theorem notInNumbers_sound {f t : PyStr} (h : notInNumbers f = true) (ht : ∀ c ∈ t, romanNumberChar c = true) : ¬ f <:+: t := by
  intro hi
  obtain ⟨c, hc, h⟩ := List.any_eq_true.1 h
  rw [ht c (hi.subset hc)] at h
  cases h

theorem noNumberPair_sound {k : PyStr} (h : noNumberPair k = true) {x y : Nat} (hx : romanNumberChar x = true)
    (hy : romanNumberChar y = true) : ¬ [x, y] <:+: k := by
  induction k with
  | nil => intro hi; have := hi.length_le; simp at this
  | cons c t ih =>
    cases t with
    | nil => intro hi; have := hi.length_le; simp at this
    | cons d t =>
      simp only [noNumberPair, Bool.and_eq_true, Bool.not_eq_true'] at h
      intro hi
      rcases List.infix_cons_iff.1 hi with hp | hi
      · rw [List.cons_prefix_cons, List.cons_prefix_cons] at hp
        rw [← hp.1, ← hp.2.1, hx, hy] at h
        cases h.1
      · exact ih h.2 hi

theorem digit_in_soundTable {a : CoreEntry × Nat} {r : RomanEntry} (fa : DigitFacts a) (fr : RomanDigitFacts r) {d : Nat}
    (hd : d < 10) : ([a.2 + d], Sound.mark [zeroASCII + d]) ∈ soundTable a.1.script r.script := by
  unfold soundTable
  refine List.mem_flatMap.2 ⟨.NumeralMap, by decide, List.mem_map.2 ⟨([a.2 + d], [zeroASCII + d]), ?_, rfl⟩⟩
  rw [fa.table, fr.table, List.zip_map_left, List.zip_map_right]
  simp only [List.map_map, List.mem_map]
  refine ⟨(d, d), ?_, rfl⟩
  have : ∀ l : List Nat, d ∈ l → (d, d) ∈ l.zip l := by
    intro l
    induction l with
    | nil => simp
    | cons x l ih =>
      intro h
      rcases List.mem_cons.1 h with rfl | h
      · simp
      · exact List.mem_cons_of_mem _ (ih h)
  exact this _ (List.mem_range.2 hd)

theorem numberSigns_plain : ∀ c ∈ numberSigns, c ∈ plainChars := by decide

theorem romanNumbers_core {a : CoreEntry × Nat} (fa : DigitFacts a) {s : PyStr} (hs : RomanNumbers a.1 a.2 s) (h46 : ¬ (a.2 ≤ 46 ∧ 46 < a.2 + 10)) :
    CoreText a.1 s ∧ NativeText a.1 s := by
  refine number_core fa (fun c hc => (hs c hc).imp id fun h => h.imp (fun h => ⟨numberSigns_plain c h.1, h.2⟩) id) fun hi => ?_
  rcases hs 46 (hi.subset (by simp)) with h | h | h
  · exact h46 h
  · exact absurd h.1 (by decide)
  · exact absurd h (by decide)

/-- The sound of a character of a number. -/
theorem number_sound {a : CoreEntry × Nat} (ha : a ∈ digitScripts) {r : RomanEntry} (hr : r ∈ romanTable) {s : PyStr}
    (hs : RomanNumbers a.1 a.2 s) (hcore : CoreText a.1 s) {c : Nat} (hc : c ∈ s) :
    sound a.1.script r.script c = if a.2 ≤ c ∧ c < a.2 + 10 then .mark [redigit a.2 zeroASCII c] else .other c := by
  have fa := digitFacts ha
  have fr := romanDigitFacts hr
  obtain ⟨ga⟩ := facts (digitScripts_core a ha)
  have hfst := soundTable_fst ga.tbl fr.tbl
  by_cases hd : a.2 ≤ c ∧ c < a.2 + 10
  · have hp := digit_in_soundTable (r := r) fa fr (d := c - a.2) (by omega)
    rw [show a.2 + (c - a.2) = c by omega] at hp
    rw [sound_of_letter (by rw [hfst]; exact ga.once c (fa.letter c hd.1 hd.2).1) hp, if_pos hd, redigit, if_pos hd]
  · rw [if_neg hd]
    refine sound_of_not fun hm => ?_
    rw [hfst] at hm
    obtain ⟨d, hd', he⟩ := ga.letter_in_core hcore hm (char_infix hc)
    cases he
    have := ga.apart c hd'
    rcases hs c hc with h | h | h
    · exact hd h
    · exact this.2 (numberSigns_plain c h.1)
    · rw [h] at this; cases this.1

theorem number_char {z : Nat} {e : CoreEntry} {s : PyStr} (hs : RomanNumbers e z s) {c : Nat} (hc : c ∈ s) :
    romanNumberChar (redigit z zeroASCII c) = true := by
  unfold romanNumberChar redigit
  split
  · rename_i h
    have h1 : Nat.ble 48 (zeroASCII + (c - z)) = true := Nat.ble_eq_true_of_le (by simp [zeroASCII])
    have h2 : Nat.blt (zeroASCII + (c - z)) 58 = true := Nat.ble_eq_true_of_le (by simp only [zeroASCII]; omega)
    rw [h1, h2]
    rfl
  · rename_i h
    rcases hs c hc with h' | h' | h'
    · exact absurd h' h
    · rw [natMem_iff.2 h'.1]; simp
    · rw [neuMem_eq, h']; simp

/-- The pieces of a romanised number: its characters. -/
theorem number_pieces {a : CoreEntry × Nat} (ha : a ∈ digitScripts) {r : RomanEntry} (hr : r ∈ romanTable) {s : PyStr}
    (hs : RomanNumbers a.1 a.2 s) (hcore : CoreText a.1 s) :
    romanPieces r.script (sounds a.1.script r.script s) = s.map fun c => [redigit a.2 zeroASCII c] := by
  have h : ∀ c ∈ s, sound a.1.script r.script c = if a.2 ≤ c ∧ c < a.2 + 10 then .mark [redigit a.2 zeroASCII c] else .other c :=
    fun c hc => number_sound ha hr hs hcore hc
  clear hcore hs
  unfold sounds
  induction s with
  | nil => rfl
  | cons c s ih =>
    rw [List.map_cons, h c (by simp)]
    have ih := ih fun c hc => h c (by simp [hc])
    by_cases hd : a.2 ≤ c ∧ c < a.2 + 10
    · rw [if_pos hd, romanPieces, ih, List.map_cons]
    · rw [if_neg hd, romanPieces, ih, List.map_cons]
      simp [redigit, hd]

theorem flatten_singles (s : PyStr) (f : Nat → Nat) : (s.map fun c => [f c]).flatten = s.map f := by
  induction s with
  | nil => rfl
  | cons c s ih => simp [ih]

/-- Numbers are spelled digit by digit, and the spelling can be read in one way only. -/
theorem number_readable {a : CoreEntry × Nat} (ha : a ∈ digitScripts) {r : RomanEntry} (hr : r ∈ romanTable) {s : PyStr}
    (hs : RomanNumbers a.1 a.2 s) :
    Readable a.1 r s ∧ NativeText a.1 s ∧ romanise a.1.script r.script s = s.map (redigit a.2 zeroASCII) ∧
      r.write (s.map (redigit a.2 zeroASCII)) = s.map (redigit a.2 zeroASCII) := by
  have fa := digitFacts ha
  have fr := romanDigitFacts hr
  obtain ⟨ga⟩ := facts (digitScripts_core a ha)
  have h46 : ¬ (a.2 ≤ 46 ∧ 46 < a.2 + 10) := fun h => (ga.apart 46 (fa.letter 46 h.1 h.2).1).2 (by decide)
  obtain ⟨hcore, hnat⟩ := romanNumbers_core fa hs h46
  have hp := number_pieces ha hr hs hcore
  have hrom : romanise a.1.script r.script s = s.map (redigit a.2 zeroASCII) := by
    unfold romanise
    rw [hp, flatten_singles]
  have hch : ∀ x ∈ s.map (redigit a.2 zeroASCII), romanNumberChar x = true := by
    intro x hx
    obtain ⟨c, hc, rfl⟩ := List.mem_map.1 hx
    exact number_char hs hc
  have snd : ∀ x ∈ sounds a.1.script r.script s, (∃ d, d < 10 ∧ x = .mark [zeroASCII + d]) ∨
      ∃ c, x = .other c ∧ (c ∈ numberSigns ∨ isNeutral c = true) := by
    intro x hx
    obtain ⟨c, hc, rfl⟩ := List.mem_map.1 hx
    rw [number_sound ha hr hs hcore hc]
    by_cases hd : a.2 ≤ c ∧ c < a.2 + 10
    · left
      rw [if_pos hd]
      exact ⟨c - a.2, by omega, by rw [redigit, if_pos hd]⟩
    · right
      rw [if_neg hd]
      rcases hs c hc with h | h | h
      · exact absurd h hd
      · exact ⟨c, rfl, .inl h.1⟩
      · exact ⟨c, rfl, .inr h⟩
  have formed : ∀ (l : List Sound) (x : Sound), (∀ y ∈ l, (∃ d, d < 10 ∧ y = .mark [zeroASCII + d]) ∨
      ∃ c, y = .other c ∧ (c ∈ numberSigns ∨ isNeutral c = true)) → formedAfter x l = true := by
    intro l
    induction l with
    | nil => intro _ _; rfl
    | cons y l ih =>
      intro x h
      unfold formedAfter
      rw [ih y fun z hz => h z (by simp [hz])]
      rcases h y (by simp) with ⟨d, -, rfl⟩ | ⟨c, rfl, -⟩ <;> cases x <;> rfl
  have breath : ∀ l : List Sound, (∀ y ∈ l, (∃ d, d < 10 ∧ y = .mark [zeroASCII + d]) ∨
      ∃ c, y = .other c ∧ (c ∈ numberSigns ∨ isNeutral c = true)) → noFalseAspirate r.script l = true := by
    intro l
    induction l with
    | nil => intro _; rfl
    | cons y l ih =>
      intro h
      have := ih fun z hz => h z (by simp [hz])
      rcases h y (by simp) with ⟨d, -, rfl⟩ | ⟨c, rfl, -⟩ <;> exact this
  refine ⟨⟨⟨hcore, fun hi => ?_, fun x hx => ?_, formed _ _ snd, breath _ snd, fun f hf => ?_⟩, ?_, ?_, ?_, ?_, ?_⟩, hnat, hrom, ?_⟩
  · obtain ⟨c, hc, h⟩ := List.any_eq_true.1 (List.all_eq_true.1 omNoNumber_all a ha)
    simp only [Bool.and_eq_true, Bool.not_eq_true', neuMem_eq] at h
    obtain ⟨⟨h1, h2⟩, h3⟩ := h
    rcases hs c (hi.subset hc) with h | h | h
    · have e1 : Nat.ble a.2 c = true := Nat.ble_eq_true_of_le h.1
      have e2 : Nat.blt c (a.2 + 10) = true := Nat.ble_eq_true_of_le h.2
      rw [e1, e2] at h1
      cases h1
    · rw [natMem_iff.2 h.1] at h2; cases h2
    · rw [h] at h3; cases h3
  · rcases snd x hx with ⟨d, hd, rfl⟩ | ⟨c, rfl, h⟩
    · exact (fr.marks d hd).1
    · exact h.imp (fr.free c) id
  · rw [hrom]
    exact notInNumbers_sound (fr.avoid f hf) hch
  · intro p q hi x hx y hy k hk
    rw [hp] at hi
    obtain ⟨c, hc, rfl⟩ := List.mem_map.1 (hi.subset (by simp : p ∈ [p, q]))
    obtain ⟨d, hd, rfl⟩ := List.mem_map.1 (hi.subset (by simp : q ∈ [_, q]))
    simp only [List.getLast?_singleton, Option.mem_def, Option.some.injEq, List.head?_cons] at hx hy
    subst hx hy
    exact noNumberPair_sound (fr.pair k hk) (number_char hs hc) (number_char hs hd)
  · intro y hi
    rw [hp] at hi
    obtain ⟨c, hc, h⟩ := List.mem_map.1 (hi.subset (by simp : u! "_" ∈ [u! "_", y]))
    have := number_char hs hc
    rw [(List.cons.inj h).1] at this
    exact absurd this (by decide)
  · intro y hy
    rcases snd _ hy with ⟨d, hd, h⟩ | ⟨c, h, -⟩
    · cases h; exact (fr.marks d hd).2
    · cases h
  · rw [hrom]
    intro c hc hm
    have := hch c hc
    rw [fr.oneWay c hm] at this
    cases this
  · rw [hrom]
    exact fun f hf => notInNumbers_sound (fr.codes f hf) hch
  · unfold RomanEntry.write
    have : ∀ (l : List (PyStr × PyStr)) (t : PyStr), (∀ p ∈ l, ¬ p.1 <:+: t) → l.foldl (fun t p => pyReplace t p.1 p.2) t = t := by
      intro l
      induction l with
      | nil => intro t _; rfl
      | cons p l ih =>
        intro t h
        rw [List.foldl_cons, pyReplace_of_not_infix (x := p.1) (fun h0 => h p (by simp) (by rw [h0]; exact List.nil_infix)) (h p (by simp))]
        exact ih t fun q hq => h q (by simp [hq])
    exact this _ _ fun p hp => notInNumbers_sound (fr.hiatus p hp) hch

/-- **C57**, romanisation: numbers in the digits of an Indic script become the same numbers in ASCII digits. -/
theorem C57_numbers_romanised (E : Env) (hE : E.TextOps) (a : CoreEntry × Nat) (ha : a ∈ digitScripts) (r : RomanEntry)
    (hr : r ∈ romanTable) (hap : Apt a.1.script r.script) (s : PyStr) (hs : RomanNumbers a.1 a.2 s) (nativize : Bool) :
    process E a.1.script r.script s nativize [] [] (u! "default") = .ok (some (s.map (redigit a.2 zeroASCII))) := by
  obtain ⟨h1, -, h3, h4⟩ := number_readable ha hr hs
  rw [C43_syllable_by_syllable E hE a.1 (digitScripts_core a ha) r hr hap s h1.toRomanText nativize, h3, h4]

/-- **C57**, reading romanised text: ASCII numbers become the same numbers in the digits of the Indic script. -/
theorem C57_numbers_read (E : Env) (hE : E.TextOps) (b : CoreEntry × Nat) (hb : b ∈ digitScripts) (r : RomanEntry)
    (hr : r ∈ readTable) (hK : E.KeepsSpelt r) (s : PyStr) (hs : RomanNumbers b.1 zeroASCII s) (nativize : Bool) :
    process E r.script b.1.script s nativize [] [] (u! "default") = .ok (some (s.map (redigit zeroASCII b.2))) := by
  have fb := digitFacts hb
  obtain ⟨gb⟩ := facts (digitScripts_core b hb)
  have htxt : RomanNumbers b.1 b.2 (s.map (redigit zeroASCII b.2)) := by
    intro x hx
    obtain ⟨c, hc, rfl⟩ := List.mem_map.1 hx
    unfold redigit
    split
    · exact .inl (by omega)
    · rename_i h
      exact (hs c hc).elim (fun h' => absurd h' h) .inr
  obtain ⟨h1, h2, h3, h4⟩ := number_readable hb (readTable_roman r hr) htxt
  have hback : (s.map (redigit zeroASCII b.2)).map (redigit b.2 zeroASCII) = s := by
    rw [List.map_map]
    refine (List.map_congr_left fun c hc => ?_).trans (List.map_id s)
    show redigit b.2 zeroASCII (redigit zeroASCII b.2 c) = c
    by_cases hd : zeroASCII ≤ c ∧ c < zeroASCII + 10
    · have : redigit zeroASCII b.2 c = b.2 + (c - zeroASCII) := by rw [redigit, if_pos hd]
      rw [this, redigit, if_pos (by omega)]
      omega
    · have e : redigit zeroASCII b.2 c = c := by rw [redigit, if_neg hd]
      rw [e, redigit, if_neg]
      intro h
      have := gb.apart c (fb.letter c h.1 h.2).1
      rcases hs c hc with h' | h' | h'
      · exact hd h'
      · exact this.2 (numberSigns_plain c h'.1)
      · rw [h'] at this; cases this.1
  have hself := respell_self gb.tbl (s.map (redigit zeroASCII b.2))
  have := C44_spelling_is_read E hE b.1 (digitScripts_core b hb) b.1 (digitScripts_core b hb) r hr hK _ h1
    (by rw [hself]; exact h1.core) nativize (by rw [hself]; exact fun _ => h2)
  rw [hself, h3, h4, hback] at this
  exact this

/-- Texts that meet the conditions. -/
example : RomanNumbers coreDevanagari 0x966 (u! "१५ / ८, २०२४ 中") ∧ RomanNumbers coreTelugu zeroASCII (u! "15 / 8, 2024") ∧
    Apt (u! "Devanagari") (u! "IAST") := by
  have key : ∀ (e : CoreEntry) (z : Nat) (s : PyStr), s.all (fun c => (Nat.ble z c && Nat.blt c (z + 10)) ||
      (natMem c numberSigns && !(natMem c e.notPlain)) || isNeutral c) = true → RomanNumbers e z s := by
    intro e z s h c hc
    have := List.all_eq_true.1 h c hc
    simp only [Bool.or_eq_true, Bool.and_eq_true, Bool.not_eq_true', natMem_iff] at this
    rcases this with (h | h) | h
    · exact .inl ⟨Nat.le_of_ble_eq_true h.1, Nat.le_of_ble_eq_true h.2⟩
    · exact .inr (.inl ⟨h.1, fun hm => by rw [natMem_iff.2 hm] at h; cases h.2⟩)
    · exact .inr (.inr h)
  exact ⟨key _ _ _ (by decide +kernel), key _ _ _ (by decide +kernel), isApt_sound (by decide +kernel)⟩

example : (u! "१५ / ८, २०२४").map (redigit 0x966 zeroASCII) = u! "15 / 8, 2024" := by decide

end Verif
