import Verif.Props.Detect
import Verif.Lib.Absent
import Verif.Spec.Variants

/-!
# C56: detection of variants of a script
-/

namespace Verif

/-- The first variant that is seen. -/
def pickVariant (text dflt : PyStr) : List Variant → PyStr
  | [] => dflt
  | v :: l =>
    match v.groups.all fun g => anyIn g text with
    | true => v.script
    | false => pickVariant text dflt l

theorem variant_seen {v : Variant} {text : PyStr} : (v.groups.all fun g => anyIn g text) = true ↔ v.seen text := by
  simp only [List.all_eq_true, anyIn, List.any_eq_true, Variant.seen]
  constructor
  · intro h g hg
    obtain ⟨m, hm, e⟩ := h g hg
    obtain ⟨a, b, e⟩ := isInfix_iff.1 e
    exact ⟨m, hm, a, b, e⟩
  · intro h g hg
    obtain ⟨m, hm, a, b, e⟩ := h g hg
    exact ⟨m, hm, isInfix_iff.2 ⟨a, b, e⟩⟩

theorem pickVariant_chosen (text dflt : PyStr) : ∀ l, Chosen l dflt text (pickVariant text dflt l)
  | [] => Or.inr ⟨rfl, by simp⟩
  | v :: l => by
    unfold pickVariant
    split
    · rename_i h
      exact Or.inl ⟨[], v, l, rfl, rfl, variant_seen.1 h, by simp⟩
    · rename_i h
      have hv : ¬ v.seen text := fun hs => by rw [variant_seen.2 hs] at h; cases h
      rcases pickVariant_chosen text dflt l with ⟨a, w, b, e, h1, h2, h3⟩ | ⟨e, h1⟩
      · exact Or.inl ⟨v :: a, w, b, by rw [e]; rfl, h1, h2, by
          intro x hx
          rcases List.mem_cons.1 hx with rfl | hx
          · exact hv
          · exact h3 x hx⟩
      · exact Or.inr ⟨e, by
          intro x hx
          rcases List.mem_cons.1 hx with rfl | hx
          · exact hv
          · exact h1 x hx⟩

theorem pickVariant_cons (text dflt : PyStr) (g : List PyStr) (s : PyStr) (l : List Variant) :
    pickVariant text dflt (⟨[g], s⟩ :: l) = match anyIn g text with
      | true => s
      | false => pickVariant text dflt l := by
  show (match (anyIn g text && true) with | true => s | false => _) = _
  rw [Bool.and_true]

theorem detectLatin_eq (text : PyStr) (g1 g2 g3 g4 g5 g6 : List PyStr) (s1 s2 s3 s4 s5 s6 dflt : PyStr) :
    pickVariant text dflt [⟨[g1], s1⟩, ⟨[g2], s2⟩, ⟨[g3], s3⟩, ⟨[g4, g5], s4⟩, ⟨[g4], s5⟩, ⟨[g6], s6⟩]
      = match anyIn g1 text with
        | true => s1
        | false =>
        match anyIn g2 text with
        | true => s2
        | false =>
        match anyIn g3 text with
        | true => s3
        | false =>
        match anyIn g4 text with
        | true =>
          match anyIn g5 text with
          | true => s4
          | false => s5
        | false =>
        match anyIn g6 text with
        | true => s6
        | false => dflt := by
  simp only [pickVariant, List.all_cons, List.all_nil, Bool.and_true]
  cases anyIn g1 text <;> cases anyIn g2 text <;> cases anyIn g3 text <;> cases anyIn g4 text <;> cases anyIn g5 text <;>
    cases anyIn g6 text <;> rfl

/-- **C56.** If most characters of the text are of a script with variants, `auto_detect` returns the variant whose
characteristic signs the text has (the first one in the order of `variantsOf`), for every text. -/
theorem C56_variant_by_signs (E : Env) (text w dflt : PyStr) (variants : List Variant) (hw : (w, variants, dflt) ∈ variantsOf)
    (h : ∀ v, v ≠ w → wordCount E v text < wordCount E w text) :
    ∃ S, autoDetect E text = .ok S ∧ Chosen variants dflt text S := by
  refine ⟨pickVariant text dflt variants, ?_, pickVariant_chosen text dflt variants⟩
  simp only [autoDetect, majority_unique E text w h]
  have hor : ∀ a b : PyStr, (isInfix a text || isInfix b text) = anyIn [a, b] text := by
    intro a b; simp [anyIn]
  have hor3 : ∀ a b c : PyStr, (isInfix a text || isInfix b text || isInfix c text) = anyIn [a, b, c] text := by
    intro a b c; simp [anyIn, Bool.or_assoc]
  have hone : ∀ a : PyStr, isInfix a text = anyIn [a] text := by
    intro a; simp [anyIn]
  simp only [variantsOf, List.mem_cons, Prod.mk.injEq, List.not_mem_nil, or_false] at hw
  rcases hw with ⟨rfl, rfl, rfl⟩ | ⟨rfl, rfl, rfl⟩ | ⟨rfl, rfl, rfl⟩ | ⟨rfl, rfl, rfl⟩ | ⟨rfl, rfl, rfl⟩
  · show refineScript E text (u! "Bengali") = _
    rw [pickVariant_cons, pickVariant]
    show Except.ok (match isInfix _ text || isInfix _ text with | true => _ | false => _) = _
    rw [hor]
  · show refineScript E text (u! "Lao") = _
    rw [pickVariant_cons, pickVariant]
    rfl
  · show Except.ok (detectSyriac text) = _
    rw [pickVariant_cons, pickVariant_cons, pickVariant]
    unfold detectSyriac
    congr 1
    split <;> simp_all
  · show Except.ok (detectArabic text) = _
    rw [pickVariant_cons, pickVariant_cons, pickVariant_cons, pickVariant]
    unfold detectArabic
    congr 1
    split <;> simp_all
  · show Except.ok (detectLatin text) = _
    rw [detectLatin_eq]
    unfold detectLatin
    rw [hor3, hone]
    rfl

/-- Characters of the sample environment: Syriac and Latin letters, Myanmar letters with one for Shan. -/
def variantName (c : Nat) : Option PyStr :=
  if 0x700 ≤ c ∧ c ≤ 0x74F then some (u! "SYRIAC LETTER")
  else if c = 0x1075 then some (u! "MYANMAR LETTER SHAN KA")
  else if 0x1000 ≤ c ∧ c ≤ 0x109F then some (u! "MYANMAR LETTER")
  else none

def variantEnv : Env := { sampleEnv with charName := variantName }

theorem word_majority {E : Env} {text w : PyStr} (h1 : ∀ c ∈ text, charScriptWord E c = none ∨ charScriptWord E c = some w)
    (h2 : 0 < wordCount E w text) : ∀ v, v ≠ w → wordCount E v text < wordCount E w text := by
  intro v hv
  have h3 : wordCount E v text = 0 := by
    rw [wordCount, List.countP_eq_zero]
    intro c hc
    rcases h1 c hc with h | h <;> rw [h]
    · simp
    · simpa using fun e : w = v => hv e.symm
  omega

/-- A Syriac text with an eastern vowel sign meets the hypotheses; it is found to be in the eastern script. -/
example : (∀ v, v ≠ u! "syriac" → wordCount variantEnv v [0x712, 0x732, 0x72C] < wordCount variantEnv (u! "syriac") [0x712, 0x732, 0x72C])
    ∧ autoDetect variantEnv [0x712, 0x732, 0x72C] = .ok (u! "Syrn") :=
  ⟨word_majority (by decide +kernel) (by decide +kernel), by decide +kernel⟩

theorem pyReplace_drop (m : Nat) (s : PyStr) : pyReplace s [m] [] = s.filter fun c => c != m := by
  rw [pyReplace_single]
  induction s with
  | nil => rfl
  | cons c s ih =>
    rw [List.flatMap_cons, ih, List.filter_cons]
    cases h : Nat.beq c m
    · have : c ≠ m := fun e => by subst e; rw [Nat.beq_refl] at h; cases h
      simp [this]
    · have := Nat.eq_of_beq_eq_true h
      subst this
      simp

theorem myanmarCount_named (E : Env) (text : PyStr) : (∀ c ∈ text, (E.charName c).isSome) → ∀ (last : Option PyStr) (a b c : Nat),
    myanmarCount E last (a, b, c) text
      = .ok (a + text.countP (nameHas E (u! "shan")),
        b + text.countP (fun c => nameHas E (u! "tai laing") c && !nameHas E (u! "shan") c),
        c + text.countP (fun c => nameHas E (u! "khamti") c && !nameHas E (u! "tai laing") c && !nameHas E (u! "shan") c)) := by
  induction text with
  | nil => intros; rfl
  | cons u text ih =>
    intro h last a b c
    obtain ⟨n, hn⟩ := Option.isSome_iff_exists.1 (h u (by simp))
    have ih := ih fun c hc => h c (by simp [hc])
    have hl : asciiLower n = n.map lowerLetter := congrArg (List.map · n) (funext asciiLowerC_eq)
    have e : ∀ w, nameHas E w u = isInfix w (asciiLower n) := by intro w; simp only [nameHas, hn, hl]
    simp only [myanmarCount, hn, List.countP_cons, e]
    generalize isInfix (u! "shan") (asciiLower n) = x, isInfix (u! "tai laing") (asciiLower n) = y,
      isInfix (u! "khamti") (asciiLower n) = z
    cases x <;> cases y <;> cases z <;> simp [ih] <;> omega

/-- **C56**, Myanmar script: the language with most letters of its own among Shan, Tai Laing and Khamti Shan (Khamti Shan,
then Tai Laing, if there are as many); without such letters Mon if the text has a sign of Mon, and Burmese otherwise. -/
theorem C56_myanmar (E : Env) (text : PyStr) (hn : ∀ c ∈ text, (E.charName c).isSome)
    (h : ∀ v, v ≠ u! "myanmar" → wordCount E v text < wordCount E (u! "myanmar") text) :
    ∃ S, autoDetect E text = .ok S ∧
      ((S = u! "Burmese" ∧ shanLetters E text = 0 ∧ taiLaingLetters E text = 0 ∧ khamtiLetters E text = 0
          ∧ ∀ m ∈ monSigns, ¬ m <:+: text)
      ∨ (S = u! "Mon" ∧ shanLetters E text = 0 ∧ taiLaingLetters E text = 0 ∧ khamtiLetters E text = 0
          ∧ ∃ m ∈ monSigns, m <:+: text)
      ∨ (S = u! "Shan" ∧ taiLaingLetters E text < shanLetters E text ∧ khamtiLetters E text < shanLetters E text)
      ∨ (S = u! "TaiLaing" ∧ 0 < taiLaingLetters E text ∧ shanLetters E text ≤ taiLaingLetters E text
          ∧ khamtiLetters E text < taiLaingLetters E text)
      ∨ (S = u! "KhamtiShan" ∧ 0 < khamtiLetters E text ∧ shanLetters E text ≤ khamtiLetters E text
          ∧ taiLaingLetters E text ≤ khamtiLetters E text)) := by
  have hc : ∀ p : Nat → Bool, (text.filter fun c => c != 0x1083).countP p = text.countP fun c => c != 0x1083 && p c := by
    intro p
    rw [List.countP_filter]
    congr 1
    funext c
    exact Bool.and_comm _ _
  have hm : myanmarCount E none (0, 0, 0) (pyReplace text (u! "ႃ") []) = .ok (shanLetters E text, taiLaingLetters E text, khamtiLetters E text) := by
    rw [pyReplace_drop, myanmarCount_named E _ (fun c hc => hn c (List.mem_filter.1 hc).1), hc, hc, hc]
    simp only [Nat.zero_add]
    rfl
  simp only [autoDetect, majority_unique E text _ h]
  have hmon : anyIn monSigns text = true ↔ ∃ m ∈ monSigns, m <:+: text := by
    simp only [anyIn, List.any_eq_true]
    constructor
    · rintro ⟨m, hm, e⟩
      obtain ⟨a, b, e⟩ := isInfix_iff.1 e
      exact ⟨m, hm, a, b, e⟩
    · rintro ⟨m, hm, a, b, e⟩
      exact ⟨m, hm, isInfix_iff.2 ⟨a, b, e⟩⟩
  refine ⟨myanmarPick (match anyIn monSigns text with | true => u! "Mon" | false => u! "Burmese")
    (shanLetters E text, taiLaingLetters E text, khamtiLetters E text), ?_, ?_⟩
  · show detectMyanmar E text = _
    unfold detectMyanmar
    rw [hm]
    rfl
  · generalize shanLetters E text = a, taiLaingLetters E text = b, khamtiLetters E text = c
    generalize hd : (match anyIn monSigns text with | true => u! "Mon" | false => u! "Burmese") = d
    simp only [myanmarPick]
    have hb : ∀ m n : Nat, Nat.ble m n = true ↔ m ≤ n := fun m n => by rw [Nat.ble_eq]
    have hbf : ∀ m n : Nat, Nat.ble m n = false ↔ n < m := fun m n => by
      rw [← Bool.not_eq_true, hb]; omega
    have hz : ∀ m : Nat, Nat.beq m 0 = true ↔ m = 0 := fun m => ⟨Nat.eq_of_beq_eq_true, fun e => by subst e; rfl⟩
    split
    · rename_i e
      simp only [Bool.and_eq_true, hz] at e
      obtain ⟨⟨ha, hb⟩, hc⟩ := e
      subst hd
      cases hs : anyIn monSigns text
      · refine Or.inl ⟨rfl, ha, hb, hc, ?_⟩
        intro m hm hx
        rw [hmon.2 ⟨m, hm, hx⟩] at hs; cases hs
      · exact Or.inr (Or.inl ⟨rfl, ha, hb, hc, hmon.1 hs⟩)
    · rename_i e
      have hpos : 0 < a ∨ 0 < b ∨ 0 < c := by
        rw [← Bool.not_eq_true, Bool.and_eq_true, Bool.and_eq_true, hz, hz, hz] at e
        omega
      split
      · rename_i e1
        simp only [Bool.and_eq_true, hb] at e1
        exact Or.inr (Or.inr (Or.inr (Or.inr ⟨rfl, by omega, e1.1, e1.2⟩)))
      · rename_i e1 e2
        simp only [Bool.and_eq_false_iff, hbf, hb] at e1 e2
        exact Or.inr (Or.inr (Or.inr (Or.inl ⟨rfl, by omega, e2, by omega⟩)))
      · rename_i e1 e2
        simp only [Bool.and_eq_false_iff, hbf] at e1 e2
        exact Or.inr (Or.inr (Or.inl ⟨rfl, by omega, by omega⟩))

/-- A text with a letter for Shan meets the hypotheses. -/
example : (∀ c ∈ [0x1075, 0x102D, 0x1083], (variantEnv.charName c).isSome)
    ∧ (∀ v, v ≠ u! "myanmar" → wordCount variantEnv v [0x1075, 0x102D, 0x1083] < wordCount variantEnv (u! "myanmar") [0x1075, 0x102D, 0x1083])
    ∧ autoDetect variantEnv [0x1075, 0x102D, 0x1083] = .ok (u! "Shan") :=
  ⟨by decide +kernel, word_majority (by decide +kernel) (by decide +kernel), by decide +kernel⟩

end Verif
