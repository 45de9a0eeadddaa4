import Verif.Lib.PreFirst
import Verif.Props.Plain

/-!
# C51, C52: spellings of the source text that do not matter
-/

namespace Verif

/-! ## C51: letters that Unicode encodes in two ways

The full claim: texts that differ only in the encoding of letters (canonically equivalent texts) are
converted alike.  It is false of the code, see `C51_violated`. -/

def readsBoth (S : PyStr) : Bool :=
  !(pyIn S GM.IndicScripts) || pyIn S GM.RomanDiacritic || (Spell.wf (spellingsOf S) && preReps.all fun T => (PreProcess.PreProcess S T [] []).prog.absorbs (spellingsOf S))

theorem readsBoth_all : sourceScripts.all readsBoth = true := by decide +kernel

/-- **C51 (partial).** Two texts that are equal once the letters of `twoSpellings` are spelt out are converted
alike, from every covered Indic script to every covered target.  (In Grantha, Tamil Grantha and Warang Citi some of the
letters, which do not belong to these scripts, are left out.)
Missing: the canonical decompositions that are not in `twoSpellings`, see `C51_violated`. -/
theorem C51_two_spellings_partial (E : Env) (hE : E.TextOps) (S T : PyStr) (hS : S ∈ sourceScripts) (hI : S ∈ GM.IndicScripts)
    (hR : S ∉ GM.RomanDiacritic)
    (hT : T ∈ targetScripts) (nativize : Bool) (hne : S ≠ T ∨ nativize = true) (text text' : PyStr)
    (h : spellOut (spellingsOf S) text = spellOut (spellingsOf S) text') :
    process E S T text nativize [] [] (u! "default") = process E S T text' nativize [] [] (u! "default") := by
  rw [process_plain hE hS hT, process_plain hE hS hT]
  obtain ⟨r, hr, q, e⟩ := convert_pre hS hT hne
  have hc := List.all_eq_true.1 readsBoth_all S hS
  simp only [readsBoth, Bool.or_eq_true, Bool.not_eq_true', Bool.and_eq_true, List.all_eq_true] at hc
  rcases hc with (hc | hc) | ⟨hw, hc⟩
  · rw [show pyIn S GM.IndicScripts = true from strMem_iff.2 hI] at hc
    cases hc
  · exact absurd (strMem_iff.1 hc) hR
  · have ha := absorbs_append (q := q) (hc r hr)
    rw [← e] at ha
    rw [← absorbs_sound hw ha text, h, absorbs_sound hw ha]

/-- The Hindi words सड़क, with the letter ड़ in both spellings. -/
example (T : PyStr) (hT : T ∈ targetScripts) (hne : (u! "Devanagari") ≠ T) :
    process sampleEnv (u! "Devanagari") T [0x938, 0x95C, 0x915] false [] [] (u! "default")
    = process sampleEnv (u! "Devanagari") T [0x938, 0x921, 0x93C, 0x915] false [] [] (u! "default") :=
  C51_two_spellings_partial _ sampleEnv_textOps _ _ (strMem_iff.1 (by decide +kernel)) (strMem_iff.1 (by decide +kernel))
    (strMem_false.1 (by decide +kernel)) hT _
    (.inl hne) _ _ (by decide)

/-- `t` in script `S` is converted to `r` in Devanagari. -/
abbrev toDevanagari (S t r : PyStr) : Prop := process sampleEnv S (u! "Devanagari") t false [] [] (u! "default") = .ok (some r)

/-- **C51 fails** for other canonically equivalent spellings: vowel signs of Kannada and Oriya that consist of two parts
(those of Telugu and Sinhala, au of Malayalam and Tamil, and the letters ऩ, ऱ, ऴ are similar), and a vowel sign of Bengali
after another vowel sign. -/
theorem C51_violated :
    (toDevanagari (u! "Kannada") [0xC95, 0xCCA] (u! "कॊ") ∧ toDevanagari (u! "Kannada") [0xC95, 0xCC6, 0xCC2] (u! "कॆू"))
    ∧ (toDevanagari (u! "Oriya") [0xB15, 0xB4B] (u! "को") ∧ toDevanagari (u! "Oriya") [0xB15, 0xB47, 0xB3E] (u! "केा"))
    ∧ (toDevanagari (u! "Bengali") [0x9BE, 0x9CC] (u! "ाौ") ∧ toDevanagari (u! "Bengali") [0x9BE, 0x9C7, 0x9D7] (u! "ोৗ")) := by
  decide +kernel

/-! ## C52: capitals in romanised text -/

def lowersAll (S : PyStr) : Bool :=
  !(pyIn S GM.RomanDiacritic) || preReps.all fun T => (PreProcess.PreProcess S T [] []).prog.lowersFirst

theorem lowersAll_all : sourceScripts.all lowersAll = true := by decide +kernel

/-- **C52.** From a romanisation with diacritics, a text and its lower-cased form are converted alike. -/
theorem C52_capitals_ignored (E : Env) (hE : E.TextOps) (S T : PyStr) (hS : S ∈ sourceScripts) (hR : S ∈ GM.RomanDiacritic)
    (hT : T ∈ targetScripts) (nativize : Bool) (hne : S ≠ T ∨ nativize = true) (text lowered : PyStr)
    (hlow : E.host .lower text = .ok lowered)
    -- lower-casing a second time changes nothing
    (hid : E.host .lower lowered = .ok lowered) :
    process E S T lowered nativize [] [] (u! "default") = process E S T text nativize [] [] (u! "default") := by
  rw [process_plain hE hS hT, process_plain hE hS hT]
  obtain ⟨r, hr, q, e⟩ := convert_pre hS hT hne
  have hc := List.all_eq_true.1 lowersAll_all S hS
  simp only [lowersAll, Bool.or_eq_true, Bool.not_eq_true', List.all_eq_true] at hc
  rcases hc with hc | hc
  · rw [show pyIn S GM.RomanDiacritic = true from strMem_iff.2 hR] at hc
    cases hc
  · rw [e, lowersFirst_sound (hc r hr) hlow hid]

/-- The sample environment with lower-casing of ASCII letters. -/
def caseEnv : Env := { sampleEnv with
  host := fun h s =>
    match h with
    | .lower => .ok (asciiLower s)
    | _ => .ok s }

theorem lowerC_cases (c : Nat) : asciiLowerC c = c ∨ (65 ≤ c ∧ c ≤ 90 ∧ asciiLowerC c = c + 32) := by
  unfold asciiLowerC
  split
  · rename_i h
    simp only [Bool.and_eq_true, Nat.ble_eq] at h
    exact .inr ⟨h.1, h.2, rfl⟩
  · exact .inl rfl

theorem lowerC_other {c : Nat} (h : isNeutral c = true ∨ isNeutral (asciiLowerC c) = true) : asciiLowerC c = c := by
  rcases lowerC_cases c with e | ⟨h1, h2, e⟩
  · exact e
  · rw [e] at h
    simp only [isNeutral, decide_eq_true_eq] at h
    omega

theorem caseEnv_textOps : caseEnv.TextOps where
  lower_ascii := fun _ _ => rfl
  total := by
    intro h _ s
    cases h <;> exact ⟨_, rfl⟩
  neutral := by
    intro h _ s s' hs hr
    cases h <;> cases hr <;> try exact ⟨rfl, hs⟩
    constructor
    · induction s with
      | nil => rfl
      | cons c s ih =>
        have ih := ih fun d hd => hs d (List.mem_cons_of_mem _ hd)
        show List.filter isNeutral (asciiLowerC c :: asciiLower s) = List.filter isNeutral (c :: s)
        by_cases h : isNeutral c = true ∨ isNeutral (asciiLowerC c) = true
        · rw [lowerC_other h, List.filter_cons, List.filter_cons]
          rw [show List.filter isNeutral (asciiLower s) = List.filter isNeutral s from ih]
        · simp only [not_or] at h
          rw [List.filter_cons_of_neg h.1, List.filter_cons_of_neg h.2]
          exact ih
    · intro c hc
      obtain ⟨d, hd, rfl⟩ := List.mem_map.1 hc
      rcases lowerC_cases d with e | ⟨h1, h2, e⟩
      · rw [e]; exact hs d hd
      · rw [e]
        simp only [isCompat, decide_eq_false_iff_not]
        omega
  fixes := by
    intro h _ s hs
    cases h <;> try rfl
    refine congrArg Except.ok ?_
    exact (List.map_congr_left fun c hc => lowerC_other (.inl (hs c hc))).trans (List.map_id'' (fun _ => rfl) s)
  marker := by
    intro h _ s s' hs hr
    cases h <;> cases hr <;> try exact hs
    intro hm
    obtain ⟨d, hd, e'⟩ := List.mem_map.1 hm
    rcases lowerC_cases d with e | ⟨h1, h2, e⟩
    · rw [e] at e'; subst e'; exact hs hd
    · rw [e] at e'
      simp only [inherentMarker] at e'
      omega
  marks := fun _ _ => rfl

/-- `RAMA` is read as `rama`; in Harvard-Kyoto, which is not among these romanisations, capitals are letters of their own. -/
example : process caseEnv (u! "IAST") (u! "Devanagari") (u! "rama") false [] [] (u! "default")
      = process caseEnv (u! "IAST") (u! "Devanagari") (u! "RAMA") false [] [] (u! "default")
    ∧ process caseEnv (u! "IAST") (u! "Devanagari") (u! "RAMA") false [] [] (u! "default") = .ok (some (u! "रम"))
    ∧ process caseEnv (u! "HK") (u! "Devanagari") (u! "rAma") false [] [] (u! "default") = .ok (some (u! "राम"))
    ∧ process caseEnv (u! "HK") (u! "Devanagari") (u! "rama") false [] [] (u! "default") = .ok (some (u! "रम")) := by
  refine ⟨C52_capitals_ignored _ caseEnv_textOps _ _ (strMem_iff.1 (by decide +kernel)) (strMem_iff.1 (by decide +kernel))
    (strMem_iff.1 (by decide +kernel)) _ (.inl (by decide)) _ _ rfl (by decide +kernel), by decide +kernel, by decide +kernel,
    by decide +kernel⟩

end Verif
