import Verif.Lib.Detect
import Verif.Lib.SampleEnv

/-!
# Automatic detection of the script (C20–C23)
-/

namespace Verif

/-! ## C20: the majority decides -/

/-- Every pair of the table of `Spec/Detect.lean` agrees with the code. -/
def refines (p : PyStr × PyStr) : Bool :=
  match p.1 with
  | [] => false
  | c :: s =>
    let script := asciiUpperC c :: s
    match strEq script (u! "Bengali") || strEq script (u! "Lao") || strEq script (u! "Myanmar") with
    | true => false
    | false =>
      match dictGet? renamedScripts script with
      | some r => strEq r p.2
      | none =>
        match strEq script (u! "Syriac") || strEq script (u! "Arabic") || strEq script (u! "Latin") with
        | true => false
        | false =>
          (pyIn script GM.IndicScripts || pyIn script GM.LatinScripts || pyIn script us!["Hiragana", "Katakana"])
          && strEq script p.2

theorem refines_sound {p : PyStr × PyStr} (h : refines p = true) (E : Env) (text : PyStr) :
    ∃ s, capitalizeFirst p.1 = .ok s ∧ refineScript E text s = .ok p.2 := by
  obtain ⟨w, S⟩ := p
  cases w with
  | nil => cases h
  | cons c s =>
    refine ⟨_, rfl, ?_⟩
    simp only [refines] at h
    simp only [refineScript]
    generalize asciiUpperC c :: s = script at *
    cases h1 : strEq script (u! "Bengali") <;> simp only [h1, Bool.true_or, Bool.false_or] at h ⊢
    · cases h2 : strEq script (u! "Lao") <;> simp only [h2, Bool.true_or, Bool.false_or] at h ⊢
      · cases h3 : strEq script (u! "Myanmar") <;> simp only [h3] at h ⊢
        · cases h4 : dictGet? renamedScripts script with
          | some r => simp only [h4] at h; rw [strEq_iff.1 h]
          | none =>
            simp only [h4] at h ⊢
            cases h5 : strEq script (u! "Syriac") <;> simp only [h5, Bool.true_or, Bool.false_or] at h ⊢
            · cases h6 : strEq script (u! "Arabic") <;> simp only [h6, Bool.true_or, Bool.false_or] at h ⊢
              · cases h7 : strEq script (u! "Latin") <;> simp only [h7] at h ⊢
                · rw [Bool.and_eq_true] at h
                  rw [h.1, strEq_iff.1 h.2]
                · cases h
              · cases h
            · cases h
        · cases h
      · cases h
    · cases h

theorem wordScripts_ok : wordScripts.all refines = true := by decide +kernel

/-- The strict majority word is the one the code picks. -/
theorem majority_unique (E : Env) (text w : PyStr)
    (h : ∀ v, v ≠ w → wordCount E v text < wordCount E w text) :
    majorityWord false (scriptWords E text) = .ok w := by
  have hpos : w ∈ scriptWords E text := by
    have h0 := h (0 :: w) (fun e => by simpa using congrArg List.length e)
    have : 0 < countStr w (scriptWords E text) := by rw [wordCount_eq]; omega
    rw [countStr_eq] at this
    exact List.count_pos_iff.1 this
  rcases sortedCounts_top (scriptWords E text) with ⟨h1, _⟩ | ⟨v, rest, h1, h2, h3, _⟩
  · rw [h1] at hpos; cases hpos
  · have : v = w := by
      apply Classical.byContradiction
      intro hv
      have h4 := h3 w hpos
      rw [rankLe_iff] at h4
      have h5 := h v hv
      simp only [wordCount_eq] at h4
      omega
    simp only [majorityWord, h1, this, Bool.false_and]

/-- **C20.** If more characters of the text belong to the script word `w` than to any other, and
`w` is the word of a script the library knows (see `wordScripts`), `auto_detect` returns that
script, for every text. -/
theorem C20_majority_decides (E : Env) (text w S : PyStr) (hw : (w, S) ∈ wordScripts)
    (h : ∀ v, v ≠ w → wordCount E v text < wordCount E w text) : autoDetect E text = .ok S := by
  have h1 := List.all_eq_true.1 wordScripts_ok _ hw
  obtain ⟨s, h2, h3⟩ := refines_sound h1 E text
  simp only at h2 h3
  simp only [autoDetect, majority_unique E text w h, h2, h3]

/-- **C20**, consequence for `process`: automatic detection of such a text gives the result of
naming the script (with the pre-options detected for it), for every target and options. -/
theorem C20_autodetect_as_named (E : Env) (text w S tgt : PyStr) (hw : (w, S) ∈ wordScripts)
    (h : ∀ v, v ≠ w → wordCount E v text < wordCount E w text)
    (hinj : ∀ a ∈ GM.IndicScripts ++ GM.LatinScripts, E.lower a = E.lower S → a = S)
    (nativize : Bool) (post pre : List PyStr) :
    process E (u! "autodetect") tgt text nativize post pre
      = process E S tgt text nativize post (detectPreoptions text S) := by
  have hS : S ≠ u! "autodetect" := by
    have : (wordScripts.all fun p => !(strEq p.2 (u! "autodetect"))) = true := by decide +kernel
    have := List.all_eq_true.1 this _ hw
    intro e
    subst e
    simp at this
  have h1 := C20_majority_decides E text w S hw h
  show (processDefault E _ tgt text nativize post pre).map some
    = (processDefault E S tgt text nativize post _).map some
  have hr : resolveName E S = S := by
    unfold resolveName
    cases hf : (GM.IndicScripts ++ GM.LatinScripts).find? fun s => strEq (E.lower S) (E.lower s) with
    | none => rfl
    | some s => exact hinj s (List.mem_of_find?_eq_some hf) (by have := List.find?_some hf; exact (strEq_iff.1 this).symm)
  simp only [processDefault, strEq_refl, h1, strEq_false.2 hS, hr]

/-- In "रामः and" (Devanagari letters are named in the sample environment) Devanagari has the
majority. -/
example : (u! "devanagari", u! "Devanagari") ∈ wordScripts
    ∧ autoDetect sampleEnv (u! "रामः and") = .ok (u! "Devanagari") := by
  refine ⟨by decide +kernel, C20_majority_decides _ _ (u! "devanagari") _ (by decide +kernel) ?_⟩
  intro v hv
  have h1 : wordCount sampleEnv (u! "devanagari") (u! "रामः and") = 4 := by decide +kernel
  have h2 : ∀ c ∈ (u! "रामः and"), charScriptWord sampleEnv c = none ∨ charScriptWord sampleEnv c = some (u! "devanagari") := by
    decide +kernel
  have h3 : wordCount sampleEnv v (u! "रामः and") = 0 := by
    rw [wordCount, List.countP_eq_zero]
    intro c hc
    rcases h2 c hc with h | h <;> rw [h]
    · simp
    · simpa using fun e : (u! "devanagari") = v => hv e.symm
  omega

/-! Scripts where the text refines the word. -/

/-- **C20**, Bengali: Assamese if and only if the text has one of the two Assamese letters. -/
theorem C20_bengali_assamese (E : Env) (text : PyStr)
    (h : ∀ v, v ≠ u! "bengali" → wordCount E v text < wordCount E (u! "bengali") text) :
    autoDetect E text = .ok (if 0x09F0 ∈ text ∨ 0x09F1 ∈ text then u! "Assamese" else u! "Bengali") := by
  simp only [autoDetect, majority_unique E text _ h]
  show refineScript E text (u! "Bengali") = _
  have key : ∀ c : Nat, isInfix [c] text = true ↔ c ∈ text := by
    intro c; rw [isInfix_iff]
    constructor
    · rintro ⟨a, b, rfl⟩; simp
    · intro hc
      obtain ⟨a, b, rfl⟩ := List.append_of_mem hc
      exact ⟨a, b, by simp⟩
  simp only [refineScript, strEq_refl]
  congr 1
  have e1 := key 0x09F0
  have e2 := key 0x09F1
  cases h1 : isInfix (u! "ৰ") text <;> cases h2 : isInfix (u! "ৱ") text <;> simp_all

/-- **C20**, Latin letters: a romanisation or, if the text has the marks of one, a Semitic
transcription; never an Indic script. -/
theorem C20_latin (E : Env) (text : PyStr)
    (h : ∀ v, v ≠ u! "latin" → wordCount E v text < wordCount E (u! "latin") text) :
    ∃ R ∈ us!["Titus", "Latn", "BurmeseRomanLoC", "ISO", "IAST", "Itrans", "HK"], autoDetect E text = .ok R := by
  simp only [autoDetect, majority_unique E text _ h]
  refine ⟨detectLatin text, ?_, rfl⟩
  unfold detectLatin
  repeat' split
  all_goals simp

/-! ## C21: the order of the characters does not matter -/

/-- **C21.** The majority word is the same for every permutation of the text. -/
theorem C21_order_irrelevant (E : Env) (plugin : Bool) (text text' : PyStr) (h : text.Perm text') :
    majorityWord plugin (scriptWords E text) = majorityWord plugin (scriptWords E text') := by
  have := sortedCounts_perm (h.filterMap (scriptWord E))
  unfold majorityWord scriptWords
  rw [this]

/-- **C21**, for the final answer: for majorities of a word of `wordScripts`, permuting the text
does not change the detected script. -/
theorem C21_detected_script_order_irrelevant (E : Env) (text text' w S : PyStr) (hperm : text.Perm text')
    (hw : (w, S) ∈ wordScripts) (h : ∀ v, v ≠ w → wordCount E v text < wordCount E w text) :
    autoDetect E text' = autoDetect E text := by
  rw [C20_majority_decides E text w S hw h, C20_majority_decides E text' w S hw]
  intro v hv
  have := h v hv
  unfold wordCount at *
  rwa [hperm.countP_eq, hperm.countP_eq] at this

/-- **C21**, ties: the picked word has the greatest number of characters and, among the words with
that number, it is the greatest in the order of strings. -/
theorem C21_ties_to_greatest (E : Env) (text w : PyStr)
    (h : majorityWord false (scriptWords E text) = .ok w) (hne : ∃ c ∈ text, (charScriptWord E c).isSome) :
    0 < wordCount E w text
    ∧ ∀ v, wordCount E v text < wordCount E w text
      ∨ wordCount E v text = wordCount E w text ∧ strLe v w = true := by
  rcases sortedCounts_top (scriptWords E text) with ⟨h1, _⟩ | ⟨u, rest, h1, h2, h3, _⟩
  · obtain ⟨c, hc, hs⟩ := hne
    obtain ⟨x, hx⟩ := Option.isSome_iff_exists.1 hs
    have : x ∈ scriptWords E text := List.mem_filterMap.2 ⟨c, hc, by rw [scriptWord_eq, hx]⟩
    rw [h1] at this; cases this
  · simp only [majorityWord, h1, Bool.false_and] at h
    injection h with h
    subst h
    have hpos : 0 < wordCount E u text := by
      rw [← wordCount_eq, countStr_eq]; exact List.count_pos_iff.2 h2
    refine ⟨hpos, fun v => ?_⟩
    by_cases hv : v ∈ scriptWords E text
    · have := h3 v hv
      rw [rankLe_iff] at this
      simpa only [wordCount_eq] using this
    · left
      have : wordCount E v text = 0 := by
        rw [← wordCount_eq, countStr_eq]; exact List.count_eq_zero.2 hv
      omega

/-- A tie: one Devanagari and one Thai letter; `thai` is the greater word. -/
example : majorityWord false (scriptWords sampleEnv (u! "कก")) = .ok (u! "thai")
    ∧ ∃ c ∈ (u! "कก"), (charScriptWord sampleEnv c).isSome := by decide +kernel

/-! ## C22: texts without an answer -/

/-- **C22 is violated**: `auto_detect` raises `IndexError` on every text without a named
character, in particular on the empty text. -/
theorem C22_violated (E : Env) (text : PyStr) (plugin : Bool) (h : ∀ c ∈ text, E.charName c = none) :
    autoDetect E text plugin = .error .indexError := by
  have : scriptWords E text = [] := by
    rw [scriptWords, List.filterMap_eq_nil_iff]
    intro c hc
    simp only [scriptWord, h c hc]
  rw [autoDetect, this]
  rfl

/-- The two kinds of text of `C22_violated`: the empty one and unnamed characters; and a text with
a Myanmar majority that starts with an unnamed character raises `NameError`. -/
example : (∀ c ∈ ([] : PyStr), sampleEnv.charName c = none)
    ∧ (∀ c ∈ [0xE000, 0xE001], sampleEnv.charName c = none)
    ∧ autoDetect sampleEnv (0xE000 :: u! "မြန်") = .error .nameError := by decide +kernel

/-- With `plugin`, a text that has only Latin letters raises `IndexError`. -/
theorem C22_plugin_latin_violated (E : Env) (text : PyStr)
    (hne : ∃ c ∈ text, charScriptWord E c = some (u! "latin"))
    (h : ∀ c ∈ text, charScriptWord E c = none ∨ charScriptWord E c = some (u! "latin")) :
    autoDetect E text true = .error .indexError := by
  have hall : ∀ v ∈ scriptWords E text, v = u! "latin" := by
    intro v hv
    obtain ⟨c, hc, hcv⟩ := List.mem_filterMap.1 hv
    rw [scriptWord_eq] at hcv
    rcases h c hc with h | h <;> rw [h] at hcv
    · cases hcv
    · injection hcv with e; exact e.symm
  rcases sortedCounts_top (scriptWords E text) with ⟨h1, _⟩ | ⟨u, rest, h1, h2, _, h4⟩
  · obtain ⟨c, hc, hs⟩ := hne
    have : (u! "latin") ∈ scriptWords E text := List.mem_filterMap.2 ⟨c, hc, by rw [scriptWord_eq, hs]⟩
    rw [h1] at this; cases this
  · have hu := hall u h2
    subst hu
    have hrest : rest = [] := by
      cases rest with
      | nil => rfl
      | cons q r =>
        obtain ⟨v, hv, hne, _⟩ := h4 q (by simp)
        exact absurd (hall v hv) hne
    simp only [autoDetect, majorityWord, h1, hrest, strEq_refl, Bool.and_self]

theorem myanmarCount_ok (E : Env) (text : PyStr) : ∀ (last : Option PyStr) (n : Nat × Nat × Nat),
    (last.isSome ∨ ∀ c r, text = c :: r → (E.charName c).isSome) →
    ∃ m, myanmarCount E last n text = .ok m := by
  induction text with
  | nil => intro last n _; exact ⟨n, by cases last <;> rfl⟩
  | cons c text ih =>
    intro last n h
    obtain ⟨a, b, d⟩ := n
    have key : ∀ ch n, ∃ m, myanmarCount E (some ch) n text = .ok m := fun ch n => ih _ _ (.inl rfl)
    cases hc : E.charName c with
    | some nm =>
      simp only [myanmarCount, hc]
      split <;> exact key _ _
    | none =>
      cases last with
      | some l =>
        simp only [myanmarCount, hc]
        split <;> exact key _ _
      | none =>
        rcases h with h | h
        · cases h
        · have := h c text rfl
          rw [hc] at this; cases this

theorem foldl_isSome {f : Option PyStr → PyStr → Option PyStr} (hf : ∀ b w, (f b w).isSome = true) :
    ∀ (l : List PyStr) (b : Option PyStr), l ≠ [] ∨ b.isSome = true → (l.foldl f b).isSome = true := by
  intro l
  induction l with
  | nil => intro b h; simpa using h
  | cons w l ih => intro b _; exact ih _ (.inr (hf _ _))

theorem nameScript_lower {n w : PyStr} (h : nameScript n = some w) : ∀ c ∈ w, c < 65 ∨ 90 < c := by
  have key : ∀ s : PyStr, ∀ c ∈ s.map lowerLetter, c < 65 ∨ 90 < c := by
    intro s c hc
    obtain ⟨d, _, rfl⟩ := List.mem_map.1 hc
    unfold lowerLetter
    split <;> omega
  simp only [nameScript] at h
  split at h
  · split at h
    · cases h
    · injection h with h; subst h; exact key _
  · injection h with h; subst h; exact key _

/-- **C22**, what holds: for every text with a named character whose first character is named
(and is not the Myanmar letter "ႃ", which is dropped first), or whose majority word is not
`myanmar`, `auto_detect` returns a script. -/
theorem C22_detects_partial (E : Env) (hE : E.GoodNames) (text : PyStr)
    (hne : ∃ c ∈ text, (E.charName c).isSome)
    (hm : majorityWord false (scriptWords E text) ≠ .ok (u! "myanmar")
      ∨ ∀ c r, pyReplace text (u! "ႃ") [] = c :: r → (E.charName c).isSome) :
    ∃ S, autoDetect E text = .ok S := by
  obtain ⟨c, hc, hs⟩ := hne
  obtain ⟨n, hn⟩ := Option.isSome_iff_exists.1 hs
  obtain ⟨x, hx, _⟩ := hE c n hn
  have hxm : x ∈ scriptWords E text :=
    List.mem_filterMap.2 ⟨c, hc, by rw [scriptWord_eq, charScriptWord, hn]; exact hx⟩
  rcases sortedCounts_top (scriptWords E text) with ⟨h1, _⟩ | ⟨u, rest, h1, h2, _, _⟩
  · rw [h1] at hxm; cases hxm
  have hmaj : majorityWord false (scriptWords E text) = .ok u := by
    simp only [majorityWord, h1, Bool.false_and]
  have hu : u ≠ [] ∧ ∀ c ∈ u, c < 65 ∨ 90 < c := by
    obtain ⟨d, _, hd⟩ := List.mem_filterMap.1 h2
    rw [scriptWord_eq, charScriptWord] at hd
    cases hdn : E.charName d with
    | none => rw [hdn] at hd; cases hd
    | some m =>
      rw [hdn] at hd
      obtain ⟨y, hy, hy'⟩ := hE d m hdn
      simp only [Option.bind_some, hy] at hd
      injection hd with e
      rw [← e]; exact ⟨hy', nameScript_lower hy⟩
  rw [hmaj] at hm
  cases u with
  | nil => exact absurd rfl hu.1
  | cons a w =>
    simp only [autoDetect, hmaj, capitalizeFirst]
    have hauto : ∃ S, autoScript E text = .ok S := by
      unfold autoScript
      cases text with
      | nil => cases hc
      | cons b t =>
        have hd : distinct (List.map E.charScript (b :: t)) ≠ [] := by
          intro e
          have : E.charScript b ∈ distinct (List.map E.charScript (b :: t)) := mem_distinct.2 (by simp)
          rw [e] at this; cases this
        simp only
        split
        · rename_i heq
          have h0 := congrArg Option.isSome heq
          rw [foldl_isSome _ _ none (.inl hd)] at h0
          · cases h0
          · intro b w
            cases b with
            | none => rfl
            | some x => simp only; split <;> rfl
        · exact ⟨_, rfl⟩
        · exact ⟨_, rfl⟩
    unfold refineScript
    generalize hscript : asciiUpperC a :: w = script
    split
    · exact ⟨_, rfl⟩
    split
    · exact ⟨_, rfl⟩
    split
    · rename_i hmy
      have hmy := strEq_iff.1 hmy
      unfold detectMyanmar
      by_cases hfirst : ∀ c r, pyReplace text (u! "ႃ") [] = c :: r → (E.charName c).isSome
      · obtain ⟨m, hmc⟩ := myanmarCount_ok E (pyReplace text (u! "ႃ") []) none (0, 0, 0) (.inr hfirst)
        simp only [hmc]
        exact ⟨_, rfl⟩
      · rcases hm with hm | hm
        · exfalso
          rw [hmy] at hscript
          have h1 : w = (u! "Myanmar").tail := by rw [← hscript]; rfl
          have h2 : asciiUpperC a = 77 := by
            have := congrArg List.head? hscript
            simpa using this
          have h3 : a = 77 ∨ a = 109 := by
            unfold asciiUpperC at h2
            split at h2
            · rename_i hh
              rw [Bool.and_eq_true] at hh
              have := Nat.le_of_ble_eq_true hh.1
              omega
            · exact .inl h2
          rcases h3 with h3 | h3
          · have := hu.2 a (by simp)
            omega
          · apply hm
            rw [h1, h3]
            rfl
        · exact absurd hm hfirst
    split
    · exact ⟨_, rfl⟩
    split
    · exact ⟨_, rfl⟩
    split
    · exact ⟨_, rfl⟩
    split
    · exact ⟨_, rfl⟩
    split
    · exact ⟨_, rfl⟩
    · exact hauto

/-- The sample environment has good names, and a Myanmar text meets the hypotheses. -/
example : sampleEnv.GoodNames ∧ (∃ c ∈ (u! "မြန်"), (sampleEnv.charName c).isSome)
    ∧ (∀ c r, pyReplace (u! "မြန်") (u! "ႃ") [] = c :: r → (sampleEnv.charName c).isSome) := by
  refine ⟨?_, by decide +kernel, ?_⟩
  · intro c n h
    have h' : n = (u! "DEVANAGARI LETTER") ∨ n = (u! "MYANMAR LETTER") ∨ n = (u! "THAI CHARACTER") := by
      simp only [sampleEnv, sampleName] at h
      split at h
      · injection h with h; exact .inl h.symm
      · injection h with h; exact .inr (.inl h.symm)
      · injection h with h; exact .inr (.inr h.symm)
      · cases h
    rcases h' with rfl | rfl | rfl
    · exact ⟨u! "devanagari", by decide +kernel, by decide⟩
    · exact ⟨u! "myanmar", by decide +kernel, by decide⟩
    · exact ⟨u! "thai", by decide +kernel, by decide⟩
  · intro c r h
    have e : pyReplace (u! "မြန်") (u! "ႃ") [] = u! "မြန်" := by decide +kernel
    rw [e] at h
    injection h with h _
    subst h
    decide +kernel

/-! ## C23: detected pre-options -/

/-- **C23.** At most one pre-option is detected, it is the name of an existing pre-processing
option, and none is detected for sources other than Thai, Lao, LaoPali and Urdu: every text, every
script name. -/
theorem C23_detected_preoptions (text S : PyStr) :
    (detectPreoptions text S).length ≤ 1
    ∧ (∀ o ∈ detectPreoptions text S, o ∈ names preFns)
    ∧ (S ∉ us!["Thai", "Lao", "LaoPali", "Urdu"] → detectPreoptions text S = []) := by
  have hnames : ∀ o ∈ us!["ThaiPhonetic", "ThaiSajjhayawithA", "ThaiSajjhayaOrthography", "ThaiOrthography",
      "LaoSajhayaOrthographywithA", "LaoSajhayaOrthography", "LaoTranscription", "UrduShortNotShown"],
      strMem o (names preFns) = true := by decide +kernel
  have hn : ∀ o ∈ us!["ThaiPhonetic", "ThaiSajjhayawithA", "ThaiSajjhayaOrthography", "ThaiOrthography",
      "LaoSajhayaOrthographywithA", "LaoSajhayaOrthography", "LaoTranscription", "UrduShortNotShown"],
      o ∈ names preFns := fun o h => strMem_iff.1 (hnames o h)
  refine ⟨?_, ?_, ?_⟩
  · unfold detectPreoptions
    simp only
    repeat' split
    all_goals simp
  · intro o ho
    apply hn
    revert ho
    unfold detectPreoptions
    simp only
    repeat' split
    all_goals simp +contextual
  · intro h
    simp only [List.mem_cons, List.not_mem_nil, or_false, not_or] at h
    simp only [detectPreoptions, strEq_false.2 h.1, strEq_false.2 h.2.1, strEq_false.2 h.2.2.1,
      strEq_false.2 h.2.2.2, Bool.or_self]

/-- A Thai text with the vowel sign "ะ" gets the option for Thai orthography. -/
example : detectPreoptions (u! "กะ") (u! "Thai") = us!["ThaiOrthography"]
    ∧ (u! "Tamil") ∉ us!["Thai", "Lao", "LaoPali", "Urdu"] := by decide +kernel

/-- **C23**, when an option is detected: always for Urdu; for Lao and LaoPali exactly if the text has a
vowel sign `ະ` or `ັ`, or a cancellation mark `໌` other than after `ຫ`; for Thai likewise, or with one of
the signs of the phonetic orthography. -/
theorem C23_when_detected (text : PyStr) :
    detectPreoptions text (u! "Urdu") = us!["UrduShortNotShown"]
    ∧ (∀ S ∈ us!["Lao", "LaoPali"], (detectPreoptions text S ≠ [] ↔
        u! "ະ" <:+: text ∨ u! "ັ" <:+: text ∨ u! "໌" <:+: pyReplace text (u! "ຫ໌") []))
    ∧ (detectPreoptions text (u! "Thai") ≠ [] ↔
        u! "ะ" <:+: text ∨ u! "ั" <:+: text ∨ u! "์" <:+: pyReplace text (u! "ห์") []
        ∨ [0x035C] <:+: text ∨ [0x0325] <:+: text ∨ u! "งํ" <:+: text ∨ [0x0E47] <:+: text) := by
  refine ⟨rfl, ?_, ?_⟩
  · intro S hS
    have h1 : strEq S (u! "Thai") = false := by revert S; decide
    have h2 : (strEq S (u! "Lao") || strEq S (u! "LaoPali")) = true := by revert S; decide
    simp only [detectPreoptions, h1, h2, ← isInfix_iff]
    cases isInfix (u! "ະ") text <;> cases isInfix (u! "ັ") text
      <;> cases isInfix (u! "໌") (pyReplace text (u! "ຫ໌") []) <;> simp
  · simp only [detectPreoptions, strEq_iff.2 rfl, ← isInfix_iff]
    cases isInfix (u! "ะ") text <;> cases isInfix (u! "ั") text <;> cases isInfix (u! "์") (pyReplace text (u! "ห์") [])
      <;> cases isInfix [0x035C] text <;> cases isInfix [0x0325] text <;> cases isInfix (u! "งํ") text
      <;> cases isInfix [0x0E47] text <;> simp

example : detectPreoptions (u! "ທະ") (u! "LaoPali") = us!["LaoTranscription"]
    ∧ detectPreoptions (u! "ท") (u! "Thai") = [] := by decide +kernel

/-- **C23**, consequence: for a text detected as a script other than Thai, Lao, LaoPali and Urdu,
automatic detection is the same as naming the script and passing no pre-options. -/
theorem C23_autodetect_without_preoptions (E : Env) (text w S tgt : PyStr) (hw : (w, S) ∈ wordScripts)
    (h : ∀ v, v ≠ w → wordCount E v text < wordCount E w text)
    (hS : S ∉ us!["Thai", "Lao", "LaoPali", "Urdu"])
    (hinj : ∀ a ∈ GM.IndicScripts ++ GM.LatinScripts, E.lower a = E.lower S → a = S)
    (nativize : Bool) (post pre : List PyStr) :
    process E (u! "autodetect") tgt text nativize post pre = process E S tgt text nativize post [] := by
  rw [C20_autodetect_as_named E text w S tgt hw h hinj, (C23_detected_preoptions text S).2.2 hS]

end Verif
