import Verif.Lib.Detect
import Verif.Lib.SampleEnv
import Verif.Spec.Codes

/-!
# Script codes and language codes (C05, C06)
-/

namespace Verif

/-! ## Lemmas -/

theorem splitGo_cons (x : Nat) (t ac : PyStr) : ∃ b r, splitGo [x] 0 ac t = b :: r := by
  induction t generalizing ac with
  | nil => exact ⟨_, _, rfl⟩
  | cons d t ih =>
    simp only [splitGo]
    split
    · exact ⟨_, _, rfl⟩
    · exact ih _

theorem splitGo_char_two (x : Nat) (acc s : PyStr) (h : x ∈ s) :
    ∃ a b r, splitGo [x] 0 acc s = a :: b :: r := by
  induction s generalizing acc with
  | nil => cases h
  | cons c s ih =>
    simp only [splitGo]
    by_cases hc : x = c
    · subst hc
      have : List.isPrefixOf [x] (x :: s) = true := by simp [List.isPrefixOf]
      rw [this]
      simp only [List.length_cons, List.length_nil]
      obtain ⟨b, r, h1⟩ := splitGo_cons x s []
      exact ⟨acc.reverse, b, r, by rw [show (0 : Nat) + 1 - 1 = 0 from rfl, h1]⟩
    · have : List.isPrefixOf [x] (c :: s) = false := by simp [List.isPrefixOf, hc]
      rw [this]
      exact ih _ ((List.mem_cons.1 h).resolve_left hc)

theorem singleton_infix {x : Nat} {s : PyStr} : [x] <:+: s ↔ x ∈ s := by
  constructor
  · rintro ⟨a, b, rfl⟩; simp
  · intro hc
    obtain ⟨a, b, rfl⟩ := List.append_of_mem hc
    exact ⟨a, b, by simp⟩

theorem hyphenated_iff {tag : PyStr} : hyphenated tag = true ↔ (u! "-") <:+: tag := isInfix_iff

theorem hyphenated_false {tag : PyStr} : hyphenated tag = false ↔ ¬ (u! "-") <:+: tag := by
  rw [← hyphenated_iff, Bool.not_eq_true]

/-- The parts of a code with a hyphen. -/
theorem hyphen_parts {tag : PyStr} (h : (u! "-") <:+: tag) : Hyphen tag (tagLang tag) (tagScript tag) := by
  obtain ⟨a, b, r, h1⟩ := splitGo_char_two 45 [] tag (singleton_infix.1 h)
  have h1 : pySplit tag (u! "-") = a :: b :: r := h1
  refine ⟨h, r, ?_⟩
  simp only [tagLang, tagScript, h1]

theorem hyphen_unique {tag a b : PyStr} (h : Hyphen tag a b) : a = tagLang tag ∧ b = tagScript tag := by
  obtain ⟨_, r, h⟩ := h
  simp only [tagLang, tagScript, h, and_self]

theorem hyphen_ex {tag : PyStr} {P : PyStr → PyStr → Prop} :
    (∃ a b, Hyphen tag a b ∧ P a b) ↔ hyphenated tag = true ∧ P (tagLang tag) (tagScript tag) := by
  constructor
  · rintro ⟨a, b, h, hp⟩
    obtain ⟨rfl, rfl⟩ := hyphen_unique h
    exact ⟨hyphenated_iff.2 h.1, hp⟩
  · rintro ⟨h, hp⟩
    exact ⟨_, _, hyphen_parts (hyphenated_iff.1 h), hp⟩

theorem dictGet?_find {β : Type} (d : List (PyStr × β)) (k : PyStr) :
    dictGet? d k = (d.find? fun p => p.1 == k).map Prod.snd := by
  induction d with
  | nil => rfl
  | cons p d ih =>
    obtain ⟨a, b⟩ := p
    simp only [dictGet?, List.find?_cons]
    cases h : strEq a k with
    | true => have := strEq_iff.1 h; subst this; simp
    | false =>
      have : (a == k) = false := by simpa using strEq_false.1 h
      simp only [this, ih, cond_false]

theorem population_eq (tag : PyStr) (l : Option PyStr) : population tag l = speakers tag l := by
  unfold population speakers
  rw [dictGet?_find]
  cases h : Yaml.wiki.find? fun p => p.1 == tag with
  | none => rfl
  | some p =>
    obtain ⟨x, d⟩ := p
    cases l with
    | none => rfl
    | some y =>
      simp only [Option.map_some, dictGet?_find]
      cases d.find? fun p => p.1 == y <;> rfl

theorem wikiCount_eq (tag : PyStr) : wikiCount tag = languageCount tag := by
  unfold wikiCount languageCount
  rw [dictGet?_find]
  cases h : Yaml.wiki.find? fun p => p.1 == tag <;> rfl

theorem rankLe_refl (p : Nat × PyStr) : rankLe p p = true := rankLe_iff.2 (.inr ⟨rfl, strLe_refl _⟩)

theorem foldl_best (l : List (Nat × PyStr)) (p : Nat × PyStr) :
    let m := l.foldl (fun b q => match rankLe b q with
      | true => q
      | false => b) p
    m ∈ p :: l ∧ ∀ q ∈ p :: l, rankLe q m = true := by
  induction l generalizing p with
  | nil => simp [rankLe_refl]
  | cons x l ih =>
    simp only [List.foldl_cons]
    cases h : rankLe p x with
    | true =>
      obtain ⟨h1, h2⟩ := ih x
      refine ⟨List.mem_cons_of_mem _ h1, fun q hq => ?_⟩
      rcases List.mem_cons.1 hq with rfl | hq
      · exact rankLe_trans _ _ _ h (h2 x (by simp))
      · exact h2 q hq
    | false =>
      obtain ⟨h1, h2⟩ := ih p
      refine ⟨?_, fun q hq => ?_⟩
      · rcases List.mem_cons.1 h1 with h1 | h1
        · rw [h1]; simp
        · exact List.mem_cons_of_mem _ (List.mem_cons_of_mem _ h1)
      · have hxp : rankLe x p = true := (rankLe_total p x).resolve_left (by rw [h]; simp)
        rcases List.mem_cons.1 hq with rfl | hq
        · exact h2 _ (by simp)
        · rcases List.mem_cons.1 hq with rfl | hq
          · exact rankLe_trans _ _ _ hxp (h2 _ (by simp))
          · exact h2 q (List.mem_cons_of_mem _ hq)

/-- The best candidate is the greatest one. -/
theorem best_greatest {l : List (Nat × PyStr)} {P : Nat → PyStr → Prop}
    (hP : ∀ w n, (w, n) ∈ l ↔ P w n) : (best l = none ∧ ∀ w n, ¬ P w n) ∨ ∃ n, best l = some n ∧ Greatest P n := by
  cases l with
  | nil => exact .inl ⟨rfl, fun w n h => by have := (hP w n).2 h; cases this⟩
  | cons p l =>
    right
    obtain ⟨h1, h2⟩ := foldl_best l p
    refine ⟨_, rfl, _, (hP _ _).1 h1, fun w' n' h => ?_⟩
    exact rankLe_iff.1 (h2 _ ((hP _ _).2 h))

theorem greatest_unique {P : Nat → PyStr → Prop} {a b : PyStr} (ha : Greatest P a) (hb : Greatest P b) : a = b := by
  obtain ⟨w, h1, h2⟩ := ha
  obtain ⟨v, h3, h4⟩ := hb
  rcases h2 v b h3 with h | ⟨h, h'⟩ <;> rcases h4 w a h1 with k | ⟨k, k'⟩
  · omega
  · omega
  · omega
  · exact strLe_antisymm k' h'

theorem lowerIn_iff {E : Env} {x : PyStr} {l : List PyStr} : lowerIn E x l = true ↔ E.lower x ∈ l := strMem_iff
theorem lowerIn_false {E : Env} {x : PyStr} {l : List PyStr} : lowerIn E x l = false ↔ E.lower x ∉ l := strMem_false

theorem inLangs_iff {E : Env} {s : Yaml.Script} {x : PyStr} :
    inLangs x (langsOf E s) = true ↔ HasLang E s x ∨ s.lang = none ∧ x = [] := by
  unfold inLangs langsOf HasLang entryLangs
  cases h : s.lang with
  | none => simp
  | some l => simp [strMem_iff]

/-- The entry with the languages before it. -/
theorem mainLang_cons (before : List Yaml.Script) (s : Yaml.Script) :
    mainLang before s = (match s.lang with
      | some x => (pySplit x (u! ",")).head?
      | none => (before.filterMap fun e => e.lang.bind fun l => (pySplit l (u! ",")).head?).getLast?) := by
  unfold mainLang
  rw [List.filterMap_append]
  cases h : s.lang with
  | none => simp [h]
  | some x =>
    have : ∃ y, (pySplit x (u! ",")).head? = some y := by
      obtain ⟨b, r, h⟩ := splitGo_cons 44 x []
      unfold pySplit
      exact ⟨b, by rw [h]; rfl⟩
    obtain ⟨y, hy⟩ := this
    simp [h, hy]

/-- One entry against a script code. -/
def codeHere (E : Env) (tag : PyStr) (langTag : Option PyStr) (s : Yaml.Script) : List (Nat × PyStr) :=
  match hyphenated tag with
  | false =>
    match strEq (E.lower s.tag) (E.lower tag) with
    | true => [(population s.tag langTag, s.name)]
    | false => []
  | true =>
    match strEq (E.lower s.tag) (E.lower (E.lower (tagScript tag))) && s.lang.isSome
        && inLangs (E.lower (E.lower (tagLang tag))) (langsOf E s) with
    | true => [(0, s.name)]
    | false => []

theorem mem_codeHere {E : Env} {tag : PyStr} {lt : Option PyStr} {s : Yaml.Script} {w : Nat} {n : PyStr} :
    (w, n) ∈ codeHere E tag lt s ↔ n = s.name ∧
    ((¬ (u! "-") <:+: tag ∧ E.lower s.tag = E.lower tag ∧ w = speakers s.tag lt)
    ∨ (w = 0 ∧ ∃ a b, Hyphen tag a b ∧ E.lower s.tag = E.lower (E.lower b)
        ∧ HasLang E s (E.lower (E.lower a)))) := by
  rw [hyphen_ex (P := fun a b => E.lower s.tag = E.lower (E.lower b) ∧ HasLang E s (E.lower (E.lower a))),
    ← hyphenated_iff]
  unfold codeHere
  cases hh : hyphenated tag with
  | false =>
    cases he : strEq (E.lower s.tag) (E.lower tag) with
    | true => simp [strEq_iff.1 he, population_eq, and_comm]
    | false => simp [strEq_false.1 he]
  | true =>
    cases he : strEq (E.lower s.tag) (E.lower (E.lower (tagScript tag))) && s.lang.isSome
        && inLangs (E.lower (E.lower (tagLang tag))) (langsOf E s) with
    | true =>
      simp only [Bool.and_eq_true] at he
      have h3 := inLangs_iff.1 he.2
      have h3 : HasLang E s (E.lower (E.lower (tagLang tag))) := by
        rcases h3 with h3 | h3
        · exact h3
        · rw [h3.1] at he; simp at he
      simp [strEq_iff.1 he.1.1, h3, and_comm]
    | false =>
      have : ¬ (E.lower s.tag = E.lower (E.lower (tagScript tag)) ∧ HasLang E s (E.lower (E.lower (tagLang tag)))) := by
        rintro ⟨h1, h2⟩
        have h4 : s.lang.isSome = true := by
          obtain ⟨ls, h, _⟩ := h2
          unfold entryLangs at h
          cases hl : s.lang with
          | none => rw [hl] at h; cases h
          | some _ => rfl
        rw [h1, h4, inLangs_iff.2 (.inl h2)] at he
        simp at he
      simp [this]

theorem mem_scriptTagMatches {E : Env} {tag : PyStr} (l before : List Yaml.Script) {w : Nat} {n : PyStr} :
    (w, n) ∈ scriptTagMatches E tag
        (before.filterMap fun e => e.lang.bind fun l => (pySplit l (u! ",")).head?).getLast? l
      ↔ ∃ pre s post, l = pre ++ s :: post ∧ (w, n) ∈ codeHere E tag (mainLang (before ++ pre) s) s := by
  induction l generalizing before with
  | nil => simp [scriptTagMatches]
  | cons s l ih =>
    have hstep : scriptTagMatches E tag
        (before.filterMap fun e => e.lang.bind fun l => (pySplit l (u! ",")).head?).getLast? (s :: l)
        = codeHere E tag (mainLang before s) s ++ scriptTagMatches E tag (mainLang before s) l := by
      rw [mainLang_cons]
      rfl
    have hm : mainLang before s
        = ((before ++ [s]).filterMap fun e => e.lang.bind fun l => (pySplit l (u! ",")).head?).getLast? := rfl
    rw [hstep, List.mem_append]
    constructor
    · rintro (h | h)
      · exact ⟨[], s, l, rfl, by simpa using h⟩
      · rw [hm, ih] at h
        obtain ⟨pre, t, post, rfl, h⟩ := h
        exact ⟨s :: pre, t, post, rfl, by simpa using h⟩
    · rintro ⟨pre, t, post, he, h⟩
      cases pre with
      | nil =>
        simp only [List.nil_append, List.cons.injEq] at he
        obtain ⟨rfl, rfl⟩ := he
        exact .inl (by simpa using h)
      | cons p pre =>
        simp only [List.cons_append, List.cons.injEq] at he
        obtain ⟨rfl, rfl⟩ := he
        right
        rw [hm, ih]
        exact ⟨pre, t, post, rfl, by simpa using h⟩

theorem mem_codeCandidates {E : Env} {tag : PyStr} {w : Nat} {n : PyStr} :
    (w, n) ∈ scriptTagMatches E tag none Yaml.scripts ↔ CodeAsksFor E tag w n := by
  have := mem_scriptTagMatches (E := E) (tag := tag) Yaml.scripts [] (w := w) (n := n)
  simp only [List.filterMap_nil, List.getLast?_nil, List.nil_append] at this
  rw [this]
  constructor
  · rintro ⟨pre, s, post, h1, h2⟩
    exact ⟨pre, s, ⟨post, h1⟩, mem_codeHere.1 h2⟩
  · rintro ⟨pre, s, ⟨post, h1⟩, h2⟩
    exact ⟨pre, s, post, h1, mem_codeHere.2 h2⟩

/-! ## Script codes -/

theorem syriac_eq (tag : PyStr) :
    syrcDefault tag = syriac tag := by
  unfold syriac syrcDefault
  cases h : strEq tag (u! "Syrc") with
  | true => rw [strEq_iff.1 h]; rfl
  | false => rw [if_neg (strEq_false.1 h)]

/-- The code resolves to exactly what it names, and is rejected if it names nothing. -/
theorem scriptTagPick_names (E : Env) (tag : PyStr) :
    (∃ n, scriptTagPick E tag = .ok n ∧ ∀ m, CodeNames E tag m ↔ m = n)
    ∨ scriptTagPick E tag = .error .exception ∧ ∀ m, ¬ CodeNames E tag m := by
  unfold scriptTagPick scriptTagCandidates
  simp only [syriac_eq]
  unfold CodeNames
  generalize syriac tag = t
  have hex := hyphen_ex (tag := t) (P := fun a _ => E.lower a ∈ latinCodes)
  have hex' : ∀ m, (∃ a, Hyphen t a m ∧ E.lower a ∈ latinCodes)
      ↔ hyphenated t = true ∧ E.lower (tagLang t) ∈ latinCodes ∧ m = tagScript t := by
    intro m
    constructor
    · rintro ⟨a, h, h'⟩
      obtain ⟨rfl, rfl⟩ := hyphen_unique h
      exact ⟨hyphenated_iff.2 h.1, h', rfl⟩
    · rintro ⟨h, h', rfl⟩
      exact ⟨_, hyphen_parts (hyphenated_iff.1 h), h'⟩
  simp only [hex, hex']
  cases h1 : hyphenated t && lowerIn E (tagLang t) us!["latn", "en", "eng"] with
  | true =>
    rw [Bool.and_eq_true, lowerIn_iff] at h1
    left
    refine ⟨tagScript t, rfl, fun m => ?_⟩
    have h1' : hyphenated t = true ∧ E.lower (tagLang t) ∈ latinCodes := h1
    simp [h1'.1, h1'.2]
  | false =>
    have h1' : ¬ (hyphenated t = true ∧ E.lower (tagLang t) ∈ latinCodes) := by
      rintro ⟨a, b⟩
      have b : E.lower _ ∈ us!["latn", "en", "eng"] := b
      rw [a, lowerIn_iff.2 b] at h1
      cases h1
    have h1'' : ∀ m, ¬ (hyphenated t = true ∧ E.lower (tagLang t) ∈ latinCodes ∧ m = tagScript t) :=
      fun m h => h1' ⟨h.1, h.2.1⟩
    simp only [h1', h1'', false_or, not_false_eq_true, true_and]
    cases h2 : lowerIn E t us!["latn", "en", "eng"] with
    | true =>
      have h2' : E.lower t ∈ latinCodes := lowerIn_iff.1 h2
      left
      exact ⟨u! "ISO", rfl, fun m => by simp [h2']⟩
    | false =>
      have h2' : E.lower t ∉ latinCodes := lowerIn_false.1 h2
      simp only [h2', false_and, false_or, not_false_eq_true, true_and]
      rcases best_greatest (fun w n => mem_codeCandidates (E := E) (tag := t) (w := w) (n := n)) with
        ⟨h3, h4⟩ | ⟨n, h3, h4⟩
      · simp only [h3]
        have hg : ∀ m, ¬ Greatest (CodeAsksFor E t) m := by
          rintro m ⟨w, hw, _⟩
          exact h4 _ _ hw
        cases h5 : pyIn t GM.SemiticScripts with
        | true =>
          left
          refine ⟨t, rfl, fun m => ?_⟩
          have h5' : t ∈ GM.SemiticScripts := strMem_iff.1 h5
          simp only [hg, false_or, h5', true_and]
          exact ⟨fun h => h.2, fun h => ⟨h4, h⟩⟩
        | false =>
          right
          refine ⟨rfl, fun m => ?_⟩
          have h5' : t ∉ GM.SemiticScripts := strMem_false.1 h5
          simp [hg, h5']
      · left
        simp only [h3]
        refine ⟨n, rfl, fun m => ?_⟩
        constructor
        · rintro (h | ⟨h, _⟩)
          · exact greatest_unique h h4
          · obtain ⟨w, hw, _⟩ := h4
            exact absurd hw (h _ _)
        · rintro rfl
          exact .inl h4

/-- **C05.**  A script code names at most one script. -/
theorem C05_code_names_one_script (E : Env) (tag a b : PyStr) (ha : CodeNames E tag a) (hb : CodeNames E tag b) :
    a = b := by
  rcases scriptTagPick_names E tag with ⟨n, _, h⟩ | ⟨_, h⟩
  · rw [(h a).1 ha, (h b).1 hb]
  · exact absurd ha (h a)

/-- **C05.**  `process(param='script_code')` with two codes that name scripts gives the result of
naming these scripts, for all texts, flags and options. -/
theorem C05_known_codes_resolve (E : Env) (src tgt S T text : PyStr) (nativize : Bool)
    (post pre : List PyStr) (hauto : src ≠ u! "autodetect")
    (hs : CodeNames E src S) (ht : CodeNames E tgt T) :
    process E src tgt text nativize post pre (u! "script_code")
      = process E S T text nativize post pre (u! "default") := by
  have pick : ∀ t n, CodeNames E t n → scriptTagPick E t = .ok n := by
    intro t n h
    rcases scriptTagPick_names E t with ⟨m, h1, h2⟩ | ⟨_, h2⟩
    · rw [h1, (h2 n).1 h]
    · exact absurd h (h2 n)
  show (processScriptTag E src tgt text nativize post pre).map some
      = (processDefault E S T text nativize post pre).map some
  simp only [processScriptTag, strEq_false.2 hauto, pick _ _ hs, pick _ _ ht, Except.map]

/-- **C05.**  A source or target code that names nothing is rejected with an exception, for all
texts, flags and options. -/
theorem C05_unknown_code_rejected (E : Env) (src tgt text : PyStr) (nativize : Bool)
    (post pre : List PyStr) (hauto : src ≠ u! "autodetect")
    (h : (∀ S, ¬ CodeNames E src S) ∨ ∀ T, ¬ CodeNames E tgt T) :
    process E src tgt text nativize post pre (u! "script_code") = .error .exception := by
  have pick : ∀ t, (∀ n, ¬ CodeNames E t n) → scriptTagPick E t = .error .exception := by
    intro t h
    rcases scriptTagPick_names E t with ⟨m, _, h2⟩ | ⟨h1, _⟩
    · exact absurd ((h2 m).2 rfl) (h m)
    · exact h1
  have any : ∀ t, (∃ n, scriptTagPick E t = .ok n) ∨ scriptTagPick E t = .error .exception := by
    intro t
    rcases scriptTagPick_names E t with ⟨m, h1, _⟩ | ⟨h1, _⟩
    · exact .inl ⟨m, h1⟩
    · exact .inr h1
  show (processScriptTag E src tgt text nativize post pre).map some = _
  rcases h with h | h
  · simp only [processScriptTag, strEq_false.2 hauto, pick _ h, Except.map]
  · rcases any src with ⟨n, h1⟩ | h1
    · simp only [processScriptTag, strEq_false.2 hauto, h1, pick _ h, Except.map]
    · simp only [processScriptTag, strEq_false.2 hauto, h1, Except.map]

/-- `Deva` names Devanagari, `ml-Mlym` Malayalam, `Latn-IAST` IAST, `Syrc` the Estrangelo script
and `Qqqq` nothing. -/
example : CodeNames sampleEnv (u! "Deva") (u! "Devanagari") ∧ CodeNames sampleEnv (u! "ml-Mlym") (u! "Malayalam")
    ∧ CodeNames sampleEnv (u! "Latn-IAST") (u! "IAST") ∧ CodeNames sampleEnv (u! "Syrc") (u! "Syre")
    ∧ ∀ S, ¬ CodeNames sampleEnv (u! "Qqqq") S := by
  have key : ∀ t n, scriptTagPick sampleEnv t = .ok n → CodeNames sampleEnv t n := by
    intro t n h
    rcases scriptTagPick_names sampleEnv t with ⟨m, h1, h2⟩ | ⟨h1, _⟩
    · rw [h1] at h; injection h with h; exact (h2 n).2 h.symm
    · rw [h1] at h; cases h
  refine ⟨key _ _ (by decide +kernel), key _ _ (by decide +kernel), key _ _ (by decide +kernel),
    key _ _ (by decide +kernel), ?_⟩
  have h0 : scriptTagPick sampleEnv (u! "Qqqq") = .error .exception := by decide +kernel
  rcases scriptTagPick_names sampleEnv (u! "Qqqq") with ⟨m, h1, _⟩ | ⟨_, h1⟩
  · rw [h0] at h1; cases h1
  · exact h1

/-! ## Language codes -/

theorem mem_langTagMatches {E : Env} {tag : PyStr} (l : List Yaml.Script) {w : Nat} {n : PyStr} :
    (w, n) ∈ langTagMatches E tag l ↔ ∃ s ∈ l, n = s.name ∧
    ((HasLang E s (E.lower tag) ∨ s.lang = none ∧ E.lower tag = []) ∧ w = languageCount s.tag
    ∨ w = 0 ∧ ∃ a b, Hyphen tag a b ∧ E.lower s.tag = E.lower b
        ∧ (HasLang E s (E.lower a) ∨ s.lang = none ∧ E.lower a = [])) := by
  induction l with
  | nil => simp [langTagMatches]
  | cons s l ih =>
    simp only [langTagMatches, List.mem_append, ih, List.mem_cons, exists_eq_or_imp]
    rw [hyphen_ex (P := fun a b => E.lower s.tag = E.lower b ∧
      (HasLang E s (E.lower a) ∨ s.lang = none ∧ E.lower a = []))]
    apply or_congr _ Iff.rfl
    simp only [← inLangs_iff]
    cases h1 : inLangs (E.lower tag) (langsOf E s) <;>
      cases h2 : hyphenated tag <;>
      cases h4 : inLangs (E.lower (tagLang tag)) (langsOf E s) <;>
      cases h3 : strEq (E.lower s.tag) (E.lower (tagScript tag)) <;>
      (try have h3' := strEq_iff.1 h3) <;> (try have h3' := strEq_false.1 h3) <;>
      simp [h3', wikiCount_eq, and_comm, and_or_left]

theorem lastWithTag_spec (E : Env) (code : PyStr) (l : List Yaml.Script) :
    (lastWithTag E code l = none ∧ ∀ s ∈ l, E.lower s.tag ≠ E.lower code)
    ∨ ∃ before s after, l = before ++ s :: after ∧ lastWithTag E code l = some s.name
      ∧ E.lower s.tag = E.lower code ∧ ∀ t ∈ after, E.lower t.tag ≠ E.lower code := by
  induction l with
  | nil => exact .inl ⟨rfl, by simp⟩
  | cons s l ih =>
    rcases ih with ⟨h1, h2⟩ | ⟨b, t, a, h1, h2, h3, h4⟩
    · simp only [lastWithTag, h1]
      cases h : strEq (E.lower s.tag) (E.lower code) with
      | true => exact .inr ⟨[], s, l, rfl, rfl, strEq_iff.1 h, h2⟩
      | false =>
        refine .inl ⟨rfl, ?_⟩
        intro t ht
        rcases List.mem_cons.1 ht with rfl | ht
        · exact strEq_false.1 h
        · exact h2 t ht
    · right
      refine ⟨s :: b, t, a, by rw [h1]; rfl, ?_, h3, h4⟩
      simp only [lastWithTag, h2]

theorem lastWithCode_iff {E : Env} {code n : PyStr} :
    LastWithCode E code n ↔ lastWithTag E code Yaml.scripts = some n := by
  rcases lastWithTag_spec E code Yaml.scripts with ⟨h1, h2⟩ | ⟨b, s, a, h1, h2, h3, h4⟩
  · constructor
    · rintro ⟨b, s, a, h, _, h', _⟩
      exact absurd h' (h2 s (by rw [h]; simp))
    · intro h; rw [h1] at h; cases h
  · constructor
    · rintro ⟨b', s', a', h, rfl, h', h''⟩
      rw [h2]
      -- both are the last entry with the code
      have key : s' = s := by
        rw [h1] at h
        rcases List.append_eq_append_iff.1 h with ⟨c, hc1, hc2⟩ | ⟨c, hc1, hc2⟩
        · cases c with
          | nil => exact (List.cons.inj (by simpa using hc2 : s :: a = s' :: a')).1.symm
          | cons x c =>
            simp only [List.cons_append, List.cons.injEq] at hc2
            exact absurd h' (h4 s' (by rw [hc2.2]; simp))
        · cases c with
          | nil => exact (List.cons.inj (by simpa using hc2 : s' :: a' = s :: a)).1
          | cons x c =>
            simp only [List.cons_append, List.cons.injEq] at hc2
            exact absurd h3 (h'' s (by rw [hc2.2]; simp))
      rw [key]
    · intro h
      rw [h2] at h
      injection h with h
      exact ⟨b, s, a, h1, h, h3, h4⟩

theorem langTagPick_names (E : Env) (tag : PyStr) :
    (∃ n, langTagPick E tag = .ok n ∧ ∀ m, LangNames E tag m ↔ m = n)
    ∨ langTagPick E tag = .error .exception ∧ ∀ m, ¬ LangNames E tag m := by
  unfold langTagPick langTagCandidates LangNames
  have hex := hyphen_ex (tag := tag) (P := fun a _ => E.lower a ∈ latinLangs)
  have hex' : ∀ m, (∃ a, Hyphen tag a m ∧ E.lower a ∈ latinLangs)
      ↔ hyphenated tag = true ∧ E.lower (tagLang tag) ∈ latinLangs ∧ m = tagScript tag := by
    intro m
    constructor
    · rintro ⟨a, h, h'⟩
      obtain ⟨rfl, rfl⟩ := hyphen_unique h
      exact ⟨hyphenated_iff.2 h.1, h', rfl⟩
    · rintro ⟨h, h', rfl⟩
      exact ⟨_, hyphen_parts (hyphenated_iff.1 h), h'⟩
  have hsa : ∀ m, (∃ a b, Hyphen tag a b ∧ E.lower a ∈ sanskritCodes ∧ LastWithCode E b m)
      ↔ (hyphenated tag = true ∧ E.lower (tagLang tag) ∈ sanskritCodes)
        ∧ lastWithTag E (tagScript tag) Yaml.scripts = some m := by
    intro m
    rw [hyphen_ex (P := fun a b => E.lower a ∈ sanskritCodes ∧ LastWithCode E b m), lastWithCode_iff, and_assoc]
  have hsa' : (∃ a b n, Hyphen tag a b ∧ E.lower a ∈ sanskritCodes ∧ LastWithCode E b n)
      ↔ (hyphenated tag = true ∧ E.lower (tagLang tag) ∈ sanskritCodes)
        ∧ ∃ n, lastWithTag E (tagScript tag) Yaml.scripts = some n := by
    constructor
    · rintro ⟨a, b, n, h⟩
      have := (hsa n).1 ⟨a, b, h⟩
      exact ⟨this.1, n, this.2⟩
    · rintro ⟨h, n, h'⟩
      obtain ⟨a, b, h⟩ := (hsa n).2 ⟨h, h'⟩
      exact ⟨a, b, n, h⟩
  simp only [hex, hex', hsa, hsa']
  cases h1 : hyphenated tag && lowerIn E (tagLang tag) us!["la", "en", "eng"] with
  | true =>
    rw [Bool.and_eq_true, lowerIn_iff] at h1
    left
    refine ⟨tagScript tag, rfl, fun m => ?_⟩
    have h1' : hyphenated tag = true ∧ E.lower (tagLang tag) ∈ latinLangs := h1
    simp [h1'.1, h1'.2]
  | false =>
    have h1' : ¬ (hyphenated tag = true ∧ E.lower (tagLang tag) ∈ latinLangs) := by
      rintro ⟨a, b⟩
      have b : E.lower _ ∈ us!["la", "en", "eng"] := b
      rw [a, lowerIn_iff.2 b] at h1
      cases h1
    have h1'' : ∀ m, ¬ (hyphenated tag = true ∧ E.lower (tagLang tag) ∈ latinLangs ∧ m = tagScript tag) :=
      fun m h => h1' ⟨h.1, h.2.1⟩
    simp only [h1', h1'', false_or, not_false_eq_true, true_and]
    cases h2 : lowerIn E tag us!["la", "en", "eng"] with
    | true =>
      have h2' : E.lower tag ∈ latinLangs := lowerIn_iff.1 h2
      left
      exact ⟨u! "ISO", rfl, fun m => by simp [h2']⟩
    | false =>
      have h2' : E.lower tag ∉ latinLangs := lowerIn_false.1 h2
      simp only [h2', false_and, false_or, not_false_eq_true, true_and]
      -- the plain candidates
      have hbase : (∃ n, (match best (match lowerIn E tag us!["sa", "san", "pi", "pli"] with
            | true => [(0, (u! "Devanagari"))]
            | false => langTagMatches E tag Yaml.scripts) with
            | some s => Except.ok s
            | none => Except.error Exn.exception) = .ok n ∧ ∀ m, (E.lower tag ∈ sanskritCodes ∧ m = u! "Devanagari"
              ∨ E.lower tag ∉ sanskritCodes ∧ Greatest (LangAsksFor E tag) m) ↔ m = n)
          ∨ (match best (match lowerIn E tag us!["sa", "san", "pi", "pli"] with
            | true => [(0, (u! "Devanagari"))]
            | false => langTagMatches E tag Yaml.scripts) with
            | some s => Except.ok s
            | none => Except.error Exn.exception) = .error .exception ∧ ∀ m,
              ¬ (E.lower tag ∈ sanskritCodes ∧ m = u! "Devanagari"
              ∨ E.lower tag ∉ sanskritCodes ∧ Greatest (LangAsksFor E tag) m) := by
        cases h3 : lowerIn E tag us!["sa", "san", "pi", "pli"] with
        | true =>
          have h3' : E.lower tag ∈ sanskritCodes := lowerIn_iff.1 h3
          left
          exact ⟨u! "Devanagari", rfl, fun m => by simp [h3']⟩
        | false =>
          have h3' : E.lower tag ∉ sanskritCodes := lowerIn_false.1 h3
          simp only [h3', false_and, false_or, not_false_eq_true, true_and]
          rcases best_greatest (P := LangAsksFor E tag)
              (fun w n => mem_langTagMatches (E := E) (tag := tag) Yaml.scripts (w := w) (n := n)) with
            ⟨h4, h5⟩ | ⟨n, h4, h5⟩
          · right
            simp only [h4]
            refine ⟨trivial, ?_⟩
            rintro m ⟨w, hw, _⟩
            exact h5 _ _ hw
          · left
            simp only [h4]
            exact ⟨n, rfl, fun m => ⟨fun h => greatest_unique h h5, fun h => h ▸ h5⟩⟩
      cases h3 : hyphenated tag && lowerIn E (tagLang tag) us!["sa", "san", "pi", "pli"] with
      | true =>
        rw [Bool.and_eq_true, lowerIn_iff] at h3
        have h3' : (hyphenated tag = true ∧ E.lower (tagLang tag) ∈ sanskritCodes) = True := eq_true h3
        simp only [h3', true_and]
        cases h4 : lastWithTag E (tagScript tag) Yaml.scripts with
        | some n =>
          left
          refine ⟨n, rfl, fun m => ?_⟩
          simp [eq_comm]
        | none =>
          rcases hbase with ⟨n, h, h'⟩ | ⟨h, h'⟩
          · exact .inl ⟨n, h, fun m => by rw [← h' m]; simp⟩
          · exact .inr ⟨h, fun m hm => h' m (by simpa using hm)⟩
      | false =>
        have h3' : (hyphenated tag = true ∧ E.lower (tagLang tag) ∈ sanskritCodes) = False := by
          apply eq_false
          rintro ⟨a, b⟩
          have b : E.lower _ ∈ us!["sa", "san", "pi", "pli"] := b
          rw [a, lowerIn_iff.2 b] at h3
          cases h3
        simp only [h3', false_and, false_or, not_false_eq_true, true_and]
        exact hbase

/-- **C06.**  A language code names at most one script. -/
theorem C06_code_names_one_script (E : Env) (tag a b : PyStr) (ha : LangNames E tag a) (hb : LangNames E tag b) :
    a = b := by
  rcases langTagPick_names E tag with ⟨n, _, h⟩ | ⟨_, h⟩
  · rw [(h a).1 ha, (h b).1 hb]
  · exact absurd ha (h a)

/-- **C06.**  `process(param='lang_code')` with two codes that name scripts gives the result of
naming these scripts, for all texts, flags and options. -/
theorem C06_known_codes_resolve (E : Env) (src tgt S T text : PyStr) (nativize : Bool)
    (post pre : List PyStr) (hauto : src ≠ u! "autodetect")
    (hs : LangNames E src S) (ht : LangNames E tgt T) :
    process E src tgt text nativize post pre (u! "lang_code")
      = process E S T text nativize post pre (u! "default") := by
  have pick : ∀ t n, LangNames E t n → langTagPick E t = .ok n := by
    intro t n h
    rcases langTagPick_names E t with ⟨m, h1, h2⟩ | ⟨_, h2⟩
    · rw [h1, (h2 n).1 h]
    · exact absurd h (h2 n)
  show (processLangTag E src tgt text nativize post pre).map some
      = (processDefault E S T text nativize post pre).map some
  simp only [processLangTag, strEq_false.2 hauto, pick _ _ hs, pick _ _ ht, Except.map]

/-- **C06.**  A source or target code that names nothing is rejected with an exception, for all
texts, flags and options. -/
theorem C06_unknown_code_rejected (E : Env) (src tgt text : PyStr) (nativize : Bool)
    (post pre : List PyStr) (hauto : src ≠ u! "autodetect")
    (h : (∀ S, ¬ LangNames E src S) ∨ ∀ T, ¬ LangNames E tgt T) :
    process E src tgt text nativize post pre (u! "lang_code") = .error .exception := by
  have pick : ∀ t, (∀ n, ¬ LangNames E t n) → langTagPick E t = .error .exception := by
    intro t h
    rcases langTagPick_names E t with ⟨m, _, h2⟩ | ⟨h1, _⟩
    · exact absurd ((h2 m).2 rfl) (h m)
    · exact h1
  have any : ∀ t, (∃ n, langTagPick E t = .ok n) ∨ langTagPick E t = .error .exception := by
    intro t
    rcases langTagPick_names E t with ⟨m, h1, _⟩ | ⟨h1, _⟩
    · exact .inl ⟨m, h1⟩
    · exact .inr h1
  show (processLangTag E src tgt text nativize post pre).map some = _
  rcases h with h | h
  · simp only [processLangTag, strEq_false.2 hauto, pick _ h, Except.map]
  · rcases any src with ⟨n, h1⟩ | h1
    · simp only [processLangTag, strEq_false.2 hauto, h1, pick _ h, Except.map]
    · simp only [processLangTag, strEq_false.2 hauto, h1, Except.map]

/-- `te` names Telugu, `sa` Devanagari, `sa-Gran` Grantha, `xx` nothing.  The codes after the
first of an entry ("bn, ben") keep their blank, so `ben` names nothing and ` ben` names Bengali.
The empty code names the last of the entries without languages. -/
example : LangNames sampleEnv (u! "te") (u! "Telugu") ∧ LangNames sampleEnv (u! "sa") (u! "Devanagari")
    ∧ (∀ S, ¬ LangNames sampleEnv (u! "xx") S) ∧ (∀ S, ¬ LangNames sampleEnv (u! "ben") S)
    ∧ LangNames sampleEnv (u! " ben") (u! "Bengali") ∧ ∃ S, LangNames sampleEnv [] S := by
  have key : ∀ t n, langTagPick sampleEnv t = .ok n → LangNames sampleEnv t n := by
    intro t n h
    rcases langTagPick_names sampleEnv t with ⟨m, h1, h2⟩ | ⟨h1, _⟩
    · rw [h1] at h; injection h with h; exact (h2 n).2 h.symm
    · rw [h1] at h; cases h
  have key' : ∀ t, langTagPick sampleEnv t = .error .exception → ∀ n, ¬ LangNames sampleEnv t n := by
    intro t h
    rcases langTagPick_names sampleEnv t with ⟨m, h1, h2⟩ | ⟨_, h1⟩
    · rw [h1] at h; cases h
    · exact h1
  refine ⟨key _ _ (by decide +kernel), key _ _ (by decide +kernel), key' _ (by decide +kernel),
    key' _ (by decide +kernel), key _ _ (by decide +kernel), ?_⟩
  rcases langTagPick_names sampleEnv [] with ⟨m, _, h2⟩ | ⟨h1, _⟩
  · exact ⟨m, (h2 m).2 rfl⟩
  · have h0 : (langTagPick sampleEnv []).isOk = true := by decide +kernel
    rw [h1] at h0; cases h0

end Verif
