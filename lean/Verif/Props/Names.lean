import Verif.Lib.Basic
import Verif.Lib.SampleEnv

/-!
# Script names, options and parameters (C01–C04, C24, C36)
-/

namespace Verif

/-! ## C01: converting a script to itself -/

/-- A script converted to itself without options and without nativisation: nothing is emitted. -/
theorem convertN_same (n : Nat) (S : PyStr) (h : ∀ p ∈ GM.semiticISO, p.1 ≠ S) :
    (convertN (n + 1) ⟨S, S, false, [], []⟩).prog = .done := by
  have iso : dictGet? GM.semiticISO (u! "ISO") = none := by decide
  have hS : dictGet? GM.semiticISO S = none := dictGet?_none.2 h
  show convertBody (convertN n) ⟨S, S, false, [], []⟩ _ = _
  cases hl : strEq S (u! "RomanLoC") with
  | true =>
    have hS' := strEq_iff.1 hl
    subst hS'
    rfl
  | false =>
    have h1 : locTarget ⟨S, S, false, [], []⟩ = ⟨S, S, false, [], []⟩ := by
      simp [locTarget, pyEq_eq, hl]
    have h2 : locTargetOther ⟨S, S, false, [], []⟩ = ⟨S, S, false, [], []⟩ := by
      simp [locTargetOther, pyEq_eq, hl]
    have h3 : locSource ⟨S, S, false, [], []⟩ = pure ⟨S, S, false, [], []⟩ := by
      simp [locSource, pyEq_eq, hl]
    have h4 : locSourceOther ⟨S, S, false, [], []⟩ = ⟨S, S, false, [], []⟩ := by
      simp [locSourceOther, pyEq_eq, hl]
    simp [convertBody, h1, h2, h3, h4, isoTarget, isoSource, hS, earlyReturn, pyEq_eq, branch]

theorem resolveName_lower (E : Env) (x : PyStr) : E.lower (resolveName E x) = E.lower x := by
  unfold resolveName
  cases h : (GM.IndicScripts ++ GM.LatinScripts).find? fun s => strEq (E.lower x) (E.lower s) with
  | none => rfl
  | some s =>
    have := List.find?_some h
    exact (strEq_iff.1 this).symm

/-- **C01.** Converting a script to itself, without nativisation and options, returns the text
unchanged, for every script name (known or not) other than the Semitic romanisation standards
(in any capitalisation) and the word `autodetect`, for every text. -/
theorem C01_same_script_identity (E : Env) (S text : PyStr) (hauto : S ≠ u! "autodetect")
    (hiso : ∀ p ∈ GM.semiticISO, E.lower p.1 ≠ E.lower S) :
    process E S S text false [] [] (u! "default") = .ok (some text) := by
  have hS : ∀ p ∈ GM.semiticISO, p.1 ≠ resolveName E S := by
    intro p hp heq
    apply hiso p hp
    rw [heq, resolveName_lower]
  have hd : processDefault E S S text false [] [] = .ok text := by
    simp only [processDefault, strEq_false.2 hauto, convertDefault, matchOptions, List.flatMap_nil, convert]
    rw [convertN_same _ _ hS]
    rfl
  show (processDefault E S S text false [] []).map some = _
  rw [hd]
  rfl

/-- The hypotheses of `C01_same_script_identity` hold for a supported and for an unsupported name. -/
example : (∀ p ∈ GM.semiticISO, sampleEnv.lower p.1 ≠ sampleEnv.lower (u! "Telugu"))
    ∧ (∀ p ∈ GM.semiticISO, sampleEnv.lower p.1 ≠ sampleEnv.lower (u! "Klingon")) := by decide

/-! ## C02: capitalisation of script names -/

/-- Name resolution looks only at the lower-cased name. -/
theorem resolveName_congr (E : Env) {S x : PyStr} (hS : S ∈ GM.IndicScripts ++ GM.LatinScripts)
    (hx : E.lower x = E.lower S) : resolveName E x = resolveName E S := by
  unfold resolveName
  rw [hx]
  cases h : (GM.IndicScripts ++ GM.LatinScripts).find? fun s => strEq (E.lower S) (E.lower s) with
  | some s => rfl
  | none =>
    have := List.find?_eq_none.1 h S hS
    simp at this

/-- **C02.** A source or target name spelt in any other capitalisation of a supported Indic or
Roman script name gives the same result, for all texts, flags and options. -/
theorem C02_names_case_insensitive (E : Env) (src tgt src' tgt' : PyStr)
    (hs : src ∈ GM.IndicScripts ++ GM.LatinScripts) (ht : tgt ∈ GM.IndicScripts ++ GM.LatinScripts)
    (hs' : E.lower src' = E.lower src) (ht' : E.lower tgt' = E.lower tgt)
    (hauto : src' ≠ u! "autodetect")
    (text : PyStr) (nativize : Bool) (post pre : List PyStr) :
    process E src' tgt' text nativize post pre (u! "default")
      = process E src tgt text nativize post pre (u! "default") := by
  have ha : strEq src (u! "autodetect") = false := by
    rw [strEq_false]
    rintro rfl
    revert hs
    rw [← strMem_iff]
    decide
  have key : processDefault E src' tgt' text nativize post pre
      = processDefault E src tgt text nativize post pre := by
    simp only [processDefault, strEq_false.2 hauto, ha, resolveName_congr E hs hs', resolveName_congr E ht ht']
  show (processDefault E src' tgt' text nativize post pre).map some = _
  rw [key]
  rfl

/-- The name a spelling resolves to is the listed one, as long as lower-casing separates the
listed names. -/
theorem C02_resolves_to_listed_name (E : Env) (S x : PyStr)
    (hS : S ∈ GM.IndicScripts ++ GM.LatinScripts) (hx : E.lower x = E.lower S)
    (hinj : ∀ a ∈ GM.IndicScripts ++ GM.LatinScripts, ∀ b ∈ GM.IndicScripts ++ GM.LatinScripts,
      E.lower a = E.lower b → a = b) : resolveName E x = S := by
  rw [resolveName_congr E hS hx]
  unfold resolveName
  cases h : (GM.IndicScripts ++ GM.LatinScripts).find? fun s => strEq (E.lower S) (E.lower s) with
  | some s =>
    have h1 := List.find?_some h
    exact (hinj S hS s (List.mem_of_find?_eq_some h) (strEq_iff.1 h1)).symm
  | none =>
    have := List.find?_eq_none.1 h S hS
    simp at this

/-- `C02` applies to `dEVANAGARI` and `iast`; ASCII lower-casing separates all listed names. -/
example : (u! "Devanagari") ∈ GM.IndicScripts ++ GM.LatinScripts
    ∧ sampleEnv.lower (u! "dEVANAGARI") = sampleEnv.lower (u! "Devanagari")
    ∧ (u! "IAST") ∈ GM.IndicScripts ++ GM.LatinScripts
    ∧ sampleEnv.lower (u! "iast") = sampleEnv.lower (u! "IAST") := by
  refine ⟨?_, by decide, ?_, by decide⟩ <;> rw [← strMem_iff] <;> decide +kernel

/-- Pairwise different strings. -/
def allDistinct : List PyStr → Bool
  | [] => true
  | x :: l => match strMem x l with
    | true => false
    | false => allDistinct l

theorem allDistinct_nodup {l : List PyStr} (h : allDistinct l = true) : l.Nodup := by
  induction l with
  | nil => simp
  | cons x l ih =>
    simp only [allDistinct] at h
    cases hx : strMem x l with
    | true => simp [hx] at h
    | false => rw [hx] at h; exact List.nodup_cons.2 ⟨strMem_false.1 hx, ih h⟩

theorem inj_of_nodup_map {f : PyStr → PyStr} {l : List PyStr} (h : (l.map f).Nodup) :
    ∀ a ∈ l, ∀ b ∈ l, f a = f b → a = b := by
  induction l with
  | nil => simp
  | cons x l ih =>
    simp only [List.map_cons, List.nodup_cons, List.mem_map, not_exists, not_and] at h
    intro a ha b hb hab
    rcases List.mem_cons.1 ha with ha' | ha' <;> rcases List.mem_cons.1 hb with hb' | hb'
    · rw [ha', hb']
    · exact absurd (ha' ▸ hab).symm (h.1 b hb')
    · exact absurd (hb' ▸ hab) (h.1 a ha')
    · exact ih h.2 a ha' b hb' hab

theorem sample_lower_injective : ∀ a ∈ GM.IndicScripts ++ GM.LatinScripts,
    ∀ b ∈ GM.IndicScripts ++ GM.LatinScripts, sampleEnv.lower a = sampleEnv.lower b → a = b := by
  have h : ((GM.IndicScripts ++ GM.LatinScripts).map sampleEnv.lower).Nodup :=
    allDistinct_nodup (by decide +kernel)
  exact inj_of_nodup_map h

/-! ## C03: unknown options, capitalisation of options -/

/-- What a list of requested options asks for: the lower-cased names that some option function
of the module bears. -/
def effective (E : Env) (known opts : List PyStr) : List PyStr :=
  (opts.map E.lower).filter fun o => strMem o (known.map E.lower)

/-- The options applied depend only on the effective options. -/
theorem matchOptions_effective (E : Env) (known opts : List PyStr) :
    matchOptions E known opts
      = (effective E known opts).flatMap fun o => known.filter fun k => strEq o (E.lower k) := by
  induction opts with
  | nil => rfl
  | cons o opts ih =>
    simp only [matchOptions, effective, List.flatMap_cons, List.map_cons, List.filter_cons] at ih ⊢
    rw [ih]
    cases h : strMem (E.lower o) (known.map E.lower) with
    | true => simp
    | false =>
      have : (known.filter fun k => strEq (E.lower o) (E.lower k)) = [] := by
        rw [List.filter_eq_nil_iff]
        intro k hk hko
        rw [strMem_false] at h
        exact h (List.mem_map.2 ⟨k, hk, (strEq_iff.1 hko).symm⟩)
      simp [this]

/-- **C03.** The result of `process` depends on the option lists only through the options that
exist, up to capitalisation: two pairs of option lists which, lower-cased and with the names that
no option function bears left out, are the same, give the same result for every source, target,
text, flag and `param`. -/
theorem C03_options_up_to_case_and_unknown (E : Env) (src tgt text : PyStr) (nativize : Bool)
    (post post' pre pre' : List PyStr) (param : PyStr)
    (hpost : effective E (names postFns) post = effective E (names postFns) post')
    (hpre : effective E (names preFns) pre = effective E (names preFns) pre') :
    process E src tgt text nativize post pre param = process E src tgt text nativize post' pre' param := by
  have h1 : ∀ s t, convertDefault E s t text nativize post pre = convertDefault E s t text nativize post' pre' := by
    intro s t
    simp only [convertDefault, matchOptions_effective, hpost, hpre]
  have h1' : ∀ s t q, convertDefault E s t text nativize post q = convertDefault E s t text nativize post' q := by
    intro s t q
    simp only [convertDefault, matchOptions_effective, hpost]
  have h2 : ∀ s t, processDefault E s t text nativize post pre = processDefault E s t text nativize post' pre' := by
    intro s t
    simp only [processDefault, h1, h1']
  have h2' : ∀ s t q, processDefault E s t text nativize post q = processDefault E s t text nativize post' q := by
    intro s t q
    simp only [processDefault, h1']
  have h3 : ∀ s t, processScriptTag E s t text nativize post pre = processScriptTag E s t text nativize post' pre' := by
    intro s t
    simp only [processScriptTag]
    cases strEq s (u! "autodetect") <;> simp only
    · cases scriptTagPick E s <;> simp only [Except.map, h2]
    · cases autoDetect E text <;> simp only [Except.map, h2']
  have h4' : ∀ s t q, processLangTag E s t text nativize post q = processLangTag E s t text nativize post' q := by
    intro s t q
    simp only [processLangTag, h2']
  have h4 : ∀ s t, processLangTag E s t text nativize post pre = processLangTag E s t text nativize post' pre' := by
    intro s t
    simp only [processLangTag]
    cases strEq s (u! "autodetect") <;> simp only
    · cases langTagPick E s <;> simp only [Except.map, h2]
    · cases autoDetect E text <;> simp only [Except.map, h2']
  have h5 : ∀ s t, processLangName E s t text nativize post pre = processLangName E s t text nativize post' pre' := by
    intro s t
    simp only [processLangName]
    cases strEq s (u! "autodetect") <;> simp only
    · cases E.findLang s <;> simp only [h4]
    · cases autoDetect E text <;> simp only [Except.map, h4']
  simp only [process, h2, h3, h4, h5]

/-- **C03**, first half: a name that no option function bears (in any capitalisation) may be
inserted anywhere in either list. -/
theorem C03_unknown_option_ignored (E : Env) (src tgt text : PyStr) (nativize : Bool)
    (q1 q2 p1 p2 : List PyStr) (param x : PyStr)
    (hx : ∀ k ∈ names postFns, E.lower k ≠ E.lower x) (hx' : ∀ k ∈ names preFns, E.lower k ≠ E.lower x) :
    process E src tgt text nativize (q1 ++ x :: q2) (p1 ++ x :: p2) param
      = process E src tgt text nativize (q1 ++ q2) (p1 ++ p2) param := by
  have drop : ∀ known : List PyStr, (∀ k ∈ known, E.lower k ≠ E.lower x) → ∀ a b : List PyStr,
      effective E known (a ++ x :: b) = effective E known (a ++ b) := by
    intro known h a b
    have : strMem (E.lower x) (known.map E.lower) = false := by
      rw [strMem_false, List.mem_map]
      rintro ⟨k, hk, he⟩
      exact h k hk he
    simp [effective, this]
  exact C03_options_up_to_case_and_unknown E src tgt text nativize _ _ _ _ param
    (drop _ hx _ _) (drop _ hx' _ _)

/-- **C03**, second half: an option may be spelt in any capitalisation. -/
theorem C03_option_case_insensitive (E : Env) (src tgt text : PyStr) (nativize : Bool)
    (q1 q2 p1 p2 : List PyStr) (param x y : PyStr) (hxy : E.lower x = E.lower y) :
    process E src tgt text nativize (q1 ++ x :: q2) (p1 ++ x :: p2) param
      = process E src tgt text nativize (q1 ++ y :: q2) (p1 ++ y :: p2) param :=
  C03_options_up_to_case_and_unknown E src tgt text nativize _ _ _ _ param
    (by simp [effective, hxy]) (by simp [effective, hxy])

/-- `nonsense` is no option; `REMOVEdiacritics` is one (spelt `RemoveDiacritics`). -/
example : (∀ k ∈ names postFns, sampleEnv.lower k ≠ sampleEnv.lower (u! "nonsense"))
    ∧ effective sampleEnv (names postFns) us!["nonsense", "REMOVEdiacritics"] = us!["removediacritics"] := by
  decide +kernel

/-! ## C04: `param` -/

/-- The four values of `param`. -/
def params : List PyStr := us!["default", "script_code", "lang_code", "lang_name"]

/-- **C04.** An unknown `param` gives `None`, whatever the other arguments. -/
theorem C04_unknown_param_gives_none (E : Env) (src tgt text : PyStr) (nativize : Bool)
    (post pre : List PyStr) (param : PyStr) (h : param ∉ params) :
    process E src tgt text nativize post pre param = .ok none := by
  simp only [params, List.mem_cons, List.not_mem_nil, or_false, not_or] at h
  simp only [process, strEq_false.2 h.1, strEq_false.2 h.2.1, strEq_false.2 h.2.2.1, strEq_false.2 h.2.2.2]

/-- **C04.** A known `param` never gives `None`: the call returns a string or raises. -/
theorem C04_known_param_gives_text (E : Env) (src tgt text : PyStr) (nativize : Bool)
    (post pre : List PyStr) (param : PyStr) (h : param ∈ params) :
    process E src tgt text nativize post pre param ≠ .ok none := by
  have key : ∀ r : Except Exn PyStr, r.map some ≠ .ok none := by
    intro r; cases r <;> simp [Except.map]
  simp only [params, List.mem_cons, List.not_mem_nil, or_false] at h
  rcases h with rfl | rfl | rfl | rfl <;> exact key _

/-- **C04.** Script and language codes are only another way of naming scripts: when they resolve
to two names (none of which is the word `autodetect`) the result is that of the call with these
names. -/
theorem C04_codes_name_scripts (E : Env) (src tgt s t text : PyStr) (nativize : Bool)
    (post pre : List PyStr) (hauto : src ≠ u! "autodetect") :
    (scriptTagPick E src = .ok s → scriptTagPick E tgt = .ok t →
      process E src tgt text nativize post pre (u! "script_code")
        = process E s t text nativize post pre (u! "default"))
    ∧ (langTagPick E src = .ok s → langTagPick E tgt = .ok t →
      process E src tgt text nativize post pre (u! "lang_code")
        = process E s t text nativize post pre (u! "default"))
    ∧ (E.findLang src = some s → E.findLang tgt = some t →
      process E src tgt text nativize post pre (u! "lang_name")
        = process E s t text nativize post pre (u! "lang_code")) := by
  refine ⟨fun h1 h2 => ?_, fun h1 h2 => ?_, fun h1 h2 => ?_⟩
  · show (processScriptTag E src tgt text nativize post pre).map some
      = (processDefault E s t text nativize post pre).map some
    simp only [processScriptTag, strEq_false.2 hauto, h1, h2, Except.map]
  · show (processLangTag E src tgt text nativize post pre).map some
      = (processDefault E s t text nativize post pre).map some
    simp only [processLangTag, strEq_false.2 hauto, h1, h2, Except.map]
  · show (processLangName E src tgt text nativize post pre).map some
      = (processLangTag E s t text nativize post pre).map some
    simp only [processLangName, strEq_false.2 hauto, h1, h2]

/-- Codes that resolve: `Deva` and `Telu` by script code, `hi` and `te` by language code. -/
example : scriptTagPick sampleEnv (u! "Deva") = .ok (u! "Devanagari")
    ∧ scriptTagPick sampleEnv (u! "Telu") = .ok (u! "Telugu")
    ∧ langTagPick sampleEnv (u! "te") = .ok (u! "Telugu") := by decide +kernel

/-! ## C24: pre-options under automatic detection -/

/-- Under automatic detection the caller's pre-options have no effect at all, whatever the
arguments, for `default`, `script_code` and `lang_code`. -/
theorem C24_autodetect_ignores_preoptions (E : Env) (tgt text : PyStr) (nativize : Bool)
    (post pre pre' : List PyStr) (param : PyStr) :
    process E (u! "autodetect") tgt text nativize post pre param
      = process E (u! "autodetect") tgt text nativize post pre' param := by
  simp only [process, processDefault, processScriptTag, processLangTag, processLangName, strEq_refl]

/-- **C24 is violated.**  `process('autodetect', ...)` drops the caller's pre-options: for the text
"हँस", recognised as Devanagari, the option `AnuChandraEqDeva` turns the result "ham̐sa" into "haṃsa"
when the source is named, and has no effect when it is detected. -/
theorem C24_violated :
    autoDetect sampleEnv (u! "हँस") = .ok (u! "Devanagari")
    ∧ process sampleEnv (u! "Devanagari") (u! "IAST") (u! "हँस") false [] us!["AnuChandraEqDeva"] = .ok (some (u! "haṃsa"))
    ∧ process sampleEnv (u! "autodetect") (u! "IAST") (u! "हँस") false [] us!["AnuChandraEqDeva"] = .ok (some (u! "ham̐sa")) := by
  decide +kernel

end Verif
