import Verif.Lib.Linear

/-!
# Conversions between Indic and Roman scripts, piece by piece
-/

namespace Verif

/-- Source scripts without special treatment in `convert`: Indic or Roman scripts with a table,
except the Semitic and Japanese scripts, the ALA-LC and Semitic romanisation standards and Itrans
(whose `##` marks are treated separately). -/
def plainSrc (S : PyStr) : Bool :=
  (pyIn S GM.IndicScripts || pyIn S GM.LatinScripts) && (tblOf S).isSome
  && !(pyIn S GM.SemiticScripts) && !(pyEq S (u! "RomanLoC")) && !(hasKey GM.semiticISO S)
  && !(hasKey indicSemiticMapping S) && !(pyEq S (u! "Hiragana")) && !(pyEq S (u! "Katakana"))
  && !(pyEq S (u! "Itrans")) && !(pyEq S [])

/-- Target scripts without special treatment in `convert`. -/
def plainTgt (T : PyStr) : Bool :=
  (pyIn T GM.IndicScripts || pyIn T GM.LatinScripts) && (tblOf T).isSome
  && !(pyIn T GM.SemiticScripts) && !(pyEq T (u! "RomanLoC")) && !(hasKey GM.semiticISO T)
  && !(pyEq T (u! "Hiragana")) && !(pyEq T (u! "Katakana")) && !(pyEq T (u! "IPA"))
  && !(pyEq T []) && !(pyEq T (u! "Ignore"))

/-- `convert` on plain scripts. -/
def plainConvert (S T : PyStr) (nativize : Bool) : Gen Unit := do
  PreProcess.PreProcess S T [] []
  convertScript S T
  branch nativize (nativization S T []) (pure ())
  PreProcess.retainLatin true
  PostProcess.defaultPost S T nativize [] []

theorem pyIn_nil (x : PyStr) : pyIn x ([] : List PyStr) = false := rfl

theorem hasKey_false {β : Type} {d : List (PyStr × β)} {x : PyStr} (h : hasKey d x = false) :
    dictGet? d x = none := by
  unfold hasKey at h
  split at h
  · cases h
  · assumption

/-- What makes a pair of names free of special treatment, whether the names are known or not. -/
structure SimplePair (S T : PyStr) (nativize : Bool) : Prop where
  ne : S ≠ T
  semS : pyIn S GM.SemiticScripts = false
  locS : pyEq S (u! "RomanLoC") = false
  isoS : hasKey GM.semiticISO S = false
  mapS : hasKey indicSemiticMapping S = false
  hirS : pyEq S (u! "Hiragana") = false
  katS : pyEq S (u! "Katakana") = false
  itrS : pyEq S (u! "Itrans") = false
  nilS : pyEq S [] = false
  locT : pyEq T (u! "RomanLoC") = false
  isoT : hasKey GM.semiticISO T = false
  hirT : pyEq T (u! "Hiragana") = false
  katT : pyEq T (u! "Katakana") = false
  ipaO : (pyEq S (u! "Oriya") && pyEq T (u! "IPA")) = false
  ipaT : (pyEq S (u! "Tamil") && pyEq T (u! "IPA")) = false
  nilT : pyEq T [] = false
  ignT : pyEq T (u! "Ignore") = false
  arab : (pyEq T (u! "Arab") && nativize) = false
  lat : retainsLatin S T = false

theorem convert_simple {S T : PyStr} {nativize : Bool} (h : SimplePair S T nativize) :
    convert S T nativize [] [] = plainConvert S T nativize := by
  obtain ⟨hne, hS3, hS4, hS5, hS6, hS7, hS8, hS9, hS10, hT4, hT5, hT6, hT7, hT8, hT8', hT9, hT10, hR, hL⟩ := h
  have hST : pyEq S T = false := by rw [pyEq_eq]; exact strEq_false.2 hne
  have hA : pyIn S us!["Arab-Ur", "Arab-Pa"] = false := by
    rw [pyIn_eq, strMem_false]
    intro h
    rw [pyIn_eq, strMem_false] at hS3
    simp only [List.mem_cons, List.not_mem_nil, or_false] at h
    rcases h with h | h <;> (subst h; exact hS3 (strMem_iff.1 (by decide +kernel)))
  have eS := hasKey_false hS5
  have eT := hasKey_false hT5
  have eM := hasKey_false hS6
  have hE : pyEq S (u! "") = false := hS10
  have hE' : pyEq T (u! "") = false := hT9
  have e1 : locTargetOther (locTarget ⟨S, T, nativize, [], []⟩) = ⟨S, T, nativize, [], []⟩ := by
    simp only [locTarget, locTargetOther, hT4, Bool.false_and]
  have e2 : locSource ⟨S, T, nativize, [], []⟩ = pure ⟨S, T, nativize, [], []⟩ := by
    simp only [locSource, hS4, Bool.false_and]
  have e3 : locSourceOther ⟨S, T, nativize, [], []⟩ = ⟨S, T, nativize, [], []⟩ := by
    simp only [locSourceOther, hS4, Bool.false_and]
  have e4 : isoTarget (convertN 2) ⟨S, T, nativize, [], []⟩ = pure ⟨S, T, nativize, [], []⟩ := by
    simp only [isoTarget, eT]
  have e5 : isoSource (convertN 2) ⟨S, T, nativize, [], []⟩ = pure ⟨S, T, nativize, [], []⟩ := by
    simp only [isoSource, eS]
  have e6 : earlyReturn ⟨S, T, nativize, [], []⟩ = false := by
    simp only [earlyReturn, hE', hT10, hST, Bool.and_false, Bool.or_false]
  have eM' : mapName indicSemiticMapping S = S := by simp only [mapName, eM]
  have e7 : semiticSwitch ⟨S, T, nativize, [], []⟩ = ⟨S, T, nativize, [], []⟩ := by
    simp only [semiticSwitch, eM']
    generalize (pyIn T GM.SemiticScripts || hasKey GM.semiticISO T) = b
    cases b <;> simp only [hS3, hS5, hS6, eM', Bool.false_and, Bool.or_false] <;> cases nativize <;> rfl
  have e8 : markers ⟨S, T, nativize, [], []⟩ = pure () := by
    simp only [markers, hA, hS3, Bool.false_and, Bool.and_false]
    rfl
  have e9 : sameScript ⟨S, T, nativize, [], []⟩ = ([], ⟨S, T, nativize, [], []⟩) := by
    simp only [sameScript, hST, Bool.false_and]
  have e10 : indicDandas ⟨S, T, nativize, [], []⟩ = pure ⟨S, T, nativize, [], []⟩ := by
    simp only [indicDandas, pyIn_nil]
  have e11 : optionSwitches ⟨S, T, nativize, [], []⟩ = pure ⟨S, T, nativize, [], []⟩ := by
    simp only [optionSwitches, pyIn_nil, Bool.false_and, Bool.not_false, Bool.and_true]
    rfl
  have e12 : beforeConversion ⟨S, T, nativize, [], []⟩ = pure (false, S) := by
    simp only [beforeConversion, pyIn_nil, hL, hS7, hS8, Bool.false_and, Bool.or_false]
    rfl
  have e13 : mainPart ⟨S, T, nativize, [], []⟩ [] false S = (do
      convertScript S T
      branch nativize (nativization S T []) (pure ())
      PreProcess.retainLatin true
      PostProcess.defaultPost S T nativize [] []) := by
    have hc : conversion S T = convertScript S T := by simp only [conversion, hS9, branch_false]
    simp only [mainPart, hT6, hT7, hT8, hT8', hc, hS10, pyIn_nil, Bool.and_assoc, hR, Bool.and_false, Bool.false_and,
      Bool.or_false, branch_false]
    rfl
  show convertBody (convertN 2) ⟨S, T, nativize, [], []⟩ = _
  funext k
  simp only [convertBody, convertTail, plainConvert, Gen.bind_apply, Gen.pure_apply, e1, e2, e3, e4,
    e5, e6, e7, e8, e9, e10, e11, e12, e13, branch_false]

theorem convert_plain {S T : PyStr} (hS : plainSrc S = true) (hT : plainTgt T = true)
    (hne : S ≠ T) (nativize : Bool) : convert S T nativize [] [] = plainConvert S T nativize := by
  simp only [plainSrc, plainTgt, Bool.and_eq_true, Bool.not_eq_true'] at hS hT
  obtain ⟨⟨⟨⟨⟨⟨⟨⟨⟨hS1, hS2⟩, hS3⟩, hS4⟩, hS5⟩, hS6⟩, hS7⟩, hS8⟩, hS9⟩, hS10⟩ := hS
  obtain ⟨⟨⟨⟨⟨⟨⟨⟨⟨hT1, hT2⟩, hT3⟩, hT4⟩, hT5⟩, hT6⟩, hT7⟩, hT8⟩, hT9⟩, hT10⟩ := hT
  have hm : pyIn S us!["Hiragana", "Katakana"] = false := by
    rw [pyIn_eq, strMem_false]
    rw [pyEq_eq, strEq_false] at hS7 hS8
    simp [hS7, hS8]
  have hR : pyEq T (u! "Arab") = false := by
    rw [pyEq_eq, strEq_false]
    intro h
    subst h
    revert hT3; decide +kernel
  refine convert_simple ⟨hne, hS3, hS4, hS5, hS6, hS7, hS8, hS9, hS10, hT4, hT5, hT6, hT7, by rw [hT8, Bool.and_false],
    by rw [hT8, Bool.and_false], hT9, hT10, by rw [hR, Bool.false_and], ?_⟩
  simp only [retainsLatin, hS3, hT3, hm, Bool.and_false, Bool.false_and, Bool.or_false]

/-- A script converted to itself with nativisation takes a detour through Devanagari. -/
theorem convert_simple_self {S : PyStr} (hS3 : pyIn S GM.SemiticScripts = false) (hS4 : pyEq S (u! "RomanLoC") = false)
    (hS5 : hasKey GM.semiticISO S = false) (hS6 : hasKey indicSemiticMapping S = false)
    (hS7 : pyEq S (u! "Hiragana") = false) (hS8 : pyEq S (u! "Katakana") = false) (hS9 : pyEq S (u! "Itrans") = false)
    (hS10 : pyEq S [] = false) (hT8 : pyEq S (u! "IPA") = false) (hT10 : pyEq S (u! "Ignore") = false) :
    convert S S true [] [] = (do
      PreProcess.PreProcess S (u! "Devanagari") [] []
      convertScript S (u! "Devanagari")
      convertScript (u! "Devanagari") S
      nativization S S []
      PreProcess.retainLatin true
      PostProcess.defaultPost S S true [] []) := by
  have hSS : pyEq S S = true := strEq_iff.2 rfl
  have hm : pyIn S us!["Hiragana", "Katakana"] = false := by
    rw [pyIn_eq, strMem_false]
    rw [pyEq_eq, strEq_false] at hS7 hS8
    simp [hS7, hS8]
  have hA : pyIn S us!["Arab-Ur", "Arab-Pa"] = false := by
    rw [pyIn_eq, strMem_false]
    intro h
    rw [pyIn_eq, strMem_false] at hS3
    simp only [List.mem_cons, List.not_mem_nil, or_false] at h
    rcases h with h | h <;> (subst h; exact hS3 (strMem_iff.1 (by decide +kernel)))
  have hR : pyEq S (u! "Arab") = false := by
    rw [pyEq_eq, strEq_false]
    intro h
    subst h
    revert hS3; decide +kernel
  have eS := hasKey_false hS5
  have eM := hasKey_false hS6
  have e1 : locTargetOther (locTarget ⟨S, S, true, [], []⟩) = ⟨S, S, true, [], []⟩ := by
    simp only [locTarget, locTargetOther, hS4, Bool.false_and]
  have e2 : locSource ⟨S, S, true, [], []⟩ = pure ⟨S, S, true, [], []⟩ := by
    simp only [locSource, hS4, Bool.false_and]
  have e3 : locSourceOther ⟨S, S, true, [], []⟩ = ⟨S, S, true, [], []⟩ := by
    simp only [locSourceOther, hS4, Bool.false_and]
  have e4 : isoTarget (convertN 2) ⟨S, S, true, [], []⟩ = pure ⟨S, S, true, [], []⟩ := by
    simp only [isoTarget, eS]
  have e5 : isoSource (convertN 2) ⟨S, S, true, [], []⟩ = pure ⟨S, S, true, [], []⟩ := by
    simp only [isoSource, eS]
  have hE : pyEq S (u! "") = false := hS10
  have e6 : earlyReturn ⟨S, S, true, [], []⟩ = false := by
    simp only [earlyReturn, hE, hT10, Bool.not_true, Bool.and_false, Bool.false_and, Bool.or_false]
  have eM' : mapName indicSemiticMapping S = S := by simp only [mapName, eM]
  have e7 : semiticSwitch ⟨S, S, true, [], []⟩ = ⟨S, S, true, [], []⟩ := by
    simp only [semiticSwitch, hS3, hS5, hS6, Bool.false_and, Bool.or_false]
  have e8 : markers ⟨S, S, true, [], []⟩ = pure () := by
    simp only [markers, hA, hS3, Bool.false_and, Bool.and_false]
    rfl
  have e9 : sameScript ⟨S, S, true, [], []⟩ = (S, ⟨S, (u! "Devanagari"), true, [], []⟩) := by
    simp only [sameScript, hSS, hS7, hS8, hS3, Bool.not_false, Bool.and_true]
  have e10 : indicDandas ⟨S, (u! "Devanagari"), true, [], []⟩ = pure ⟨S, (u! "Devanagari"), true, [], []⟩ := by
    simp only [indicDandas, pyIn_nil]
  have e11 : optionSwitches ⟨S, (u! "Devanagari"), true, [], []⟩ = pure ⟨S, (u! "Devanagari"), true, [], []⟩ := by
    simp only [optionSwitches, pyIn_nil, Bool.false_and, Bool.not_false, Bool.and_true]
    rfl
  have hD : pyIn (u! "Devanagari") GM.SemiticScripts = false := by decide +kernel
  have e12 : beforeConversion ⟨S, (u! "Devanagari"), true, [], []⟩ = pure (false, S) := by
    have : retainsLatin S (u! "Devanagari") = false := by
      simp only [retainsLatin, hS3, hD, hm, Bool.and_false, Bool.false_and, Bool.or_false]
    simp only [beforeConversion, pyIn_nil, this, hS7, hS8, Bool.false_and, Bool.or_false]
    rfl
  have e13 : mainPart ⟨S, (u! "Devanagari"), true, [], []⟩ S false S = (do
      convertScript S (u! "Devanagari")
      convertScript (u! "Devanagari") S
      nativization S S []
      PreProcess.retainLatin true
      PostProcess.defaultPost S S true [] []) := by
    have hc : conversion S (u! "Devanagari") = convertScript S (u! "Devanagari") := by
      simp only [conversion, hS9, branch_false]
    have d1 : pyEq (u! "Devanagari") (u! "Hiragana") = false := by decide
    have d2 : pyEq (u! "Devanagari") (u! "Katakana") = false := by decide
    have d3 : pyEq (u! "Devanagari") (u! "IPA") = false := by decide
    simp only [mainPart, d1, d2, d3, hT8, hc, hSS, pyIn_nil, hR, Bool.and_false, Bool.false_and,
      Bool.or_false, branch_false, branch_true]
    rfl
  show convertBody (convertN 2) ⟨S, S, true, [], []⟩ = _
  funext k
  simp only [convertBody, convertTail, Gen.bind_apply, Gen.pure_apply, e1, e2, e3, e4,
    e5, e6, e7, e8, e9, e10, e11, e12, e13, branch_false]

/-- The same for plain scripts. -/
theorem convert_self {S : PyStr} (hS : plainSrc S = true) (hT : plainTgt S = true) :
    convert S S true [] [] = (do
      PreProcess.PreProcess S (u! "Devanagari") [] []
      convertScript S (u! "Devanagari")
      convertScript (u! "Devanagari") S
      nativization S S []
      PreProcess.retainLatin true
      PostProcess.defaultPost S S true [] []) := by
  simp only [plainSrc, plainTgt, Bool.and_eq_true, Bool.not_eq_true'] at hS hT
  obtain ⟨⟨⟨⟨⟨⟨⟨⟨⟨hS1, hS2⟩, hS3⟩, hS4⟩, hS5⟩, hS6⟩, hS7⟩, hS8⟩, hS9⟩, hS10⟩ := hS
  obtain ⟨⟨⟨⟨⟨⟨⟨⟨⟨hT1, hT2⟩, hT3⟩, hT4⟩, hT5⟩, hT6⟩, hT7⟩, hT8⟩, hT9⟩, hT10⟩ := hT
  exact convert_simple_self hS3 hS4 hS5 hS6 hS7 hS8 hS9 hS10 hT8 hT10

end Verif
