import Verif.Lib.ItransPre
import Verif.Lib.ReadTable
import Verif.Lib.PlainUse

/-!
# ITRANS: the conversion
-/

namespace Verif

/-- The conversion from ITRANS, in pieces. -/
theorem convert_itrans {T : PyStr} (hT : plainTgt T = true) (hne : u! "Itrans" ≠ T) (nativize : Bool) :
    convert (u! "Itrans") T nativize [] [] = (do
      PreProcess.PreProcess (u! "Itrans") T [] []
      conversion (u! "Itrans") T
      branch nativize (nativization (u! "Itrans") T []) (pure ())
      PreProcess.retainLatin true
      PostProcess.defaultPost (u! "Itrans") T nativize [] []) := by
  have hS3 : pyIn (u! "Itrans") GM.SemiticScripts = false := by decide +kernel
  have hS4 : pyEq (u! "Itrans") (u! "RomanLoC") = false := by decide
  have hS5 : hasKey GM.semiticISO (u! "Itrans") = false := by decide +kernel
  have hS6 : hasKey indicSemiticMapping (u! "Itrans") = false := by decide +kernel
  have hS7 : pyEq (u! "Itrans") (u! "Hiragana") = false := by decide
  have hS8 : pyEq (u! "Itrans") (u! "Katakana") = false := by decide
  have hm : pyIn (u! "Itrans") us!["Hiragana", "Katakana"] = false := by decide
  have hA : pyIn (u! "Itrans") us!["Arab-Ur", "Arab-Pa"] = false := by decide
  have hE : pyEq (u! "Itrans") (u! "") = false := by decide
  have hE0 : pyEq (u! "Itrans") [] = false := by decide
  have hO : pyEq (u! "Itrans") (u! "Oriya") = false := by decide
  have hTa : pyEq (u! "Itrans") (u! "Tamil") = false := by decide
  generalize hS : (u! "Itrans") = S at *
  have hST : pyEq S T = false := by rw [pyEq_eq]; exact strEq_false.2 hne
  simp only [plainTgt, Bool.and_eq_true, Bool.not_eq_true'] at hT
  obtain ⟨⟨⟨⟨⟨⟨⟨⟨⟨hT1, hT2⟩, hT3⟩, hT4⟩, hT5⟩, hT6⟩, hT7⟩, hT8⟩, hT9⟩, hT10⟩ := hT
  have hR : pyEq T (u! "Arab") = false := by
    rw [pyEq_eq, strEq_false]
    intro h
    subst h
    revert hT3; decide +kernel
  have hL : retainsLatin S T = false := by
    simp only [retainsLatin, hS3, hT3, hm, Bool.and_false, Bool.false_and, Bool.or_false]
  have eS := hasKey_false hS5
  have eT := hasKey_false hT5
  have eM := hasKey_false hS6
  have hE' : pyEq T (u! "") = false := hT9
  have e1 : locTargetOther (locTarget ⟨S, T, nativize, [], []⟩) = ⟨S, T, nativize, [], []⟩ := by
    simp only [locTarget, locTargetOther, hT4, Bool.false_and]
  have e2 : locSource ⟨S, T, nativize, [], []⟩ = pure ⟨S, T, nativize, [], []⟩ := by
    simp only [locSource, hS4, Bool.false_and]
  have e3 : locSourceOther ⟨S, T, nativize, [], []⟩ = ⟨S, T, nativize, [], []⟩ := by
    simp only [locSourceOther, hS4, Bool.false_and]
  have e4 : isoTarget (convertN 2) ⟨S, T, nativize, [], []⟩ = pure ⟨S, T, nativize, [], []⟩ := by
    simp only [isoTarget, eT]
  have e5 : isoSource (convertN 2) ⟨S, T, nativize, [], []⟩ = pure ⟨S, T, nativize, [], []⟩ := by
    simp only [isoSource, eS]
  have e6 : earlyReturn ⟨S, T, nativize, [], []⟩ = false := by
    simp only [earlyReturn, hE', hT10, hST, Bool.and_false, Bool.or_false]
  have eM' : mapName indicSemiticMapping S = S := by simp only [mapName, eM]
  have e7 : semiticSwitch ⟨S, T, nativize, [], []⟩ = ⟨S, T, nativize, [], []⟩ := by
    simp only [semiticSwitch, eM']
    generalize (pyIn T GM.SemiticScripts || hasKey GM.semiticISO T) = b
    cases b <;> simp only [hS3, hS5, hS6, eM', Bool.false_and, Bool.or_false] <;> cases nativize <;> rfl
  have e8 : markers ⟨S, T, nativize, [], []⟩ = pure () := by
    simp only [markers, hA, hS3, Bool.false_and, Bool.and_false]
    rfl
  have e9 : sameScript ⟨S, T, nativize, [], []⟩ = ([], ⟨S, T, nativize, [], []⟩) := by
    simp only [sameScript, hST, Bool.false_and]
  have e10 : indicDandas ⟨S, T, nativize, [], []⟩ = pure ⟨S, T, nativize, [], []⟩ := by
    simp only [indicDandas, pyIn_nil]
  have e11 : optionSwitches ⟨S, T, nativize, [], []⟩ = pure ⟨S, T, nativize, [], []⟩ := by
    simp only [optionSwitches, pyIn_nil, Bool.false_and, Bool.not_false, Bool.and_true]
    rfl
  have e12 : beforeConversion ⟨S, T, nativize, [], []⟩ = pure (false, S) := by
    simp only [beforeConversion, pyIn_nil, hL, hS7, hS8, Bool.false_and, Bool.or_false]
    rfl
  have e13 : mainPart ⟨S, T, nativize, [], []⟩ [] false S = (do
      conversion S T
      branch nativize (nativization S T []) (pure ())
      PreProcess.retainLatin true
      PostProcess.defaultPost S T nativize [] []) := by
    simp only [mainPart, hT6, hT7, hT8, hE0, pyIn_nil, Bool.and_assoc, hR, Bool.and_false, Bool.false_and,
      Bool.or_false, branch_false]
    rfl
  show convertBody (convertN 2) ⟨S, T, nativize, [], []⟩ = _
  funext k
  simp only [convertBody, convertTail, Gen.bind_apply, Gen.pure_apply, e1, e2, e3, e4,
    e5, e6, e7, e8, e9, e10, e11, e12, e13, branch_false]

/-! ## No exceptions -/

theorem safe_of_good {N : CharSet} {kp inr : Bool} {p : Prog} (h : (goodAna N kp inr).ok p = true) : p.safe false = true :=
  (Prog.good_iff.1 (show p.good N kp inr = true from h)).1

theorem itrans_src : srcOk (goodAna neu false false) (u! "Itrans") = true := by decide +kernel

theorem tgtOk_good {T : PyStr} (hT : plainTgt T = true) : tgtOk (goodAna neu false false) T = true := by
  have h := tgtFull_all hT
  unfold tgtFull at h
  simp only [Bool.and_eq_true] at h
  exact tgtOk_mono ((mainAna_le (kp' := false) (inr' := false) (by simp) (by simp)).trans (Ana.and_left _ _)) h.1.1.1.1

theorem constOk_good : constOk (goodAna neu false false) = true :=
  constOk_mono ((mainAna_le (kp' := false) (inr' := false) (by simp) (by simp)).trans (Ana.and_left _ _)) constOk_main

theorem kindOf_itrans {T : PyStr} (hT : plainTgt T = true) : ∃ kd, kindOf (u! "Itrans") T = some kd ∧ kd ≠ .IL := by
  have h1 : pyIn (u! "Itrans") GM.LatinScripts = true := by decide +kernel
  have h2 : pyIn (u! "Itrans") GM.IndicScripts = false := by decide +kernel
  simp only [plainTgt, Bool.and_eq_true, Bool.not_eq_true', Bool.or_eq_true] at hT
  obtain ⟨⟨⟨⟨⟨⟨⟨⟨⟨hT1, hT2⟩, hT3⟩, hT4⟩, hT5⟩, hT6⟩, hT7⟩, hT8⟩, hT9⟩, hT10⟩ := hT
  simp only [kindOf, h1, h2]
  cases a : pyIn T GM.IndicScripts <;> cases b : pyIn T GM.LatinScripts <;> simp_all

/-- The conversion from ITRANS: parts between marks are skipped. -/
def itransMid (T : PyStr) (kd : Kind) : Gen Unit :=
  whenDyn (.has (u! "##")) (onEvens (u! "##") (scriptPieces (u! "Itrans") T kd)) (scriptPieces (u! "Itrans") T kd)

theorem itransMid_prog (T : PyStr) (kd : Kind) : (itransMid T kd).prog =
    .ite (.has (u! "##")) (.evens (u! "##") (scriptPieces (u! "Itrans") T kd).prog .done) (scriptPieces (u! "Itrans") T kd).prog .done := rfl

theorem lin_itransMid (T : PyStr) (kd : Kind) : Lin (itransMid T kd) := by unfold itransMid; lin

theorem convert_itrans_pieces {T : PyStr} (hT : plainTgt T = true) (hne : u! "Itrans" ≠ T) {kd : Kind}
    (hk : kindOf (u! "Itrans") T = some kd) (nat : Bool) :
    convert (u! "Itrans") T nat [] [] = (do
      PreProcess.PreProcess (u! "Itrans") T [] []
      itransMid T kd
      finishT T nat) := by
  obtain ⟨h1, h2⟩ := srcOk_tbl itrans_src
  obtain ⟨h3, h4, h5, -⟩ := tgtOk_tbl (tgtOk_good hT)
  have hI : pyEq (u! "Itrans") (u! "Itrans") = true := by decide
  rw [convert_itrans hT hne, finishT_src h5]
  unfold conversion itransMid
  rw [hI, branch_true, convertScript_pieces h1 h3 h2 h4 hk]

theorem itrans_safe {T : PyStr} (hT : plainTgt T = true) (hne : u! "Itrans" ≠ T) (nat : Bool) :
    (convert (u! "Itrans") T nat [] []).prog.safe false = true := by
  obtain ⟨kd, hk, hk'⟩ := kindOf_itrans hT
  obtain ⟨-, -, -, h6, h7⟩ := tgtOk_tbl (tgtOk_good hT)
  rw [convert_itrans_pieces hT hne hk, (lin_preProcess _ _ _ _).prog_seq, (lin_itransMid _ _).prog_seq]
  refine Prog.safe_append (safe_of_good (pre_good itrans_src h6)) (Prog.safe_append ?_ (safe_of_good (h7 nat)))
  have := safe_of_good (script_good constOk_good itrans_src (tgtOk_good hT) hk fun h => absurd h hk')
  rw [itransMid_prog]
  simp only [Prog.safe, this]

theorem itrans_listed : u! "Itrans" ∈ GM.IndicScripts ++ GM.LatinScripts := strMem_iff.1 (by decide +kernel)

/-! ## Marked text -/

theorem splitGo_mark {a r : PyStr} (h : 35 ∉ a) (acc : PyStr) :
    splitGo (u! "##") 0 acc (a ++ (u! "##") ++ r) = (acc.reverse ++ a) :: pySplit r (u! "##") := by
  induction a generalizing acc with
  | nil =>
    show splitGo [35, 35] 0 acc (35 :: 35 :: r) = (acc.reverse ++ []) :: splitGo [35, 35] 0 [] r
    rw [List.append_nil]
    simp [splitGo, List.isPrefixOf]
  | cons c a ih =>
    have hc : 35 ≠ c := fun h' => h (by rw [h']; exact List.mem_cons_self)
    have ha : 35 ∉ a := fun h' => h (List.mem_cons_of_mem _ h')
    show splitGo [35, 35] 0 acc (c :: (a ++ (u! "##") ++ r)) = _
    have hp : List.isPrefixOf [35, 35] (c :: (a ++ (u! "##") ++ r)) = false := by
      simp only [List.isPrefixOf, Bool.and_eq_false_imp, beq_iff_eq]
      intro h'; exact absurd h' hc
    simp only [splitGo, hp]
    rw [ih ha (c :: acc)]
    simp

theorem pySplit_mark {a r : PyStr} (h : 35 ∉ a) : pySplit (a ++ (u! "##") ++ r) (u! "##") = a :: pySplit r (u! "##") := by
  have := splitGo_mark (r := r) h []
  simpa [pySplit] using this

/-- The pieces of a marked text. -/
theorem evens_marked {f : PyStr → Except Exn PyStr} {g g' : PyStr → PyStr} {l : List (PyStr × PyStr)} {z r : PyStr}
    (hl : ∀ p ∈ l, 35 ∉ g p.1 ∧ 35 ∉ p.2) (hz : 35 ∉ g z)
    (hg : ∀ a, (a = z ∨ ∃ p ∈ l, a = p.1) → ∀ b, f (g a) = .ok b → b = g' a)
    (h : evensRun f true (pySplit (markedText (l.map fun p => (g p.1, p.2)) (g z)) (u! "##")) = .ok r) :
    r = unmarkedText (l.map fun p => (g' p.1, p.2)) (g' z) := by
  induction l generalizing r with
  | nil =>
    have : pySplit (g z) (u! "##") = [g z] := pySplit_of_not_infix (fun hi => hz (hi.subset (by simp)))
    simp only [List.map_nil, markedText, this, evensRun] at h
    cases hf : f (g z) with
    | error e => rw [hf] at h; cases h
    | ok b =>
      rw [hf] at h
      cases h
      rw [List.append_nil]
      exact hg z (.inl rfl) b hf
  | cons p l ih =>
    obtain ⟨a, p⟩ := p
    obtain ⟨h1, h2⟩ := hl _ List.mem_cons_self
    have e : markedText (((a, p) :: l).map fun p => (g p.1, p.2)) (g z) =
        g a ++ (u! "##") ++ (p ++ (u! "##") ++ markedText (l.map fun p => (g p.1, p.2)) (g z)) := by
      simp [markedText]
    rw [e, pySplit_mark h1, pySplit_mark h2] at h
    simp only [evensRun] at h
    cases hf : f (g a) with
    | error e => rw [hf] at h; cases h
    | ok b =>
      cases hr : evensRun f true (pySplit (markedText (l.map fun p => (g p.1, p.2)) (g z)) (u! "##")) with
      | error e => rw [hf, hr] at h; cases h
      | ok c =>
        rw [hf, hr] at h
        cases h
        rw [ih (fun q hq => hl q (List.mem_cons_of_mem _ hq))
          (fun a ha => hg a (ha.imp id fun ⟨q, hq, e⟩ => ⟨q, List.mem_cons_of_mem _ hq, e⟩)) hr,
          hg a (.inr ⟨_, List.mem_cons_self, rfl⟩) b hf]
        simp [unmarkedText]

theorem marked_has {l : List (PyStr × PyStr)} {z : PyStr} (h : l ≠ []) : (u! "##") <:+: markedText l z := by
  cases l with
  | nil => exact absurd rfl h
  | cons p l => exact ⟨p.1, p.2 ++ (u! "##") ++ markedText l z, by obtain ⟨a, p⟩ := p; simp [markedText]⟩

theorem mem_marked {l : List (PyStr × PyStr)} {z : PyStr} {c : Nat} (h : c ∈ markedText l z) :
    c = 35 ∨ c ∈ z ∨ ∃ p ∈ l, c ∈ p.1 ∨ c ∈ p.2 := by
  induction l with
  | nil => exact .inr (.inl h)
  | cons p l ih =>
    obtain ⟨a, p⟩ := p
    simp only [markedText, List.mem_append] at h
    have hm : c ∈ (u! "##") → c = 35 := by intro h; simpa using h
    rcases h with (((h | h) | h) | h) | h
    · exact .inr (.inr ⟨_, List.mem_cons_self, .inl h⟩)
    · exact .inl (hm h)
    · exact .inr (.inr ⟨_, List.mem_cons_self, .inr h⟩)
    · exact .inl (hm h)
    · rcases ih h with h | h | ⟨q, hq, h⟩
      · exact .inl h
      · exact .inr (.inl h)
      · exact .inr (.inr ⟨q, List.mem_cons_of_mem _ hq, h⟩)

theorem infix_unmarked {l : List (PyStr × PyStr)} {z a : PyStr} (h : a = z ∨ ∃ p ∈ l, a = p.1) : a <:+: unmarkedText l z := by
  induction l with
  | nil =>
    rcases h with rfl | ⟨p, hp, -⟩
    · exact List.infix_refl _
    · cases hp
  | cons p l ih =>
    obtain ⟨b, p⟩ := p
    have step : a <:+: unmarkedText l z → a <:+: unmarkedText ((b, p) :: l) z := fun h => h.trans ⟨b ++ p, [], by simp [unmarkedText]⟩
    rcases h with rfl | ⟨q, hq, rfl⟩
    · exact step (ih (.inl rfl))
    · rcases List.mem_cons.1 hq with rfl | hq
      · exact ⟨[], p ++ unmarkedText l z, by simp [unmarkedText]⟩
      · exact step (ih (.inr ⟨q, hq, rfl⟩))

theorem CoreText.infix {e : CoreEntry} {s t : PyStr} (h : CoreText e s) (ht : t <:+: s) : CoreText e t :=
  ⟨fun c hc => h.chars c (ht.subset hc), fun f hf hi => h.free f hf (hi.trans ht)⟩

/-! ## Reading -/

/-- The characters of marked text. -/
def itransChars : PyStr := romanItrans.readChars ++ plainChars

def doublePats : List PyStr := us!["([aAiuUeoEO])([R]){2}([iI])", "([aAiuUeoEO])([L]){2}([iI])"]

def vowelItems : List ClsItem := [.rng 97 97, .rng 65 65, .rng 105 105, .rng 117 117, .rng 85 85, .rng 101 101, .rng 111 111, .rng 69 69, .rng 79 79]

def kShRules : List (PyStr × PyStr) := [(u! "kS", u! "kSh"), (u! "w", u! "v"), (u! "|", u! "."), (u! "kShh", u! "kSh")]

def itransPreOk (T : PyStr) : Bool :=
  withNat (maskOf itransChars) fun m =>
    (PreProcess.PreProcess (u! "Itrans") T [] []).prog.applies2 (mixSet m) itransVariants doublePats kShRules

theorem itransPre_deva : itransPreOk (u! "Devanagari") = true := by decide +kernel
theorem itransPre_tamil : itransPreOk (u! "Tamil") = true := by decide +kernel
theorem itrans_rules : readRulesOk romanItrans = true := by decide +kernel
theorem itrans_macrons : macronsOk romanItrans = true := by decide +kernel
theorem itrans_script : (withNat (maskOf romanItrans.readChars) fun m =>
    (preLI (u! "Itrans")).prog.still (mixSet m) (readAvoid romanItrans) (keptHosts romanItrans)) = true := by decide +kernel
theorem itrans_om : readOmOk romanItrans = true := by decide +kernel

theorem kSh_rules {t : PyStr} (hk : ∀ a b, t = a ++ (u! "kS") ++ b → b.head? = some 104) (hw : 119 ∉ t) (hp : 124 ∉ t) :
    applyRules kShRules t = t := by
  have hm : ∀ c ∈ pyReplace t (u! "kS") (u! "kSh"), c ∈ t ∨ c ∈ (u! "kSh") := fun c hc => pyReplace_mem hc
  have h1 : 119 ∉ pyReplace t (u! "kS") (u! "kSh") := by
    intro h
    rcases hm _ h with h | h
    · exact hw h
    · revert h; decide
  have h2 : 124 ∉ pyReplace t (u! "kS") (u! "kSh") := by
    intro h
    rcases hm _ h with h | h
    · exact hp h
    · revert h; decide
  show pyReplace (pyReplace (pyReplace (pyReplace t (u! "kS") (u! "kSh")) (u! "w") (u! "v")) (u! "|") (u! ".")) (u! "kShh") (u! "kSh") = t
  rw [pyReplace_of_not_infix (x := u! "w") (by simp) (fun h => h1 (h.subset (by simp))),
    pyReplace_of_not_infix (x := u! "|") (by simp) (fun h => h2 (h.subset (by simp)))]
  exact kSh_undo hk

theorem mixSet_of {l : PyStr} {c : Nat} (h : c ∈ l ∨ isNeutral c = true) : (mixSet (maskOf l)).mem c = true := by
  show (match maskMem (maskOf l) c with | true => true | false => neuMem c) = true
  rcases h with h1 | h1
  · rw [maskMem_eq, maskOf_mem h1]
  · rw [neuMem_eq, h1]; split <;> rfl

theorem itrans_pre {E : Env} {T t s : PyStr} (hT : itransPreOk T = true) (hc : ∀ c ∈ t, c ∈ itransChars ∨ isNeutral c = true)
    (hp : PlainItrans t) (hr : (PreProcess.PreProcess (u! "Itrans") T [] []).prog.run E t = .ok s) : s = t := by
  unfold itransPreOk at hT
  rw [withNat_eq] at hT
  have hin : InCore (mixSet (maskOf itransChars)) itransVariants t := by
    exact ⟨fun c hc' => mixSet_of (hc c hc'), hp.variants⟩
  have hv : ∀ f, strMem f itransVariants = true → ¬ f <:+: t := fun f hf => hp.variants f (strMem_iff.1 hf)
  have hw : 119 ∉ t := by
    intro h
    refine hv (u! "w") (by decide +kernel) ?_
    obtain ⟨a, b, rfl⟩ := List.append_of_mem h
    exact ⟨a, b, by simp⟩
  have hpipe : 124 ∉ t := by
    intro h
    rcases hc _ h with h1 | h1
    · revert h1
      exact natMem_false (by decide +kernel)
    · revert h1; decide
  refine Prog.applies2_sound hT hin (kSh_rules hp.kSh hw hpipe) ?_ hr
  intro p hp' tm r t' hcs
  simp only [doublePats, List.mem_cons, List.not_mem_nil, or_false] at hp'
  have key : ∀ x : Nat, parseRe p = some (doubleRe vowelItems x, 3) → ¬ [x, x, 105] <:+: t → ¬ [x, x, 73] <:+: t →
      reSubC E.uni r t' t = t := by
    intro x hx h1 h2
    unfold compileSub at hcs
    rw [hx] at hcs
    simp only at hcs
    split at hcs
    · cases hcs
    · cases hcs
      exact double_never h1 h2
  rcases hp' with rfl | rfl
  · exact key 82 (by decide +kernel) (hv _ (by decide +kernel)) (hv _ (by decide +kernel))
  · exact key 76 (by decide +kernel) (hv _ (by decide +kernel)) (hv _ (by decide +kernel))

/-- Marked text is read: what is outside the marks is converted. -/
theorem itrans_convert {E : Env} {e e' : CoreEntry} (fS : LetterFacts e) (fT : CoreFacts e') (hcl : clearOfInter e' = true)
    (hsh : shortAlike e' = true) {l : List (PyStr × PyStr)} {z : PyStr}
    (hl : ∀ p ∈ l, Readable e romanItrans p.1 ∧ 35 ∉ romanise e.script (u! "Itrans") p.1 ∧ 35 ∉ p.2 ∧
      ∀ c ∈ p.2, c ∈ plainChars ∨ isNeutral c = true)
    (hz : Readable e romanItrans z) (hz' : 35 ∉ romanise e.script (u! "Itrans") z)
    (hp : PlainItrans (markedText (l.map fun p => (romanise e.script (u! "Itrans") p.1, p.2)) (romanise e.script (u! "Itrans") z)))
    (hc' : CoreText e' (unmarkedText (l.map fun p => (respell e.script e'.script p.1, p.2)) (respell e.script e'.script z)))
    {nat : Bool} (hn : nat = true →
      NativeText e' (unmarkedText (l.map fun p => (respell e.script e'.script p.1, p.2)) (respell e.script e'.script z)))
    {t : PyStr} (hr : (convert (u! "Itrans") e'.script nat [] []).prog.run E
      (markedText (l.map fun p => (romanise e.script (u! "Itrans") p.1, p.2)) (romanise e.script (u! "Itrans") z)) = .ok t) :
    t = unmarkedText (l.map fun p => (respell e.script e'.script p.1, p.2)) (respell e.script e'.script z) := by
  have hlat : u! "Itrans" ∈ GM.LatinScripts := strMem_iff.1 (by decide +kernel)
  have hne : u! "Itrans" ≠ e'.script := by
    intro he
    have := indic_notLatin fT.indic
    rw [← he, pyIn_of_mem hlat] at this
    cases this
  rw [convert_itrans_pieces (tgt_plain fT.tgt) hne (kindOf_mem_LI hlat fT.indic)] at hr
  obtain ⟨s1, r1, q1⟩ := run_seq (lin_preProcess _ _ _ _) hr
  have rd : ∀ {s : PyStr}, Readable e romanItrans s → ∀ c ∈ romanise e.script (u! "Itrans") s, c ∈ itransChars ∨ isNeutral c = true :=
    fun h c hc => (read_char h hc).imp (List.mem_append_left _) id
  have hch : ∀ c ∈ markedText (l.map fun p => (romanise e.script (u! "Itrans") p.1, p.2)) (romanise e.script (u! "Itrans") z),
      c ∈ itransChars ∨ isNeutral c = true := by
    intro c hc
    rcases mem_marked hc with rfl | h | ⟨p, hp, h⟩
    · exact .inl (List.mem_append_right _ (natMem_iff.1 (by decide +kernel)))
    · exact rd hz c h
    · obtain ⟨q, hq, rfl⟩ := List.mem_map.1 hp
      rcases h with h | h
      · exact rd (hl q hq).1 c h
      · exact ((hl q hq).2.2.2 c h).imp (List.mem_append_right _) id
  have e1 : s1 = markedText (l.map fun p => (romanise e.script (u! "Itrans") p.1, p.2)) (romanise e.script (u! "Itrans") z) := by
    rcases fT.pre with h | h
    · rw [preProcess_tgt h] at r1
      exact itrans_pre itransPre_deva hch hp r1
    · rw [preProcess_tgt h] at r1
      exact itrans_pre itransPre_tamil hch hp r1
  subst e1
  have hR : ReadRules romanItrans := readRules (by decide +kernel) itrans_rules
  have hS := itrans_script
  rw [withNat_eq] at hS
  have hK : E.KeepsSpelt romanItrans := fun h => absurd rfl h
  have hseg : ∀ s, Readable e romanItrans s → CoreText e' (respell e.script e'.script s) → ∀ b,
      (scriptPieces (u! "Itrans") e'.script .LI).prog.run E (romanise e.script (u! "Itrans") s) = .ok b →
      b = respell e.script e'.script s :=
    fun s h1 h2 b hb => read_script (r := romanItrans) fS fT hcl hsh hR itrans_macrons hS hK h1 (omStill_of itrans_om itrans_macrons h1) h2 hb
  obtain ⟨s2, r2, q2⟩ := run_seq (lin_itransMid _ _) q1
  have e2 : s2 = unmarkedText (l.map fun p => (respell e.script e'.script p.1, p.2)) (respell e.script e'.script z) := by
    have hcore : ∀ s, (s = z ∨ ∃ p ∈ l, s = p.1) → CoreText e' (respell e.script e'.script s) := by
      intro s hs
      refine hc'.infix (infix_unmarked ?_)
      rcases hs with rfl | ⟨p, hp, rfl⟩
      · exact .inl rfl
      · exact .inr ⟨_, List.mem_map.2 ⟨p, hp, rfl⟩, rfl⟩
    have hread : ∀ s, (s = z ∨ ∃ p ∈ l, s = p.1) → Readable e romanItrans s := by
      rintro s (rfl | ⟨p, hp, rfl⟩)
      · exact hz
      · exact (hl p hp).1
    rw [itransMid_prog] at r2
    simp only [Prog.run, Cond.eval] at r2
    cases l with
    | nil =>
      have hh : isInfix (u! "##") (romanise e.script (u! "Itrans") z) = false := by
        cases hi : isInfix (u! "##") (romanise e.script (u! "Itrans") z) with
        | false => rfl
        | true => exact absurd ((isInfix_iff.1 hi).subset (by simp)) hz'
      simp only [List.map_nil, markedText, hh] at r2
      split at r2
      · rename_i s' hs'
        cases r2
        exact hseg z hz (hcore z (.inl rfl)) _ hs'
      · cases r2
    | cons p l =>
      have hh := isInfix_iff.2 (marked_has (l := (p :: l).map fun p => (romanise e.script (u! "Itrans") p.1, p.2))
        (z := romanise e.script (u! "Itrans") z) (by simp))
      rw [hh] at r2
      simp only at r2
      split at r2
      · rename_i s' hs'
        cases r2
        split at hs'
        · rename_i s'' hs''
          cases hs'
          exact evens_marked (g := romanise e.script (u! "Itrans")) (g' := respell e.script e'.script)
            (fun p hp => ⟨(hl p hp).2.1, (hl p hp).2.2.1⟩) hz' (fun a ha b hb => hseg a (hread a ha) (hcore a ha) b hb) hs''
        · cases hs'
      · cases r2
  subst e2
  cases nat with
  | false => exact Prog.idle_sound fT.finF (fT.inCore hc') q2
  | true =>
    rcases fT.finT with hf | hf
    · exact absurd (List.nil_infix) ((hn rfl).free [] hf)
    · exact Prog.idle_sound hf (fT.inCoreN hc' (hn rfl)) q2

end Verif
