import Verif.Lib.SemUse

/-!
# Semitic scripts and the Latin signs
-/

namespace Verif

/-- As `semName`, without the question about `Latn`. -/
def semNameL (S : PyStr) : Bool :=
  pyIn S GM.SemiticScripts && !(pyIn S GM.IndicScripts) && !(pyIn S GM.LatinScripts) && !(pyEq S (u! "RomanLoC")) &&
  !(hasKey GM.semiticISO S) && !(hasKey indicSemiticMapping S) && !(pyEq S (u! "Hiragana")) && !(pyEq S (u! "Katakana")) &&
  !(pyEq S (u! "")) && !(pyEq S (u! "Ignore")) && !(pyEq S (u! "Oriya")) && !(pyEq S (u! "Tamil")) && !(pyEq S (u! "IPA")) &&
  pyEq S (u! "Latn") && !(pyEq S (u! "Type")) && !(pyEq S (u! "Itrans")) && !(pyEq S (u! "autodetect")) &&
  S.all (fun c => Nat.blt c 128) &&
  (GM.IndicScripts ++ GM.LatinScripts).all (fun s => !(strEq (asciiLower S) (asciiLower s)))

def latn : PyStr := u! "Latn"

theorem semNameL_latn : semNameL latn = true := by decide +kernel

/-- From a Semitic script to Latin signs: after the letters have been replaced. -/
def semLatnEnd (S T : PyStr) (nat : Bool) : Gen Unit := do
  Gim.postprocess T
  fixSemiticOutput S T
  PostProcess.default
  branch nat (nativization S T []) (pure ())
  PreProcess.retainLatin true
  PostProcess.defaultPost S T nat [] []

theorem convert_fromLatn {S T : PyStr} (hS : semNameL S = true) (hT : semName T = true) (hne : S ≠ T) (nativize : Bool) :
    convert S T nativize [] [] = (do PreProcess.PreProcess S T [] []; tryFixSemiticReverse S; semSecond S T nativize) := by
  have hST : pyEq S T = false := by rw [pyEq_eq]; exact strEq_false.2 hne
  simp only [semName, semNameL, Bool.and_eq_true, Bool.not_eq_true'] at hS hT
  obtain ⟨⟨⟨⟨⟨⟨⟨⟨⟨⟨⟨⟨⟨⟨⟨⟨⟨⟨s1, s2⟩, s3⟩, s4⟩, s5⟩, s6⟩, s7⟩, s8⟩, s9⟩, s10⟩, s11⟩, s12⟩, s13⟩, s14⟩, s15⟩, s16⟩, s17⟩, s18⟩, s19⟩ := hS
  obtain ⟨⟨⟨⟨⟨⟨⟨⟨⟨⟨⟨⟨⟨⟨⟨⟨⟨⟨t1, t2⟩, t3⟩, t4⟩, t5⟩, t6⟩, t7⟩, t8⟩, t9⟩, t10⟩, t11⟩, t12⟩, t13⟩, t14⟩, t15⟩, t16⟩, t17⟩, t18⟩, t19⟩ := hT
  have hm : pyIn S us!["Hiragana", "Katakana"] = false := by
    have : pyIn S us!["Hiragana", "Katakana"] = (pyEq S (u! "Hiragana") || pyEq S (u! "Katakana")) := by
      simp only [pyIn_eq, pyEq_eq, strMem]
      cases strEq S (u! "Hiragana") <;> cases strEq S (u! "Katakana") <;> rfl
    rw [this, s7, s8]; rfl
  have hL : retainsLatin S T = false := by
    simp only [retainsLatin, s2, s14, hm, Bool.not_true, Bool.false_and, Bool.or_false]
  have hU : pyEq S (u! "Ugar") = false := by
    rw [pyEq_eq] at s14 ⊢
    rw [strEq_iff.1 s14]
    decide
  have eS := hasKey_false s5
  have eT := hasKey_false t5
  have eM := hasKey_false s6
  have eN := hasKey_false t6
  have s9' : pyEq S [] = false := s9
  have e1 : locTargetOther (locTarget ⟨S, T, nativize, [], []⟩) = ⟨S, T, nativize, [], []⟩ := by
    simp only [locTarget, locTargetOther, t4, Bool.false_and]
  have e2 : locSource ⟨S, T, nativize, [], []⟩ = pure ⟨S, T, nativize, [], []⟩ := by
    simp only [locSource, s4, Bool.false_and]
  have e3 : locSourceOther ⟨S, T, nativize, [], []⟩ = ⟨S, T, nativize, [], []⟩ := by
    simp only [locSourceOther, s4, Bool.false_and]
  have e4 : isoTarget (convertN 2) ⟨S, T, nativize, [], []⟩ = pure ⟨S, T, nativize, [], []⟩ := by
    simp only [isoTarget, eT]
  have e5 : isoSource (convertN 2) ⟨S, T, nativize, [], []⟩ = pure ⟨S, T, nativize, [], []⟩ := by
    simp only [isoSource, eS]
  have e6 : earlyReturn ⟨S, T, nativize, [], []⟩ = false := by
    simp only [earlyReturn, t9, t10, hST, Bool.and_false, Bool.or_false]
  have eM' : mapName indicSemiticMapping S = S := by simp only [mapName, eM]
  have eN' : mapName indicSemiticMapping T = T := by simp only [mapName, eN]
  have e7 : semiticSwitch ⟨S, T, nativize, [], []⟩ = ⟨S, T, nativize, [], []⟩ := by
    simp only [semiticSwitch, t1, eM', s1, eN', s6, Bool.true_or, Bool.false_and]
    cases nativize <;> rfl
  have e8 : markers ⟨S, T, nativize, [], []⟩ = pure () := by
    simp only [markers, t2, Bool.and_false]
    rfl
  have e9 : sameScript ⟨S, T, nativize, [], []⟩ = ([], ⟨S, T, nativize, [], []⟩) := by
    simp only [sameScript, hST, Bool.false_and]
  have e10 : indicDandas ⟨S, T, nativize, [], []⟩ = pure ⟨S, T, nativize, [], []⟩ := by
    simp only [indicDandas, pyIn_nil]
  have e11 : optionSwitches ⟨S, T, nativize, [], []⟩ = pure ⟨S, T, nativize, [], []⟩ := by
    simp only [optionSwitches, pyIn_nil, Bool.false_and, Bool.not_false, Bool.and_true]
    rfl
  have e12 : beforeConversion ⟨S, T, nativize, [], []⟩ = pure (false, S) := by
    simp only [beforeConversion, pyIn_nil, hL, s7, s8, Bool.false_and, Bool.or_false, branch_true, branch_false]
    rfl
  have e0 : convertIndic S T = none := by
    unfold convertIndic
    rw [s2, s3, t2, t3]
  have e14 : conversion S T = (do
      tryFixSemiticReverse S
      Gim.fromLatin T
      Gim.postprocess T
      fixSemiticOutput S T
      PostProcess.default) := by
    simp only [conversion, s16, branch_false, convertScript, e0, s1, t1, semiticToSemitic, Gim.tr, hST, Bool.not_false,
      branch_true, branch_false, hU, s14, Gim.convert, t14, bind_assoc, pure_bind, Bool.not_true]
  have e13 : mainPart ⟨S, T, nativize, [], []⟩ [] false S = (do
      conversion S T
      finishT T nativize) := by
    simp only [mainPart, t7, t8, s11, s12, s9', pyIn_nil, s1, Bool.and_false, Bool.false_and, Bool.not_true,
      Bool.or_false, branch_false]
    rw [← finishT_src (S := S) t14]
    rfl
  show convertBody (convertN 2) ⟨S, T, nativize, [], []⟩ = _
  simp only [convertBody, convertTail, e1, e2, e3, e4,
    e5, e6, e7, e8, e9, e10, e11, e12, e13, e14, branch_false, semSecond, bind_assoc, pure_bind]

theorem convert_toLatn {S T : PyStr} (hS : semName S = true) (hT : semNameL T = true) (hne : S ≠ T) (nativize : Bool) :
    convert S T nativize [] [] = (do semFirst S T; semLatnEnd S T nativize) := by
  have hST : pyEq S T = false := by rw [pyEq_eq]; exact strEq_false.2 hne
  simp only [semName, semNameL, Bool.and_eq_true, Bool.not_eq_true'] at hS hT
  obtain ⟨⟨⟨⟨⟨⟨⟨⟨⟨⟨⟨⟨⟨⟨⟨⟨⟨⟨s1, s2⟩, s3⟩, s4⟩, s5⟩, s6⟩, s7⟩, s8⟩, s9⟩, s10⟩, s11⟩, s12⟩, s13⟩, s14⟩, s15⟩, s16⟩, s17⟩, s18⟩, s19⟩ := hS
  obtain ⟨⟨⟨⟨⟨⟨⟨⟨⟨⟨⟨⟨⟨⟨⟨⟨⟨⟨t1, t2⟩, t3⟩, t4⟩, t5⟩, t6⟩, t7⟩, t8⟩, t9⟩, t10⟩, t11⟩, t12⟩, t13⟩, t14⟩, t15⟩, t16⟩, t17⟩, t18⟩, t19⟩ := hT
  have hm : pyIn S us!["Hiragana", "Katakana"] = false := by
    have : pyIn S us!["Hiragana", "Katakana"] = (pyEq S (u! "Hiragana") || pyEq S (u! "Katakana")) := by
      simp only [pyIn_eq, pyEq_eq, strMem]
      cases strEq S (u! "Hiragana") <;> cases strEq S (u! "Katakana") <;> rfl
    rw [this, s7, s8]; rfl
  have hL : retainsLatin S T = true := by
    simp only [retainsLatin, s1, s14, s15, Bool.not_false, Bool.and_true, Bool.true_or]
  have eS := hasKey_false s5
  have eT := hasKey_false t5
  have eM := hasKey_false s6
  have eN := hasKey_false t6
  have s9' : pyEq S [] = false := s9
  have e1 : locTargetOther (locTarget ⟨S, T, nativize, [], []⟩) = ⟨S, T, nativize, [], []⟩ := by
    simp only [locTarget, locTargetOther, t4, Bool.false_and]
  have e2 : locSource ⟨S, T, nativize, [], []⟩ = pure ⟨S, T, nativize, [], []⟩ := by
    simp only [locSource, s4, Bool.false_and]
  have e3 : locSourceOther ⟨S, T, nativize, [], []⟩ = ⟨S, T, nativize, [], []⟩ := by
    simp only [locSourceOther, s4, Bool.false_and]
  have e4 : isoTarget (convertN 2) ⟨S, T, nativize, [], []⟩ = pure ⟨S, T, nativize, [], []⟩ := by
    simp only [isoTarget, eT]
  have e5 : isoSource (convertN 2) ⟨S, T, nativize, [], []⟩ = pure ⟨S, T, nativize, [], []⟩ := by
    simp only [isoSource, eS]
  have e6 : earlyReturn ⟨S, T, nativize, [], []⟩ = false := by
    simp only [earlyReturn, t9, t10, hST, Bool.and_false, Bool.or_false]
  have eM' : mapName indicSemiticMapping S = S := by simp only [mapName, eM]
  have eN' : mapName indicSemiticMapping T = T := by simp only [mapName, eN]
  have e7 : semiticSwitch ⟨S, T, nativize, [], []⟩ = ⟨S, T, nativize, [], []⟩ := by
    simp only [semiticSwitch, t1, eM', s1, eN', s6, Bool.true_or, Bool.false_and]
    cases nativize <;> rfl
  have e8 : markers ⟨S, T, nativize, [], []⟩ = pure () := by
    simp only [markers, t2, Bool.and_false]
    rfl
  have e9 : sameScript ⟨S, T, nativize, [], []⟩ = ([], ⟨S, T, nativize, [], []⟩) := by
    simp only [sameScript, hST, Bool.false_and]
  have e10 : indicDandas ⟨S, T, nativize, [], []⟩ = pure ⟨S, T, nativize, [], []⟩ := by
    simp only [indicDandas, pyIn_nil]
  have e11 : optionSwitches ⟨S, T, nativize, [], []⟩ = pure ⟨S, T, nativize, [], []⟩ := by
    simp only [optionSwitches, pyIn_nil, Bool.false_and, Bool.not_false, Bool.and_true]
    rfl
  have e12 : beforeConversion ⟨S, T, nativize, [], []⟩ = (do PreProcess.retainLatin false; pure (false, S)) := by
    simp only [beforeConversion, pyIn_nil, hL, s7, s8, Bool.false_and, Bool.or_false, branch_true, branch_false]
    rfl
  have e0 : convertIndic S T = none := by
    unfold convertIndic
    rw [s2, s3, t2, t3]
  have e14 : conversion S T = (do
      tryFixSemiticReverse S
      branch (pyEq S (u! "Ugar")) (replace (u! "𐎟") (u! " ")) (pure ())
      Gim.preprocess S T
      Gim.toLatin S
      Gim.postprocess T
      fixSemiticOutput S T
      PostProcess.default) := by
    simp only [conversion, s16, branch_false, convertScript, e0, s1, t1, semiticToSemitic, Gim.tr, hST, Bool.not_false,
      branch_true, s14, Gim.convert, t14, bind_assoc]
  have e13 : mainPart ⟨S, T, nativize, [], []⟩ [] false S = (do
      conversion S T
      branch nativize (nativization S T []) (pure ())
      PreProcess.retainLatin true
      PostProcess.defaultPost S T nativize [] []) := by
    simp only [mainPart, t7, t8, s11, s12, s9', pyIn_nil, s1, Bool.and_false, Bool.false_and, Bool.not_true,
      Bool.or_false, branch_false]
    rfl
  show convertBody (convertN 2) ⟨S, T, nativize, [], []⟩ = _
  simp only [convertBody, convertTail, e1, e2, e3, e4,
    e5, e6, e7, e8, e9, e10, e11, e12, e13, e14, branch_false, semFirst, semLatnEnd, bind_assoc, pure_bind]

/-! ## Checks -/

/-- Characters of Latin signs and plain characters that are no Roman letters. -/
def signChars : PyStr := latinSigns.flatten ++ otherPlain

set_option maxRecDepth 1000000

theorem latnWrite_ok : (withNat (maskOf (shields ++ signChars)) fun I =>
    runsOk I 0 (do Gim.postprocess latn; fixSemiticOutput latn latn; PostProcess.default).prog [] fun _ => true) = true := by
  decide +kernel

/-- The scripts whose romanisation nativisation changes. -/
def arabicNames : List PyStr := us!["Arab-Pa", "Arab-Ur", "Arab-Fa", "Arab"]

theorem latnNative_ok : (withNat (maskOf (shields ++ signChars)) fun I =>
    semiticNames.all fun S => strMem S arabicNames || runsOk I 0 (nativization S latn []).prog [] fun _ => true) = true := by
  decide +kernel

theorem latnUnshield_ok : (withNat (maskOf signChars) fun I =>
    runsOk I 0 (PreProcess.retainLatin true).prog (oneEach shields) fun K => romanPlain.all fun c => tokIs K (shieldOf c) [c]) = true := by
  decide +kernel

theorem latnAfter_ok : (withNat (maskOf (signChars ++ plainChars)) fun I =>
    semiticNames.all fun S => [false, true].all fun nat =>
      runsOk I 0 (PostProcess.defaultPost S latn nat [] []).prog [] fun _ => true) = true := by
  decide +kernel

/-- The pre-processing of Latin signs begins with `str.lower` and leaves them alone. -/
def latnBeforeOk (I : Nat) (T : PyStr) : Bool :=
  match (PreProcess.PreProcess latn T [] []).prog with
  | .host .lower k => runsOk I 0 k readSigns fun K => K.all fun p => strEq p.2 p.1
  | _ => false

theorem latnBefore_ok : (withNat (maskOf puncts) fun I =>
    latnBeforeOk I (u! "Armi") && latnBeforeOk I (u! "Syre") &&
    runsOk I 0 (tryFixSemiticReverse latn).prog readSigns fun K => K.all fun p => strEq p.2 p.1) = true := by
  decide +kernel

/-! ## To Latin signs -/

theorem latn_pre : sameForPre latn (u! "Armi") = true := by decide +kernel

theorem run_first_latn {E : Env} (hE : E.SemiticOps) {S : PyStr} (hS : S ∈ semiticNames) {s : PyStr}
    (hs : ∀ c ∈ s, SemChar S c) : (semFirst S latn).prog.run E s = .ok (s.flatMap (stage2 S)) := by
  have e : semFirst S latn = (do
      semBefore S (u! "Armi")
      PreProcess.retainLatin false
      semRead S latn) := by
    unfold semBefore
    rw [← preProcess_tgt latn_pre]
    simp only [semFirst, semRead, bind_assoc]
  rw [e, run_step (g := semBefore S _) (lin_preProcess _ _ _ _) (run_before hE hS (by rw [← strMem_iff]; decide +kernel) hs),
    run_step (lin_PreProcess_retainLatin false) (run_shield hE hS hs)]
  exact run_read hE latn hS hs

/-- Characters after the first half. -/
theorem stage2_chars {S : PyStr} (hS : S ∈ semiticNames) {c : Nat} (hc : SemChar S c) :
    ∀ d ∈ stage2 S c, d ∈ shields ∨ d ∈ signChars ∨ isNeutral d = true := by
  intro d hd
  unfold stage2 at hd
  cases hl : isAsciiLetter c with
  | true =>
    obtain ⟨x, e, hx⟩ := shield_spec hl
    rw [hl] at hd
    simp only at hd
    rw [e] at hd
    rw [List.mem_singleton.1 hd]
    exact .inl hx
  | false =>
    rw [hl] at hd
    simp only at hd
    rcases sign_cases hS hc hl with h | ⟨e, h⟩
    · exact .inr (.inl (List.mem_append_left _ (List.mem_flatten.2 ⟨_, h, hd⟩)))
    · rw [e] at hd
      rw [List.mem_singleton.1 hd]
      exact .inr (h.imp_left fun h => List.mem_append_right _ (List.mem_filter.1 h).1)

theorem sign_noShield : (withNat (maskOf signChars) fun m => shields.all fun d => !(maskMem m d)) = true := by
  decide +kernel

theorem signChar_notShield {d : Nat} (h : d ∈ signChars ∨ isNeutral d = true) : d ∉ shields := by
  intro hd
  rcases h with h | h
  · have h1 := sign_noShield
    rw [withNat_eq] at h1
    have := List.all_eq_true.1 h1 d hd
    rw [maskMem_eq, bit_maskOf.2 h] at this
    cases this
  · have := List.all_eq_true.1 shields_apart d hd
    rw [neuMem_eq, h] at this
    simp at this

theorem lin_latnWrite : Lin (do Gim.postprocess latn; fixSemiticOutput latn latn; PostProcess.default) := by
  refine Lin.bind ?_ fun _ => Lin.bind ?_ fun _ => ?_
  · unfold Gim.postprocess; lin
  · exact lin_fixSemitic latn
  · unfold PostProcess.default; lin

theorem run_end_latn {E : Env} (hE : E.SemiticOps) {S : PyStr} (hS : S ∈ semiticNames) {nat : Bool}
    (hn : nat = true → S ∉ arabicNames) {t : PyStr} (ht : ∀ d ∈ t, d ∈ shields ∨ d ∈ signChars ∨ isNeutral d = true) :
    (semLatnEnd S latn nat).prog.run E t = .ok (t.flatMap unshield) := by
  have e : semLatnEnd S latn nat = (do
      (do Gim.postprocess latn; fixSemiticOutput latn latn; PostProcess.default)
      branch nat (nativization S latn []) (pure ())
      PreProcess.retainLatin true
      PostProcess.defaultPost S latn nat [] []) := by
    unfold semLatnEnd
    rw [fixSemitic_src S latn]
    simp only [bind_assoc]
  have hI : ∀ d ∈ t, Inert (maskOf (shields ++ signChars)) d := by
    intro d hd
    rcases ht d hd with h | h | h
    · exact .inl (bit_maskOf.2 (List.mem_append_left _ h))
    · exact .inl (bit_maskOf.2 (List.mem_append_right _ h))
    · exact .inr h
  have h1 : (do Gim.postprocess latn; fixSemiticOutput latn latn; PostProcess.default : Gen Unit).prog.run E t = .ok t := by
    have h := latnWrite_ok
    rw [withNat_eq] at h
    exact runsOk_idle (steady_none hE) h hI
  have h2 : (branch nat (nativization S latn []) (pure ())).prog.run E t = .ok t := by
    cases nat with
    | false => rfl
    | true =>
      have h := latnNative_ok
      rw [withNat_eq] at h
      have h := List.all_eq_true.1 h S hS
      rw [strMem_false.2 (hn rfl), Bool.false_or] at h
      rw [branch_true]
      exact runsOk_idle (steady_none hE) h hI
  have h3 : (PreProcess.retainLatin true).prog.run E t = .ok (t.flatMap unshield) := by
    have h := latnUnshield_ok
    rw [withNat_eq] at h
    have := runsOk_stage (steady_none hE) h (s := t) (f := fun c => [c]) (g := unshield) ?_ ?_ ?_
    · rwa [flatMap_single] at this
    · intro d hd
      rcases ht d hd with h | h
      · exact .inl (single_oneEach.2 h)
      · refine .inr ⟨fun hm => signChar_notShield h (single_oneEach.1 hm), d, rfl, ?_⟩
        exact h.imp_left fun h => bit_maskOf.2 h
    · intro K hK d hd hm y hy
      obtain ⟨c, hc, e⟩ := shields_roman (single_oneEach.1 hm)
      rw [unshield_shield hc e]
      have := List.all_eq_true.1 hK c hc
      rw [e] at this
      exact tokIs_image this hy
    · intro d hd hm
      exact (unshield_other fun h => hm (single_oneEach.2 h)).symm
  rw [e, run_step lin_latnWrite h1, run_step (Lin.branch (lin_nativization _ _ _) (Lin.pure ())) h2,
    run_step (lin_PreProcess_retainLatin true) h3]
  have h := latnAfter_ok
  rw [withNat_eq] at h
  have h := List.all_eq_true.1 (List.all_eq_true.1 h S hS) nat (by cases nat <;> simp)
  refine runsOk_idle (steady_none hE) h fun x hx => ?_
  obtain ⟨d, hd, hx⟩ := List.mem_flatMap.1 hx
  rcases ht d hd with h | h
  · obtain ⟨c, hc, e⟩ := shields_roman h
    rw [unshield_shield hc e] at hx
    rw [List.mem_singleton.1 hx]
    exact .inl (bit_maskOf.2 (List.mem_append_right _ (List.mem_filter.1 hc).1))
  · rw [unshield_other (signChar_notShield h)] at hx
    rw [List.mem_singleton.1 hx]
    exact h.imp_left fun h => bit_maskOf.2 (List.mem_append_left _ h)

/-- Semitic text becomes Latin signs. -/
theorem semitic_toLatn {E : Env} (hE : E.SemiticOps) {S : PyStr} (hS : S ∈ semiticNames) {nat : Bool}
    (hn : nat = true → S ∉ arabicNames) {s : PyStr} (hs : ∀ c ∈ s, SemChar S c) :
    (convert S latn nat [] []).prog.run E s = .ok (s.flatMap (latinImage S)) := by
  have hne : S ≠ latn := by
    rintro rfl
    revert hS
    rw [← strMem_iff]
    decide +kernel
  rw [convert_toLatn (List.all_eq_true.1 semName_all S hS) semNameL_latn hne]
  rw [run_step (lin_semFirst S latn) (run_first_latn hE hS hs), run_end_latn hE hS hn, List.flatMap_assoc]
  · congr 1
    refine flatMap_congr_mem fun c hc => ?_
    unfold stage2 latinImage
    cases hl : isAsciiLetter c with
    | true =>
      obtain ⟨x, e, hx⟩ := shield_spec hl
      simp only
      rw [e]
      simp [unshield_shield (letter_plain hl) e]
    | false =>
      simp only
      rw [flatMap_congr_mem (g := fun d => [d]), flatMap_single]
      intro d hd
      refine unshield_other ?_
      have := stage2_chars hS (hs c hc) d (by unfold stage2; rw [hl]; exact hd)
      rcases this with h | h
      · exfalso
        rcases sign_cases hS (hs c hc) hl with h' | ⟨e, h'⟩
        · exact signChar_notShield (.inl (List.mem_append_left _ (List.mem_flatten.2 ⟨_, h', hd⟩))) h
        · rw [e] at hd
          rw [List.mem_singleton.1 hd] at h
          exact signChar_notShield (h'.imp_left fun h => List.mem_append_right _ (List.mem_filter.1 h).1) h
      · exact signChar_notShield h
  · intro d hd
    obtain ⟨c, hc, hd⟩ := List.mem_flatMap.1 hd
    exact stage2_chars hS (hs c hc) d hd

/-! ## From Latin signs -/

theorem latinPiece_cases {t : PyStr} (h : LatinPiece t) :
    t ∈ readSigns ∨ t ∉ readSigns ∧ ∃ c, t = [c] ∧ (c ∈ puncts ∨ isNeutral c = true) := by
  by_cases hm : t ∈ readSigns
  · exact .inl hm
  · refine .inr ⟨hm, ?_⟩
    rcases h with h | ⟨c, e, h | h⟩
    · exact absurd h hm
    · refine ⟨c, e, .inl ?_⟩
      rcases plain_cases h.1 h.2 with hd | hp
      · exfalso
        have hk : (u! "0123456789").all (fun d => strMem [d] readSigns) = true := by decide +kernel
        exact hm (e ▸ strMem_iff.1 (List.all_eq_true.1 hk c hd))
      · exact hp
    · exact ⟨c, e, .inr h⟩

theorem run_signs_same {E : Env} (hE : E.SemiticOps) {p : Prog}
    (h : runsOk (maskOf puncts) 0 p readSigns (fun K => K.all fun p => strEq p.2 p.1) = true) {toks : List PyStr}
    (ht : ∀ t ∈ toks, LatinPiece t) : p.run E toks.flatten = .ok toks.flatten := by
  have := runsOk_stage (steady_none hE) h (s := toks) (f := id) (g := id) ?_ ?_ ?_
  · simpa using this
  · intro t htt
    rcases latinPiece_cases (ht t htt) with h | ⟨h, c, e, hc⟩
    · exact .inl h
    · exact .inr ⟨h, c, e, hc.imp_left bit_maskOf.2⟩
  · intro K hK t htt hm y hy
    rw [← dictGet_lookup] at hy
    exact strEq_iff.1 (List.all_eq_true.1 hK _ (dictGet?_some hy))
  · intro t _ _
    rfl

theorem run_before_latn {E : Env} (hE : E.SemiticOps) (hL : E.KeepsSigns) {T : PyStr} (hT : T ∈ semiticNames) {toks : List PyStr}
    (ht : ∀ t ∈ toks, LatinPiece t) : (PreProcess.PreProcess latn T [] []).prog.run E toks.flatten = .ok toks.flatten := by
  have h := latnBefore_ok
  rw [withNat_eq, Bool.and_eq_true, Bool.and_eq_true] at h
  have key : ∀ T', latnBeforeOk (maskOf puncts) T' = true →
      (PreProcess.PreProcess latn T' [] []).prog.run E toks.flatten = .ok toks.flatten := by
    intro T' h
    unfold latnBeforeOk at h
    split at h
    · rename_i k hk
      rw [hk]
      simp only [Prog.run]
      rw [hL]
      · exact run_signs_same hE h ht
      · intro c hc
        obtain ⟨t, htt, hc⟩ := List.mem_flatten.1 hc
        rcases ht t htt with h | ⟨d, e, h⟩
        · exact .inl ⟨t, h, hc⟩
        · rw [e] at hc
          rw [List.mem_singleton.1 hc]
          exact .inr h
    · cases h
  have h2 := List.all_eq_true.1 sameForPre_reps T hT
  rw [Bool.or_eq_true] at h2
  rcases h2 with h2 | h2
  · rw [preProcess_tgt h2]; exact key _ h.1.1
  · rw [preProcess_tgt h2]; exact key _ h.1.2

/-- Latin signs become Semitic text. -/
theorem semitic_fromLatn {E : Env} (hE : E.SemiticOps) (hL : E.KeepsSigns) {T : PyStr} (hT : T ∈ semiticNames) {nat : Bool}
    {toks : List PyStr} (ht : ∀ t ∈ toks, LatinPiece t) (hf : ∀ t ∈ toks, ∀ d ∈ signImage T nat t, d ∉ finalLetters T) :
    (convert latn T nat [] []).prog.run E toks.flatten = .ok (toks.flatMap (signImage T nat)) := by
  have hne : latn ≠ T := by
    rintro rfl
    revert hT
    rw [← strMem_iff]
    decide +kernel
  rw [convert_fromLatn semNameL_latn (List.all_eq_true.1 semName_all T hT) hne, semSecond_src latn T]
  rw [run_step (lin_preProcess _ _ _ _) (run_before_latn hE hL hT ht)]
  have hx : (tryFixSemiticReverse latn).prog.run E toks.flatten = .ok toks.flatten := by
    have h := latnBefore_ok
    rw [withNat_eq, Bool.and_eq_true] at h
    exact run_signs_same hE h.2 ht
  have hl : Lin (tryFixSemiticReverse latn) := by
    unfold tryFixSemiticReverse
    split
    · exact Lin.tryAttr _
    · exact Lin.pure _
  rw [run_step hl hx]
  have hsub : ∀ t ∈ readSigns, t ∈ latinSigns := fun t h => (List.mem_filter.1 h).1
  have hp : ∀ t ∈ toks, PreSign T nat (id t) (signImage T nat t) := by
    intro t htt
    refine .inr ⟨?_, rfl, noFinal_iff.2 (hf t htt)⟩
    rcases latinPiece_cases (ht t htt) with h | ⟨-, h⟩
    · exact .inl (hsub t h)
    · exact .inr h
  obtain ⟨h1, h2⟩ := run_second hE hT hp
  rw [show toks.flatten = toks.flatMap id by simp, h1]
  congr 1
  refine flatMap_congr_mem fun t htt => ?_
  rcases h2 t htt with ⟨d, hd, e⟩ | h
  · exfalso
    have e : t = [d] := e
    rcases latinPiece_cases (ht t htt) with h | ⟨-, c, e2, h⟩
    · refine signChar_notShield (d := d) (.inl (List.mem_append_left _ (List.mem_flatten.2 ⟨t, hsub t h, ?_⟩))) hd
      rw [e]; simp
    · rw [e] at e2
      cases e2
      exact signChar_notShield (h.imp_left fun h => List.mem_append_right _ (List.mem_filter.1 h).1) hd
  · exact h

theorem resolveName_latn {E : Env} (hE : E.TextOps) : resolveName E latn = latn := by
  have hn := semNameL_latn
  simp only [semNameL, Bool.and_eq_true] at hn
  have hl : ∀ s ∈ GM.IndicScripts ++ GM.LatinScripts, E.lower s = asciiLower s := by
    intro s hs
    refine hE.lower_ascii s fun c hc => ?_
    have := List.all_eq_true.1 (List.all_eq_true.1 names_ascii s hs) c hc
    rwa [Nat.blt_eq] at this
  have hlS : E.lower latn = asciiLower latn := by
    refine hE.lower_ascii latn fun c hc => ?_
    have := List.all_eq_true.1 hn.1.2 c hc
    rwa [Nat.blt_eq] at this
  unfold resolveName
  have : (GM.IndicScripts ++ GM.LatinScripts).find? (fun s => strEq (E.lower latn) (E.lower s)) = none := by
    rw [List.find?_eq_none]
    intro s hs
    rw [hl s hs, hlS]
    have := List.all_eq_true.1 hn.2 s hs
    simpa using this
  rw [this]

theorem process_toLatn {E : Env} (hE : E.TextOps) {S : PyStr} (hS : S ∈ semiticNames) (text : PyStr) (nat : Bool) :
    process E S latn text nat [] [] (u! "default") = ((convert S latn nat [] []).prog.run E text).map some := by
  have hn := List.all_eq_true.1 semName_all S hS
  simp only [semName, Bool.and_eq_true, Bool.not_eq_true'] at hn
  have ha : strEq S (u! "autodetect") = false := by rw [← pyEq_eq]; exact hn.1.1.2
  show (processDefault E S latn text nat [] []).map some = _
  simp only [processDefault, ha, resolveName_semitic hE hS, resolveName_latn hE, convertDefault,
    matchOptions, List.flatMap_nil]

theorem process_fromLatn {E : Env} (hE : E.TextOps) {T : PyStr} (hT : T ∈ semiticNames) (text : PyStr) (nat : Bool) :
    process E latn T text nat [] [] (u! "default") = ((convert latn T nat [] []).prog.run E text).map some := by
  have ha : strEq latn (u! "autodetect") = false := by decide +kernel
  show (processDefault E latn T text nat [] []).map some = _
  simp only [processDefault, ha, resolveName_semitic hE hT, resolveName_latn hE, convertDefault,
    matchOptions, List.flatMap_nil]

end Verif
