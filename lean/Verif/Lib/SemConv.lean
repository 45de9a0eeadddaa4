import Verif.Lib.SemPieces
import Verif.Lib.PlainUse
import Verif.Spec.Semitic

/-!
# Conversion between Semitic scripts: pieces and checks
-/

namespace Verif

/-- The first half: to Latin signs. -/
def semFirst (S T : PyStr) : Gen Unit := do
  PreProcess.PreProcess S T [] []
  PreProcess.retainLatin false
  tryFixSemiticReverse S
  branch (pyEq S (u! "Ugar")) (replace (u! "𐎟") (u! " ")) (pure ())
  Gim.preprocess S T
  Gim.toLatin S

/-- The second half: from Latin signs. -/
def semSecond (S T : PyStr) (nat : Bool) : Gen Unit := do
  Gim.fromLatin T
  Gim.postprocess T
  fixSemiticOutput S T
  PostProcess.default
  finishT T nat

/-- What the branches of `convert` ask about the names. -/
def semName (S : PyStr) : Bool :=
  pyIn S GM.SemiticScripts && !(pyIn S GM.IndicScripts) && !(pyIn S GM.LatinScripts) && !(pyEq S (u! "RomanLoC")) &&
  !(hasKey GM.semiticISO S) && !(hasKey indicSemiticMapping S) && !(pyEq S (u! "Hiragana")) && !(pyEq S (u! "Katakana")) &&
  !(pyEq S (u! "")) && !(pyEq S (u! "Ignore")) && !(pyEq S (u! "Oriya")) && !(pyEq S (u! "Tamil")) && !(pyEq S (u! "IPA")) &&
  !(pyEq S (u! "Latn")) && !(pyEq S (u! "Type")) && !(pyEq S (u! "Itrans")) && !(pyEq S (u! "autodetect")) &&
  S.all (fun c => Nat.blt c 128) &&
  (GM.IndicScripts ++ GM.LatinScripts).all (fun s => !(strEq (asciiLower S) (asciiLower s)))

theorem semName_all : semiticNames.all semName = true := by decide +kernel

theorem convert_semitic {S T : PyStr} (hS : semName S = true) (hT : semName T = true) (hne : S ≠ T) (nativize : Bool) :
    convert S T nativize [] [] = (do semFirst S T; semSecond S T nativize) := by
  have hST : pyEq S T = false := by rw [pyEq_eq]; exact strEq_false.2 hne
  simp only [semName, Bool.and_eq_true, Bool.not_eq_true'] at hS hT
  obtain ⟨⟨⟨⟨⟨⟨⟨⟨⟨⟨⟨⟨⟨⟨⟨⟨⟨⟨s1, s2⟩, s3⟩, s4⟩, s5⟩, s6⟩, s7⟩, s8⟩, s9⟩, s10⟩, s11⟩, s12⟩, s13⟩, s14⟩, s15⟩, s16⟩, s17⟩, s18⟩, s19⟩ := hS
  obtain ⟨⟨⟨⟨⟨⟨⟨⟨⟨⟨⟨⟨⟨⟨⟨⟨⟨⟨t1, t2⟩, t3⟩, t4⟩, t5⟩, t6⟩, t7⟩, t8⟩, t9⟩, t10⟩, t11⟩, t12⟩, t13⟩, t14⟩, t15⟩, t16⟩, t17⟩, t18⟩, t19⟩ := hT
  have hm : pyIn S us!["Hiragana", "Katakana"] = false := by
    have : pyIn S us!["Hiragana", "Katakana"] = (pyEq S (u! "Hiragana") || pyEq S (u! "Katakana")) := by
      simp only [pyIn_eq, pyEq_eq, strMem]
      cases strEq S (u! "Hiragana") <;> cases strEq S (u! "Katakana") <;> rfl
    rw [this, s7, s8]; rfl
  have hL : retainsLatin S T = true := by
    simp only [retainsLatin, s1, s14, s15, Bool.not_false, Bool.and_true, Bool.true_or]
  have eS := hasKey_false s5
  have eT := hasKey_false t5
  have eM := hasKey_false s6
  have eN := hasKey_false t6
  have s9' : pyEq S [] = false := s9
  have e1 : locTargetOther (locTarget ⟨S, T, nativize, [], []⟩) = ⟨S, T, nativize, [], []⟩ := by
    simp only [locTarget, locTargetOther, t4, Bool.false_and]
  have e2 : locSource ⟨S, T, nativize, [], []⟩ = pure ⟨S, T, nativize, [], []⟩ := by
    simp only [locSource, s4, Bool.false_and]
  have e3 : locSourceOther ⟨S, T, nativize, [], []⟩ = ⟨S, T, nativize, [], []⟩ := by
    simp only [locSourceOther, s4, Bool.false_and]
  have e4 : isoTarget (convertN 2) ⟨S, T, nativize, [], []⟩ = pure ⟨S, T, nativize, [], []⟩ := by
    simp only [isoTarget, eT]
  have e5 : isoSource (convertN 2) ⟨S, T, nativize, [], []⟩ = pure ⟨S, T, nativize, [], []⟩ := by
    simp only [isoSource, eS]
  have e6 : earlyReturn ⟨S, T, nativize, [], []⟩ = false := by
    simp only [earlyReturn, t9, t10, hST, Bool.and_false, Bool.or_false]
  have eM' : mapName indicSemiticMapping S = S := by simp only [mapName, eM]
  have eN' : mapName indicSemiticMapping T = T := by simp only [mapName, eN]
  have e7 : semiticSwitch ⟨S, T, nativize, [], []⟩ = ⟨S, T, nativize, [], []⟩ := by
    simp only [semiticSwitch, t1, eM', s1, eN', s6, Bool.true_or, Bool.false_and]
    cases nativize <;> rfl
  have e8 : markers ⟨S, T, nativize, [], []⟩ = pure () := by
    simp only [markers, t2, Bool.and_false]
    rfl
  have e9 : sameScript ⟨S, T, nativize, [], []⟩ = ([], ⟨S, T, nativize, [], []⟩) := by
    simp only [sameScript, hST, Bool.false_and]
  have e10 : indicDandas ⟨S, T, nativize, [], []⟩ = pure ⟨S, T, nativize, [], []⟩ := by
    simp only [indicDandas, pyIn_nil]
  have e11 : optionSwitches ⟨S, T, nativize, [], []⟩ = pure ⟨S, T, nativize, [], []⟩ := by
    simp only [optionSwitches, pyIn_nil, Bool.false_and, Bool.not_false, Bool.and_true]
    rfl
  have e12 : beforeConversion ⟨S, T, nativize, [], []⟩ = (do PreProcess.retainLatin false; pure (false, S)) := by
    simp only [beforeConversion, pyIn_nil, hL, s7, s8, Bool.false_and, Bool.or_false, branch_true, branch_false]
    rfl
  have e0 : convertIndic S T = none := by
    unfold convertIndic
    rw [s2, s3, t2, t3]
  have e14 : conversion S T = (do
      tryFixSemiticReverse S
      branch (pyEq S (u! "Ugar")) (replace (u! "𐎟") (u! " ")) (pure ())
      Gim.preprocess S T
      Gim.toLatin S
      Gim.fromLatin T
      Gim.postprocess T
      fixSemiticOutput S T
      PostProcess.default) := by
    simp only [conversion, s16, branch_false, convertScript, e0, s1, t1, semiticToSemitic, Gim.tr, hST, Bool.not_false,
      branch_true, s14, Gim.convert, t14, bind_assoc]
  have e13 : mainPart ⟨S, T, nativize, [], []⟩ [] false S = (do
      conversion S T
      finishT T nativize) := by
    simp only [mainPart, t7, t8, s11, s12, s9', pyIn_nil, s1, Bool.and_false, Bool.false_and, Bool.not_true,
      Bool.or_false, branch_false]
    rw [← finishT_src (S := S) t14]
    rfl
  show convertBody (convertN 2) ⟨S, T, nativize, [], []⟩ = _
  simp only [convertBody, convertTail, e1, e2, e3, e4,
    e5, e6, e7, e8, e9, e10, e11, e12, e13, e14, branch_false, semFirst, semSecond, bind_assoc, pure_bind]

theorem lin_semFirst (S T : PyStr) : Lin (semFirst S T) := by
  unfold semFirst
  refine Lin.bind (lin_preProcess _ _ _ _) fun _ => ?_
  unfold PreProcess.retainLatin tryFixSemiticReverse Gim.preprocess Gim.toLatin
  lin
  split
  · exact Lin.tryAttr _
  · exact Lin.pure _

/-- The first half looks at the target only through two questions. -/
def sameFirst (T T' : PyStr) : Bool := sameForPre T T' && (pyIn T Gim.vocalized == pyIn T' Gim.vocalized)

theorem semFirst_tgt {T T' : PyStr} (h : sameFirst T T' = true) (S : PyStr) : semFirst S T = semFirst S T' := by
  simp only [sameFirst, Bool.and_eq_true, beq_iff_eq] at h
  unfold semFirst Gim.preprocess
  rw [preProcess_tgt h.1, h.2]

theorem fixSemitic_src {T : PyStr} (S S' : PyStr) : fixSemiticOutput S T = fixSemiticOutput S' T := by
  unfold fixSemiticOutput
  cases h : dictGet? fixSemiticFns T with
  | none => rfl
  | some f =>
    have : (T, f) ∈ fixSemiticFns := dictGet?_some h
    simp only
    have e : f S false = f S' false := by
      simp only [fixSemiticFns, List.mem_cons, Prod.mk.injEq, List.not_mem_nil, or_false] at this
      rcases this with ⟨-, rfl⟩ | ⟨-, rfl⟩ | ⟨-, rfl⟩ | ⟨-, rfl⟩ | ⟨-, rfl⟩ | ⟨-, rfl⟩ | ⟨-, rfl⟩ | ⟨-, rfl⟩ <;> rfl
    rw [e]

theorem semSecond_src {T : PyStr} (S S' : PyStr) (nat : Bool) : semSecond S T nat = semSecond S' T nat := by
  unfold semSecond
  rw [fixSemitic_src S S']

/-! ## Parts -/

def semBefore (S T : PyStr) : Gen Unit := PreProcess.PreProcess S T [] []

def semRead (S T : PyStr) : Gen Unit := do
  tryFixSemiticReverse S
  branch (pyEq S (u! "Ugar")) (replace (u! "𐎟") (u! " ")) (pure ())
  Gim.preprocess S T
  Gim.toLatin S

def semWrite (T : PyStr) : Gen Unit := do
  Gim.fromLatin T
  Gim.postprocess T
  fixSemiticOutput T T
  PostProcess.default

def semNative (T : PyStr) : Gen Unit := nativization T T []

def semAfter (T : PyStr) (nat : Bool) : Gen Unit := PostProcess.defaultPost T T nat [] []

/-! ## Checks -/

/-- The rules that shield Roman letters. -/
def shieldTable : List (PyStr × PyStr) := (pyEnumerate PreProcess.latn_all).map fun p => (p.2, [60929 + p.1])

def shieldOf (c : Nat) : PyStr :=
  match dictGet? shieldTable [c] with
  | some y => y
  | none => [c]

/-- Roman letters among the plain characters. -/
def romanPlain : PyStr := plainChars.filter isAsciiLetter

/-- The other plain characters. -/
def otherPlain : PyStr := plainChars.filter fun c => !(isAsciiLetter c)

def shields : PyStr := romanPlain.flatMap shieldOf

def oneEach (l : PyStr) : List PyStr := l.map fun c => [c]

/-- Plain characters that are neither Roman letters nor digits. -/
def puncts : PyStr := otherPlain.filter fun c => !(Nat.ble 48 c && Nat.ble c 57)

def tokIs (K : List (PyStr × PyStr)) (t y : PyStr) : Bool :=
  match dictGet? K t with | some p => strEq p y | none => false

/-- No key of the table is a single character of the mask, or neutral. -/
def keysOff (m : Nat) : List (PyStr × PyStr) → Bool
  | [] => true
  | p :: l => match p.1 with
    | [c] => match maskMem m c with
      | true => false
      | false => match neuMem c with | true => false | false => keysOff m l
    | _ => keysOff m l

/-- No two keys are the same single character. -/
def keysApart (m : Nat) : List (PyStr × PyStr) → Bool
  | [] => true
  | p :: l => match p.1 with
    | [c] => match maskMem m c with
      | true => false
      | false => withNat (Nat.lor m (Nat.shiftLeft 1 c)) fun m' => keysApart m' l
    | _ => keysApart m l

def semBeforeOk (S T : PyStr) : Bool :=
  withNat (maskOf (semiticLetters S ++ plainChars)) fun I => runsOk I 0 (semBefore S T).prog [] fun _ => true

def shieldOk : Bool :=
  withNat (maskOf (semiticNames.flatMap semiticLetters ++ otherPlain)) fun I =>
    runsOk I 0 (PreProcess.retainLatin false).prog (oneEach romanPlain) fun K =>
      romanPlain.all fun c => tokIs K [c] (shieldOf c) && isOne (shieldOf c)
where
  isOne : PyStr → Bool
    | [_] => true
    | _ => false

/-- Digits that are no letters of the script. -/
def plainDigits (S : PyStr) : PyStr := (u! "0123456789").filter fun c => !(natMem c (semiticLetters S))

def semReadOk (M P : Nat) (S T : PyStr) : Bool :=
  withNat (Nat.lor P (maskOf (plainDigits S))) fun I =>
    keysOff I (toLatinTable S) && keysApart 0 (toLatinTable S) &&
    runsOk I M (semRead S T).prog (oneEach (semiticLetters S)) fun K =>
      (semiticLetters S).all (fun c => tokIs K [c] (latinSign S c))

def outChars (T : PyStr) : PyStr :=
  (fromLatinTable T).flatMap Prod.snd ++ (ownSigns T true).flatMap Prod.snd ++ (u! "²₂") ++ otherPlain

/-- No letter with a final form. -/
def noFinal (T t : PyStr) : Bool := t.all fun d => !(natMem d (finalLetters T))

/-- Punctuation with and without a rule. -/
def ownPuncts (T : PyStr) : PyStr := puncts.filter fun c => strMem [c] ((ownSigns T true).map Prod.fst)

def barePuncts (T : PyStr) : PyStr :=
  match ownSigns T true with
  | [] => puncts
  | _ => puncts.filter fun c => !(strMem [c] ((ownSigns T true).map Prod.fst))

def signsFor (T : PyStr) (nat : Bool) : List PyStr :=
  match Gim.getD Gim.fina T with
  | [] => latinSigns ++ oneEach (ownPuncts T)
  | _ => (latinSigns ++ oneEach (ownPuncts T)).filter fun l => noFinal T (signImage T nat l)

def semWriteOk (H : Nat) (T : PyStr) (nat : Bool) (p : Prog) : Bool :=
  withNat (maskOf (barePuncts T)) fun B => withNat (Nat.lor H B) fun I => withNat (maskOf (outChars T)) fun O =>
    keysOff B (fromLatinTable T) && keysOff B Gim.simplify &&
    runsOk I 0 p (signsFor T nat) fun K => tokInMask O K && K.all fun p => strEq p.2 (signImage T nat p.1)

def semNativeOk (H : Nat) (T : PyStr) : Bool :=
  withNat (Nat.lor H (maskOf (outChars T))) fun I => runsOk I 0 (semNative T).prog [] fun _ => true

def unshieldOk : Bool :=
  withNat (maskOf (semiticNames.flatMap outChars)) fun I =>
    runsOk I 0 (PreProcess.retainLatin true).prog (oneEach shields) fun K =>
      romanPlain.all fun c => tokIs K (shieldOf c) [c]

def semAfterOk (T : PyStr) (nat : Bool) : Bool :=
  withNat (maskOf (outChars T ++ plainChars)) fun I => runsOk I 0 (semAfter T nat).prog [] fun _ => true

/-! ## The checks hold -/

def readReps (S : PyStr) : List PyStr :=
  match pyIn S Gim.vocalized with
  | true => us!["Armi", "Arab"]
  | false => us!["Armi"]

set_option maxRecDepth 1000000

theorem semBefore_all : semiticNames.all (fun S => semBeforeOk S (u! "Armi") && semBeforeOk S (u! "Syre")) = true := by
  decide +kernel

theorem shieldOk_true : shieldOk = true := by decide +kernel

theorem unshieldOk_true : unshieldOk = true := by decide +kernel

theorem semRead_all : (withNat (maskOf semiticChars) fun M => withNat (maskOf (shields ++ puncts)) fun P =>
    semiticNames.all fun S => (readReps S).all fun T => semReadOk M P S T) = true := by
  decide +kernel

theorem semWrite_all : (withNat (maskOf shields) fun H =>
    semiticNames.all fun T => semWriteOk H T false (semWrite T).prog) = true := by
  decide +kernel

theorem semNative_all : (withNat (maskOf shields) fun H =>
    semWriteOk H (u! "Arab") true (do semWrite (u! "Arab"); semNative (u! "Arab")).prog &&
    semiticNames.all fun T => match strEq T (u! "Arab") with | true => true | false => semNativeOk H T) = true := by
  decide +kernel

theorem semAfter_all : semiticNames.all (fun T => semAfterOk T false && semAfterOk T true) = true := by
  decide +kernel

end Verif
