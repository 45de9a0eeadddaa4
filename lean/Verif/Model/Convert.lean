import Verif.Model.PostOptions
import Verif.Model.Gimeltra

/-!
# Convert.py: conversion between two scripts
-/

namespace Verif

/-- GeneralMap.py:90 `ScriptAll`, each group resolved by `retCharList` (GeneralMap.py:22-23). -/
def scriptAllGroups : List (PyStr × List Sec) := [
  ((u! "Aytham"), GM.Aytham), ((u! "Signs"), GM.Signs), ((u! "CombiningSigns"), GM.CombiningSigns),
  ((u! "VowelSigns"), GM.VowelSigns), ((u! "Vowels"), GM.Vowels), ((u! "Consonants"), GM.Consonants),
  ((u! "Numerals"), GM.Numerals)]

/-- Convert.py:38, 161: `GM.Vowels+GM.Consonants+GM.CombiningSigns+GM.Numerals+GM.Signs+GM.Aytham` -/
def interSecs : List Sec :=
  GM.Vowels ++ GM.Consonants ++ GM.CombiningSigns ++ GM.Numerals ++ GM.Signs ++ GM.Aytham

/-- `for x, y in pairs: Strng = Strng.replace(x, y)` -/
def replaceAll (pairs : List (PyStr × PyStr)) : Gen Unit := forEach pairs fun (x, y) => replace x y

/-- Convert.py:37-48 `convertInter` -/
def convertInter (Source : PyStr) : Gen Unit := do
  let s ← crunchSymbols interSecs Source
  let t ← crunchSymbols interSecs GM.Inter
  replaceAll (sortPairsByLenDesc (pyZip s t))

/-- The pairs of all groups, each group sorted in reverse, concatenated and sorted by length
(Convert.py:110-124, 197-208, 241-258); `src` and `tgt` decorate the letters of a group. -/
def charPairs (src tgt : PyStr → List PyStr → List PyStr) (Source Target : PyStr) :
    Gen (List (PyStr × PyStr)) := do
  let groups ← pmap scriptAllGroups fun (name, secs) => do
    let s ← crunchSymbols secs Source
    let t ← crunchSymbols secs Target
    pure (sortPairsDesc (pyZip (src name s) (tgt name t)))
  pure (sortPairsByLenDesc groups.flatten)

/-- `` and `ṿ` (Convert.py:55-56) -/
def Schwa : PyStr := [0xF000]
/-- See `Schwa`. -/
def DepV : PyStr := [0x1E7F]

/-- Convert.py:78-79, 182-183: the pattern of punctuation around an Om -/
def omPunc (signs : List PyStr) : PyStr :=
  (u! "(") ++ pyJoin (u! "|") ((pyChars string_punctuation).map (fun x => (u! "\\") ++ x) ++ [u! "\\s"]
    ++ (pySlice signs (some 1) (some 3)).map (fun x => pyReplace x (u! ".") (u! "\\."))) ++ (u! ")")

/-- The four substitutions of an Om surrounded by `punc` (Convert.py:83-86, 90-93, 188-191) -/
def omSubs (punc sOm tOm : PyStr) : Gen Unit := do
  reSub (punc ++ sOm ++ punc) ((u! "\\1") ++ tOm ++ (u! "\\2"))
  reSub ((u! "^") ++ sOm ++ punc) (tOm ++ (u! "\\1"))
  reSub (punc ++ sOm ++ (u! "$")) ((u! "\\1") ++ tOm)
  reSub ((u! "^") ++ sOm ++ (u! "$")) tOm

/-- `try: Strng = getattr(CF, "Fix" + Source)(Strng, reverse=True)` / `except AttributeError: pass` -/
def tryFixReverse (Source : PyStr) : Gen Unit :=
  match dictGet? fixIndicFns Source with
  | some f => tryAttr (f true)
  | none => pure ()

/-- ConvertFix.py:372-376 `try: Strng = globals()["Fix"+Target](Strng)` / `except KeyError: pass`.
The `Fix` functions of the modelled scripts raise no `KeyError` (proved with the programs). -/
def fixForward (Target : PyStr) : Gen Unit :=
  match dictGet? fixIndicFns Target with
  | some f => f false
  | none => pure ()

/-- ConvertFix.py:381 `vedicScripts` -/
def vedicScripts : List PyStr :=
  us!["Assamese", "Bengali", "Devanagari", "Gujarati", "Kannada", "Malayalam", "Oriya", "Gurmukhi", "Tamil", "Telugu", "TamilExtended", "Grantha", "Sharada"]

/-- ConvertFix.py:367-390 `FixIndicOutput` (its `Source` argument is not used) -/
def fixIndicOutput (Target : PyStr) : Gen Unit := do
  let v ← crunchList .ViramaMap Target
  let vir ← index v 0
  replace (vir ++ (u! "_")) vir
  fixForward Target
  replace (u! "ʽ") (u! "")
  ConvertFix.ShiftDiacritics Target false
  branch (!(pyIn Target vedicScripts))
    (do
      replace (u! "॒") (u! "↓")
      replace (u! "᳚") (u! "↑↑")
      replace (u! "॑") (u! "↑"))
    (pure ())

/-- ConvertFix.py:355-363 `FixSemiticOutput` -/
def fixSemiticOutput (Source Target : PyStr) : Gen Unit := do
  replace (u! "˞") (u! "")
  match dictGet? fixSemiticFns Target with
  | some f => f Source false
  | none => pure ()

/-- Convert.py:289-292, 341-344 -/
def tryFixSemiticReverse (Source : PyStr) : Gen Unit :=
  match dictGet? fixSemiticFns Source with
  | some f => tryAttr (f Source true)
  | none => pure ()

/-- Convert.py:61-148: Roman to Indic -/
def latinToIndic (Source Target : PyStr) : Gen Unit := do
  tryFixReverse Source
  branch (pyIn Source us!["IAST", "ISO", "ISOPali", "Titus"]) (replace (u! "ŭ") (u! "u×")) (pure ())
  replace (u! "{}") (u! "‌")
  replace (u! "()") (u! "‍")
  ConvertFix.VedicSvarasLatinIndic Source
  let signs ← crunchSymbols GM.Signs Source
  let so ← crunchList .OmMap Source
  let sOm ← index so 0
  let to ← crunchList .OmMap Target
  let tOm ← index to 0
  omSubs (omPunc signs) sOm tOm
  omSubs (u! "(\\s)") sOm tOm
  convertInter Source
  PreProcess.RomanPreFix GM.Inter
  replace (u! "ṿ×_") (u! "ṿ")
  replace (u! "ṿ×_") (u! "ṿ")
  let cons ← crunchSymbols GM.Consonants GM.Inter
  let _ha ← index cons 32
  let pairs ← charPairs (fun n l => match pyEq n (u! "VowelSigns") with
      | true => l.map (fun x => DepV ++ x)
      | false => l) (fun _ l => l) GM.Inter Target
  replaceAll pairs
  let tv ← crunchSymbols GM.Vowels Target
  let i ← index tv 2
  replace ((u! "_") ++ i) i
  let u ← index tv 4
  replace ((u! "_") ++ u) u
  let v ← crunchList .ViramaMap Target
  let vir ← index v 0
  replace (vir ++ (u! "[]")) ((u! "‍") ++ vir)
  replace (u! "×") vir
  fixIndicOutput Target

/-- Convert.py:152-170: Roman to Roman -/
def latinToLatin (Source Target : PyStr) : Gen Unit := do
  tryFixReverse Source
  convertInter Source
  let s ← crunchSymbols interSecs GM.Inter
  let t ← crunchSymbols interSecs Target
  replaceAll (pyZip s t)
  ConvertFix.PostFixRomanOutput Source Target

/-- Convert.py:187-194: the Om of Indic text -/
def indicOm (signs : List PyStr) (sOm tOm : PyStr) : Gen Unit :=
  match Nat.beq sOm.length 1 with
  | false => omSubs (omPunc signs) sOm tOm
  | true => replace sOm tOm

/-- Convert.py:172-223: Indic to Indic -/
def indicToIndic (Source Target : PyStr) : Gen Unit := do
  PreProcess.RemoveJoiners
  ConvertFix.ShiftDiacritics Source true
  tryFixReverse Source
  let signs ← crunchSymbols GM.Signs Source
  let so ← crunchList .OmMap Source
  let sOm ← index so 0
  let to ← crunchList .OmMap Target
  let tOm ← index to 0
  indicOm signs sOm tOm
  let pairs ← charPairs (fun _ l => l) (fun _ l => l) Source Target
  replaceAll pairs
  fixIndicOutput Target

/-- Convert.py:262 `unasp` -/
def romanSemiticUnasp : List PyStr := us!["k", "g", "c", "j", "t", "d", "p", "b", "ɽ", "ʈ", "ɖ", "r"]

/-- Convert.py:225-284: Indic to Roman -/
def indicToLatin (Source Target : PyStr) : Gen Unit := do
  PreProcess.RemoveJoiners
  ConvertFix.ShiftDiacritics Source true
  tryFixReverse Source
  let so ← crunchList .OmMap Source
  let sOm ← index so 0
  let to ← crunchList .OmMap Target
  let tOm ← index to 0
  replace sOm tOm
  let pairs ← charPairs (fun _ l => l) (fun n l =>
      match pyEq n (u! "Consonants"), pyEq n (u! "Vowels") with
      | true, _ => l.map (fun x => x ++ Schwa)
      | false, true => l.map (fun x => DepV ++ x)
      | false, false => l) Source Target
  branch (pyEq Source (u! "RomanSemitic"))
    (forEach (pairs.filter (fun p => !(isInfix (u! "ʰ") p.1)) ++ pairs.filter (fun p => isInfix (u! "ʰ") p.1))
      fun (x, y) =>
        branch (pyIn x romanSemiticUnasp)
          (reSub (x ++ (u! "(?!(ʰ|̤))")) y)
          (replace x y))
    (replaceAll pairs)
  ConvertFix.FixRomanOutput Target
  ConvertFix.VedicSvarsIndicLatin
  ConvertFix.PostFixRomanOutput Source Target

/-- The branches of `convertScript` that do not call it again (Convert.py:61-284), followed by
`PP.default` (Convert.py:362); `none` when the branch is not one of them. -/
def convertIndic (Source Target : PyStr) : Option (Gen Unit) :=
  match pyIn Source GM.LatinScripts, pyIn Source GM.IndicScripts, pyIn Target GM.LatinScripts, pyIn Target GM.IndicScripts with
  | true, _, _, true => some (latinToIndic Source Target)
  | true, _, true, _ => some (latinToLatin Source Target)
  | _, true, _, true => some (indicToIndic Source Target)
  | _, true, true, _ => some (indicToLatin Source Target)
  | _, _, _, _ => none

/-- Convert.py:288-304: Semitic to Semitic -/
def semiticToSemitic (Source Target : PyStr) : Gen Unit := do
  tryFixSemiticReverse Source
  branch (pyEq Source (u! "Ugar")) (replace (u! "𐎟") (u! " ")) (pure ())
  Gim.tr Source Target
  fixSemiticOutput Source Target

/-- `convertScript(Strng, Source, Target)` for scripts known to be Indic or Roman: one of the
first four branches and `PP.default`. -/
def convertIndicDefault (Source Target : PyStr) : Gen Unit := do
  match convertIndic Source Target with
  | some g => g
  | none => pure ()
  PostProcess.default

/-- `'Arab' not in Target and 'Hebr' not in Target and 'Latn' not in Target` (Convert.py:320) -/
def noGemination (Target : PyStr) : Bool :=
  !(isInfix (u! "Arab") Target) && !(isInfix (u! "Hebr") Target) && !(isInfix (u! "Latn") Target)

/-- Convert.py:306-338: Indic or Roman to Semitic, through `RomanSemitic` -/
def indicToSemitic (Source Target : PyStr) : Gen Unit := do
  convertIndicDefault Source (u! "RomanSemitic")
  replace (u! "QQ") (u! "")
  replace (u! "mQ") (u! "")
  branch (noGemination Target) (reSub (u! "(.)̽\\1") (u! "\\1")) (pure ())
  PostProcess.FixSemiticRoman Target
  branch (isInfix (u! "Arab") Target || pyIn Target us!["Hebr", "Syre", "Syrj", "Syrn", "Thaa"])
    PostProcess.insertARomanSemitic (pure ())
  Gim.tr (u! "Latn") Target
  fixSemiticOutput Source Target

/-- Convert.py:340-358: Semitic to Indic or Roman, through `RomanSemitic` -/
def semiticToIndic (Source Target : PyStr) : Gen Unit := do
  tryFixSemiticReverse Source
  Gim.tr Source (u! "Latn")
  fixSemiticOutput Source Target
  PreProcess.FixSemiticRoman Source
  convertIndicDefault (u! "RomanSemitic") Target
  branch (pyEq Source (u! "Ugar")) (replace (u! "𐎟") (u! " ")) (pure ())

/-- Convert.py:51-366 `convertScript`.  The two recursive calls have `RomanSemitic` (an Indic
script) on one side and an Indic or Roman script on the other, so they take one of the first four
branches and are written with `convertIndicDefault`. -/
def convertScript (Source Target : PyStr) : Gen Unit := do
  match convertIndic Source Target with
  | some g => g
  | none =>
    match pyIn Source GM.SemiticScripts, pyIn Target GM.SemiticScripts with
    | true, true => semiticToSemitic Source Target
    | false, true =>
      branch (pyIn Source GM.IndicScripts || pyIn Source GM.LatinScripts)
        (indicToSemitic Source Target) (pure ())
    | true, false =>
      branch (pyIn Target GM.IndicScripts || pyIn Target GM.LatinScripts)
        (semiticToIndic Source Target) (pure ())
    | false, false => pure ()
  PostProcess.default

end Verif
