import Verif.Model.Crunch
import Verif.Model.Fns13

/-!
# Text functions of ConvertFix.py, PreProcess.py and PostProcess.py, part 14

Generated by tools/genfuncs.py, in dependency order, one definition per Python function and one
line per statement.
-/

set_option maxRecDepth 20000
set_option linter.unusedVariables false

namespace Verif

/-- PostProcess.py:3486-3496 -/
def PostProcess.PhagsPaRearrange (Target : PyStr) : Gen Unit := do
  let t1 ← crunchList .ViramaMap Target
  let t2 ← index t1 0
  let vir := t2
  let t3 ← crunchSymbols GM.Consonants Target
  let ListC := (pyJoin (u! "|") t3)
  let t4 ← crunchSymbols GM.Vowels Target
  let ListV := (pyJoin (u! "|") t4)
  let t5 ← crunchSymbols GM.VowelSignsNV Target
  let ListVS := (pyJoin (u! "|") t5)
  reSub (((((((u! "(?<!( |") ++ vir) ++ (u! "))")) ++ (u! "(")) ++ ListC) ++ (u! ")")) ++ (u! "(?= )")) ((u! "\\2") ++ vir)
  replace (u! " ") (u! "")
  replace (u! "᠂") (u! " ")
  replace (u! "᠃") (u! " ")
  pure ()

/-- PostProcess.py:3499-3507 -/
def PostProcess.DevanagariAVowels : Gen Unit := do
  let oldVowels := ((pySlice (modAttr (u! "Devanagari") .VowelMap) (some 2) (some 12)) ++ (pySlice (modAttr (u! "Devanagari") .SouthVowelMap) none (some 1)))
  let t1 ← index (modAttr (u! "Devanagari") .VowelMap) 0
  let a := t1
  let newAVowels := (((pySlice (modAttr (u! "Devanagari") .VowelSignMap) (some 1) (some 11)) ++ (pySlice (modAttr (u! "Devanagari") .SouthVowelSignMap) none (some 1))).map fun x => (a ++ x))
  forEach (pyZip oldVowels newAVowels) fun (x, y) => do
    replace x y
  pure ()

/-- PostProcess.py:3510-3536 -/
def PostProcess.AnusvaraToNasalIPA : Gen Unit := do
  replace (u! "̃k") (u! "ŋk")
  replace (u! "̃g") (u! "ŋg")
  replace (u! "̃c") (u! "ɲc")
  replace (u! "̃j") (u! "ɲj")
  replace (u! "̃t̪") (u! "n̪t̪")
  replace (u! "̃d̪") (u! "n̪d̪")
  replace (u! "̃ɖ") (u! "ɳɖ")
  replace (u! "̃ʈ") (u! "ɳʈ")
  replace (u! "̃ːk") (u! "ːŋk")
  replace (u! "̃ːg") (u! "ːŋg")
  replace (u! "̃ːc") (u! "ːɲc")
  replace (u! "̃ːj") (u! "ːɲj")
  replace (u! "̃ːt̪") (u! "ːn̪t̪")
  replace (u! "̃ːd̪") (u! "ːn̪d̪")
  replace (u! "̃ːɖ") (u! "ːɳɖ")
  replace (u! "̃ːʈ") (u! "ːɳʈ")
  pure ()

/-- PostProcess.py:3539-3543 -/
def PostProcess.IPARemoveCross : Gen Unit := do
  replace (u! "×") (u! "")
  pure ()

/-- PostProcess.py:3546-3548 -/
def PostProcess.ChakmaAVowels : Gen Unit := do
  pure ()

/-- PostProcess.py:3550-3559 -/
def PostProcess.ZanabazarSquareContextual : Gen Unit := do
  let yrlv := (pySlice (modAttr (u! "ZanabazarSquare") .ConsonantMap) (some 25) (some 29))
  let yrlv_sub := [(u! "𑨻"), (u! "𑨼"), (u! "𑨽"), (u! "𑨾")]
  forEach (pyZip yrlv yrlv_sub) fun (x, y) => do
    replace ((u! "𑩇") ++ x) y
  let t1 ← index yrlv 1
  reSub (((u! "(?<!𑩇)") ++ t1) ++ (u! "𑩇")) (u! "𑨺")
  pure ()

/-- PostProcess.py:3561-3565 -/
def PostProcess.ZanabazarSquareAiAu : Gen Unit := do
  replace (u! "𑨄𑨊") (u! "𑨇")
  replace (u! "𑨆𑨊") (u! "𑨈")
  pure ()

/-- PostProcess.py:3567-3570 -/
def PostProcess.ZanabazarSquareMongolianFinal : Gen Unit := do
  let t1 ← index (modAttr (u! "ZanabazarSquare") .ViramaMap) 0
  replace t1 (u! "𑨳")
  pure ()

/-- PostProcess.py:3572-3575 -/
def PostProcess.TamilRemoveApostrophe : Gen Unit := do
  replace (u! "ʼ") (u! "")
  replace (u! "ˮ") (u! "")
  pure ()

/-- PostProcess.py:3577-3583 -/
def PostProcess.TamilRemoveNumbers : Gen Unit := do
  let numerals := [(u! "²"), (u! "³"), (u! "⁴"), (u! "₂"), (u! "₃"), (u! "₄"), (u! "¹"), (u! "₁")]
  forEach numerals fun num => do
    replace num (u! "")
  pure ()

/-- PostProcess.py:3585-3589 -/
def PostProcess.NewaSpecialTa : Gen Unit := do
  replace (u! "𑐟𑑂") (u! "𑐟𑑂\u200d")
  pure ()

/-- PostProcess.py:3591-3597 -/
def PostProcess.TamilDisableSHA : Gen Unit := do
  replace (u! "ஶ") (u! "ஷ²")
  ConvertFix.ShiftDiacritics (u! "Tamil")
  replace (u! "ஷ்²ரீ") (u! "ஶ்ரீ")
  pure ()

/-- PostProcess.py:3599-3608 -/
def PostProcess.swapEe : Gen Unit := do
  replace (u! "E") (u! "X@X@")
  replace (u! "e") (u! "E")
  replace (u! "X@X@") (u! "e")
  replace (u! "O") (u! "X@X@")
  replace (u! "o") (u! "O")
  replace (u! "X@X@") (u! "o")
  pure ()

/-- PostProcess.py:3610-3619 -/
def PostProcess.swapEeItrans : Gen Unit := do
  replace (u! "^e") (u! "X@X@")
  replace (u! "e") (u! "E")
  replace (u! "X@X@") (u! "e")
  replace (u! "^o") (u! "X@X@")
  replace (u! "o") (u! "O")
  replace (u! "X@X@") (u! "o")
  pure ()

/-- PostProcess.py:3621-3633 (upper-cases its own matches: not modelled) -/
def PostProcess.capitalizeSentence : Gen Unit := host .capitalize

/-- PostProcess.py:3635-3638 -/
def PostProcess.NewaDisableRepha : Gen Unit := do
  replace (u! "𑐬𑑂") (u! "𑐬𑑂\u200d")
  pure ()

end Verif
