import Verif.Model.Crunch
import Verif.Model.Fns7

/-!
# Text functions of ConvertFix.py, PreProcess.py and PostProcess.py, part 8

Generated by tools/genfuncs.py, in dependency order, one definition per Python function and one
line per statement.
-/

set_option maxRecDepth 20000
set_option linter.unusedVariables false

namespace Verif

/-- PostProcess.py:488-491 -/
def PostProcess.ArabicGimelGaGha : Gen Unit := do
  replace (u! "ج") (u! "غ")
  pure ()

/-- PostProcess.py:494-497 -/
def PostProcess.ArabicGimelPaBa : Gen Unit := do
  replace (u! "ف") (u! "ب")
  pure ()

/-- PostProcess.py:500-536 -/
def PostProcess.BurmeseRomanLoCSource : Gen Unit := do
  replace (u! "ʻ") (u! "")
  let yrvh := (((pySlice (modAttr (u! "Burmese") .ConsonantMap) (some 25) (some 27)) ++ (pySlice (modAttr (u! "Burmese") .ConsonantMap) (some 28) (some 29))) ++ (pySlice (modAttr (u! "Burmese") .ConsonantMap) (some 32) (some 33)))
  let yrvhPat := (pyJoin (u! "") yrvh)
  reSub ((u! "(်)(္)([") ++ yrvhPat ++ (u! "])")) (u! "\\2\\3")
  let virsub := (u! "္")
  let yrvhsub := [(u! "ျ"), (u! "ြ"), (u! "ွ"), (u! "ှ")]
  forEach (pyZip yrvh yrvhsub) fun (x, y) => do
    replace (virsub ++ x) y
  let vowDep := (pySplit (u! "အော် အော အိ အီ အု အူ အေ") (u! " "))
  let vowIndep := (pySplit (u! "ဪ ဩ ဣ ဤ ဥ ဦ ဧ") (u! " "))
  replace (u! "ʼ") (u! "’")
  forEach (pyZip vowDep vowIndep) fun (x, y) => do
    replace ((u! "’") ++ y) x
  replace (u! "ုဣ") (u! "ို")
  replace (u! "’အ") (u! "အ")
  replace (u! "့်") (u! "့်")
  pure ()

/-- PostProcess.py:539-546 (uses the `regex` module) -/
def PostProcess.removeSegmentSpacesBurmese : Gen Unit := do
  reSub (u! "(\\p{L}\\p{M}*) (\\p{L})") (u! "\\1\\2")
  reSub (u! "(\\p{L}\\p{M}*) (\\p{L})") (u! "\\1\\2")

/-- PostProcess.py:548-551 -/
def PostProcess.UseAlternateo1 : Gen Unit := do
  replace (u! "ᩮᩣ") (u! "ᩰ")
  pure ()

/-- PostProcess.py:554-557 -/
def PostProcess.UseAlternateo2 : Gen Unit := do
  replace (u! "ᩰ") (u! "ᩮᩣ")
  pure ()

/-- PostProcess.py:560-561 -/
def PostProcess.ThamLoCRomanLoCTarget : Gen Unit := do
  pure ()

/-- PostProcess.py:563-570 -/
def PostProcess.ThamLoCRomanLoCSource : Gen Unit := do
  replace (u! "᩿") (u! "᩠")
  replace (u! "ᩱᨿ᩺") (u! "ᩱ᩠ᨿ")
  pure ()

/-- PostProcess.py:573-587 -/
def PostProcess.KhmerLoCRomanLoCTarget : Gen Unit := do
  host .nfc
  reSub (u! "(ʹ)(′?)(?=[aāiīuūẏȳeoăáâààáéíóúàèìòùă])") (u! "\\2")
  replace (u! "oḥ") (u! "oaḥ")
  replace (u! "  ") (u! " ")
  pure ()

/-- PostProcess.py:589-612 -/
def PostProcess.KhmerLoCRomanLoCSource : Gen Unit := do
  let t1 ← crunchSymbols GM.Consonants (u! "Khmer")
  let ListC := (pyJoin (u! "|") t1)
  let t2 ← crunchSymbols GM.VowelSigns (u! "Khmer")
  let ListV := (pyJoin (u! "|") t2)
  let t3 ← crunchSymbols GM.CombiningSigns (u! "Khmer")
  let ListA := (pyJoin (u! "|") t3)
  let t4 ← index (modAttr (u! "Khmer") .ViramaMap) 0
  let vir := t4
  reSub (u! "(់)(.)") (u! "\\2\\1")
  reSub ((((((((u! "(") ++ ListC) ++ (u! ")")) ++ (u! "(")) ++ ListV) ++ (u! ")(")) ++ ListA) ++ (u! ")?([៎៏])")) (u! "\\1\\4\\2\\3")
  reSub (u! "([ងញមបយរវ])(៉)([ិឹីឺ])") (u! "\\1ុ\\3")
  reSub (u! "([សហអ])(៊)([ិឹីឺ])") (u! "\\1ុ\\3")
  replace vir (u! "")
  pure ()

/-- PostProcess.py:615-619 -/
def PostProcess.ShanLoCRomanLoCTarget : Gen Unit := do
  reSub (u! "(ʻ)([̢̐])") (u! "\\2\\1")
  reSub (u! "(ō)([̢̐]?)(ʻ)") (u! "\\1\\2")
  pure ()

/-- PostProcess.py:621-650 -/
def PostProcess.ShanLoCRomanLoCSource : Gen Unit := do
  let yrv := ((pySlice (modAttr (u! "Burmese") .ConsonantMap) (some 25) (some 27)) ++ (pySlice (modAttr (u! "Burmese") .ConsonantMap) (some 28) (some 29)))
  let vir := (u! "်")
  let yrvsub := [(u! "ျ"), (u! "ြ"), (u! "ႂ")]
  forEach (pyZip yrv yrvsub) fun (x, y) => do
    replace (vir ++ x) y
  replace (u! "ʼ") (u! "’")
  replace (u! "’") (u! "")
  replace (u! "ʻ") (u! "")
  replace (u! "ͮ") (u! "ႂ်")
  let cons := (u! "[ၵၶၷꧠငၸꧡꩡꧢၺꩦꩧꩨꩩꧣတထၻꩪၼပၽၿꧤမယရလဝသႁꩮၹၾႀဢ]")
  let open' := [(u! "ႃ"), (u! "ႄ"), (u! "ေ")]
  let closed := [(u! "ၢ"), (u! "ႅ"), (u! "ဵ")]
  forEach (pyZip open' closed) fun (o, c) => do
    reSub (((((((((u! "(") ++ cons) ++ (u! ")")) ++ (u! "(")) ++ o) ++ (u! ")")) ++ (u! "(")) ++ cons) ++ (u! ")")) (((u! "\\1") ++ c) ++ (u! "\\3"))
  pure ()

/-- PostProcess.py:653-680 -/
def PostProcess.BurmeseRomanLoCTarget : Gen Unit := do
  replace (u! "˳") (u! "ʹ")
  replace (u! "auʻ") (u! "oʻ")
  replace (u! "ḥ") (u! "ʺ")
  let chars_misc := [((u! "e*"), (u! "၏")), ((u! "n*"), (u! "၌")), ((u! "r*"), (u! "၍")), ((u! "l*"), (u! "၎"))]
  forEach chars_misc fun (lat, bur) => do
    replace bur lat
  pure ()

/-- PostProcess.py:684-699 -/
def PostProcess.insertARomanSemitic : Gen Unit := do
  replace (u! "ʽ") (u! "")
  let consonantsAll := (((u! "(") ++ (pyJoin (u! "|") (sortByLenDesc GM.SemiticConsonants))) ++ (u! ")"))
  let vowelsAll := (((u! "(") ++ (pyJoin (u! "|") GM.SemiticVowels)) ++ (u! ")"))
  reSub (((consonantsAll ++ (u! "(?![꞉ʰ])(?!")) ++ vowelsAll) ++ (u! ")")) ((u! "\\1") ++ (u! "a"))
  reSub (((u! "(꞉)(?!ʰ)(?!") ++ vowelsAll) ++ (u! ")")) ((u! "\\1") ++ (u! "a"))
  pure ()

/-- PostProcess.py:703-731 -/
def PostProcess.FixSemiticRoman (Target : PyStr) : Gen Unit := do
  let vir := (u! "̽")
  reSub (u! "ō̂̄̂") (u! "ō̂")
  branch (pyIn (u! "Arab") Target)
    (do
      let t1 ← crunchSymbols GM.Consonants (u! "RomanSemitic")
      let consonantsAll := (((u! "(") ++ (pyJoin (u! "|") (sortByLenDesc t1))) ++ (u! ")"))
      reSub ((consonantsAll ++ vir) ++ (u! "\\1")) ((u! "\\1") ++ (u! "꞉"))
      pure ())
    (do
      pure ())
  reSub (u! "âQ") (u! "ʿ")
  reSub (u! "aQ") (u! "Qa")
  let SemiticIndic := [((u! "ʾQā"), (u! "ā̂Q")), ((u! "ʾQi"), (u! "îQ")), ((u! "ʾQī"), (u! "ī̂Q")), ((u! "ʾQu"), (u! "ûQ")), ((u! "ʾQū"), (u! "ū̂Q")), ((u! "ʾQe"), (u! "êQ")), ((u! "ʾQē"), (u! "ē̂Q")), ((u! "ʾQo"), (u! "ôQ")), ((u! "ʾQō"), (u! "ō̂Q")), ((u! "ṣ"), (u! "sQ")), ((u! "ʿ"), (u! "ʾQ")), ((u! "ṭ"), (u! "tQ")), ((u! "ḥ"), (u! "hQ")), ((u! "ḍ"), (u! "dQ")), ((u! "p̣"), (u! "pQ")), ((u! "ž"), (u! "šQ")), ((u! "ž"), (u! "zQ")), ((u! "ẓ"), (u! "jʰQ")), ((u! "ḏ"), (u! "dʰQ")), ((u! "ṯ"), (u! "tʰQ")), ((u! "w"), (u! "vQ"))]
  forEach SemiticIndic fun (s, i) => do
    replace i s
  replace (u! "̽̽") (u! "̽")
  pure ()

/-- PostProcess.py:734-738 -/
def PostProcess.ArabAtoAleph : Gen Unit := do
  replace (u! "أ") (u! "ا")
  pure ()

/-- PostProcess.py:741-743 -/
def PostProcess.estrangelasyriac : Gen Unit := do
  pure ()

/-- PostProcess.py:746-748 -/
def PostProcess.easternsyriac : Gen Unit := do
  pure ()

/-- PostProcess.py:751-753 -/
def PostProcess.westernsyriac : Gen Unit := do
  pure ()

/-- PostProcess.py:756-758 -/
def PostProcess.kawitan : Gen Unit := do
  pure ()

/-- PostProcess.py:760-762 -/
def PostProcess.sundapura : Gen Unit := do
  pure ()

/-- PostProcess.py:764-770 -/
def PostProcess.readableItrans : Gen Unit := do
  let pairsReadable := [((u! "R^i"), (u! "RRi")), ((u! "R^I"), (u! "RRii")), ((u! ""), (u! "")), ((u! ""), (u! "")), ((u! "A"), (u! "aa")), ((u! "I"), (u! "ii")), ((u! "U"), (u! "uu")), ((u! "Ch"), (u! "chh")), ((u! "kSh"), (u! "x")), ((u! "M"), (u! ".m"))]
  forEach pairsReadable fun (x, y) => do
    replace x y
  pure ()

/-- PostProcess.py:2001-2010 -/
def PostProcess.AnusvaratoNasalASTISO : Gen Unit := do
  reSub (u! "(ṃ|ṁ)(k|g)") ((u! "ṅ") ++ (u! "\\2"))
  reSub (u! "(ṃ|ṁ)(c|j)") ((u! "ñ") ++ (u! "\\2"))
  reSub (u! "(ṃ|ṁ)(ṭ|ḍ)") ((u! "ṇ") ++ (u! "\\2"))
  reSub (u! "(ṃ|ṁ)(t|d)") ((u! "n") ++ (u! "\\2"))
  reSub (u! "(ṃ|ṁ)(p|b)") ((u! "m") ++ (u! "\\2"))
  pure ()

/-- PostProcess.py:773-777 -/
def PostProcess.NasalTilde : Gen Unit := do
  PostProcess.AnusvaratoNasalASTISO
  reSub (u! "(m̐|ṃ|ṁ)") (u! "̃")
  pure ()

/-- PostProcess.py:780-782 -/
def PostProcess.siddhamBija : Gen Unit := do
  pure ()

/-- PostProcess.py:785-787 -/
def PostProcess.verticalKana : Gen Unit := do
  pure ()

/-- PostProcess.py:790-792 -/
def PostProcess.verticalSiddham : Gen Unit := do
  pure ()

/-- PostProcess.py:795-797 -/
def PostProcess.vtobJapanese : Gen Unit := do
  pure ()

/-- PostProcess.py:800-803 -/
def PostProcess.SogdReshAyin : Gen Unit := do
  replace (u! "𐼽") (u! "𐽀")
  pure ()

/-- PostProcess.py:806-809 -/
def PostProcess.SogoReshAyinDaleth : Gen Unit := do
  replace (u! "𐼓") (u! "𐼘")
  pure ()

/-- PostProcess.py:812-814 -/
def PostProcess.arabPaFa : Gen Unit := do
  replace (u! "پ") (u! "ف")
  pure ()

/-- PostProcess.py:818-820 -/
def PostProcess.arabChaSa : Gen Unit := do
  replace (u! "چ") (u! "س")
  pure ()

/-- PostProcess.py:835-836 -/
def PostProcess.gainGimel : Gen Unit := do
  replace (u! "ק") (u! "ק̈")
  pure ()

/-- PostProcess.py:827-828 -/
def PostProcess.tavTwodot : Gen Unit := do
  replace (u! "ת") (u! "ת̈")
  pure ()

/-- PostProcess.py:831-832 -/
def PostProcess.tavThreedot : Gen Unit := do
  replace (u! "תׄ") (u! "ת֒")
  pure ()

/-- PostProcess.py:839-848 -/
def PostProcess.tokushuon : Gen Unit := do
  replace (u! "si") (u! "suxi")
  replace (u! "zi") (u! "zuxi")
  replace (u! "yi") (u! "ixi")
  replace (u! "fy") (u! "fux")
  replace (u! "nye") (u! "nixe")
  reSub (u! "(?<![sc])hu") (u! "hoxu")
  reSub (u! "(?<![sc])hye") (u! "hixe")
  pure ()

/-- PostProcess.py:851- (`kana2roman`: not modelled) -/
def PostProcess.JapanesePostProcess (src tgt : PyStr) (nativize : Bool) (postoptions : List PyStr) : Gen Unit :=
  host (.japanesePost src tgt nativize postoptions)

/-- PostProcess.py:963-966 -/
def PostProcess.urduRemoveInherent : Gen Unit := do
  reSub (u! "\\Ba") (u! "")
  pure ()

/-- PostProcess.py:969-978 -/
def PostProcess.HebrewVetVav : Gen Unit := do
  let shortVowels := (((u! "(") ++ (pyJoin (u! "|") [(u! "ַ"), (u! "ָ"), (u! "ִ"), (u! "ֻ"), (u! "ֵ"), (u! "ֶ"), (u! "ֹ"), (u! "ְ")])) ++ (u! ")"))
  reSub ((((shortVowels ++ (u! "(")) ++ (u! "ו")) ++ (u! ")")) ++ (u! "(?!ּ)")) ((u! "\\1") ++ (u! "ב"))
  replace (u! "בֺ") (u! "בֹ")
  pure ()

/-- PostProcess.py:980-982 -/
def PostProcess.devanagariuttara : Gen Unit := do
  pure ()

end Verif
