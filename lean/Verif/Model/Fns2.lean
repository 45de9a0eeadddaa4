import Verif.Model.Crunch
import Verif.Model.Fns1

/-!
# Text functions of ConvertFix.py, PreProcess.py and PostProcess.py, part 2

Generated by tools/genfuncs.py, in dependency order, one definition per Python function and one
line per statement.
-/

set_option maxRecDepth 20000
set_option linter.unusedVariables false

namespace Verif

/-- ConvertFix.py:3373-3383 -/
def ConvertFix.LaoTranscribe (reverse : Bool := false) : Gen Unit := do
  let shortA := (u! "ະ")
  let conjA := (u! "ັ")
  branch (!reverse)
    (do
      PostProcess.ThaiLaoTranscription (u! "Lao") shortA conjA
      pure ())
    (do
      PostProcess.ThaiLaoTranscription (u! "Lao") shortA conjA (reverse := true)
      pure ())
  pure ()

/-- ConvertFix.py:2129-2167 -/
def ConvertFix.FixLao (reverse : Bool := false) : Gen Unit := do
  branch reverse
    (do
      replace (u! "ດ") (u! "ທ")
      replace (u! "ບ") (u! "ປ")
      replace (u! "ຟ") (u! "ພ")
      replace (u! "ັ") (u! "ະ")
      pure ())
    (do
      pure ())
  branch (!reverse)
    (do
      replace (u! "ທ") (u! "ດ")
      replace (u! "ປ") (u! "ບ")
      replace (u! "ພ") (u! "ຟ")
      reSub (u! "(?<!ດ)(?<!ບ)(?<!ຟ)") (u! "")
      pure ())
    (do
      pure ())
  ConvertFix.ReverseVowelSigns (u! "Lao") reverse
  ConvertFix.LaoTranscribe reverse
  branch (!reverse)
    (do
      replace (u! "າໍ") (u! "ຳ")
      replace (u! "") (u! "")
      pure ())
    (do
      replace (u! "ຳ") (u! "າໍ")
      replace (u! "຺") (u! "຺")
      replace (u! "຺ະ") (u! "")
      replace (u! "ອ຺ົ") (u! "ອົ")
      pure ())
  pure ()

/-- ConvertFix.py:2254-2281; the forward direction is `Verif.oldPersianNumeral`. -/
def ConvertFix.OldPersianNumeral (reverse : Bool := false) : Gen Unit := do
  branch (!reverse)
    (native .oldPersianNumeral)
    (do
      replace (u! "𐏑") (u! "1#")
      replace (u! "𐏒") (u! "2#")
      replace (u! "𐏓") (u! "10#")
      replace (u! "𐏔") (u! "20#")
      replace (u! "𐏕") (u! "100#"))

/-- ConvertFix.py:2199-2251 -/
def ConvertFix.OldPersianSyllable (reverse : Bool := true) : Gen Unit := do
  let ICons := ([(u! "𐎭"), (u! "𐎶"), (u! "𐎩"), (u! "𐎺"), (u! "𐎫"), (u! "𐎴"), (u! "𐎼")].map fun x => (x ++ (u! "𐎡")))
  let ICons_ := ([(u! "𐎭"), (u! "𐎶"), (u! "𐎩"), (u! "𐎺"), (u! "𐎫"), (u! "𐎴"), (u! "𐎼")].map fun x => (x ++ (u! "_𐎡")))
  let ISyll := ([(u! "𐎮"), (u! "𐎷"), (u! "𐎪"), (u! "𐎻"), (u! "𐎫"), (u! "𐎴"), (u! "𐎼")].map fun x => (x ++ (u! "𐎡")))
  let UCons := ([(u! "𐎭"), (u! "𐎶"), (u! "𐎣"), (u! "𐎥"), (u! "𐎫"), (u! "𐎴"), (u! "𐎼")].map fun x => (x ++ (u! "𐎢")))
  let UCons_ := ([(u! "𐎭"), (u! "𐎶"), (u! "𐎣"), (u! "𐎥"), (u! "𐎫"), (u! "𐎴"), (u! "𐎼")].map fun x => (x ++ (u! "_𐎢")))
  let USyll := ([(u! "𐎯"), (u! "𐎸"), (u! "𐎤"), (u! "𐎦"), (u! "𐎬"), (u! "𐎵"), (u! "𐎽")].map fun x => (x ++ (u! "𐎢")))
  let ACons := ([(u! "𐎭"), (u! "𐎶"), (u! "𐎣"), (u! "𐎥"), (u! "𐎩"), (u! "𐎺"), (u! "𐎼"), (u! "𐎴"), (u! "𐎫")].map fun x => (x ++ (u! "<𐎠")))
  let ASyll := [(u! "𐎭"), (u! "𐎶"), (u! "𐎣"), (u! "𐎥"), (u! "𐎩"), (u! "𐎺"), (u! "𐎼"), (u! "𐎴"), (u! "𐎫")]
  let SylAlpha := (u! "([𐎧𐎨𐏂𐎰𐎱𐎳𐎲𐎹𐎾𐎿𐏀𐏁𐏃])")
  let t1 ← crunchSymbols GM.Consonants (u! "OldPersian")
  let ListC := (((u! "(") ++ (pyJoin (u! "|") t1)) ++ (u! ")"))
  branch (!reverse)
    (do
      replace (u! " ") (u! "𐏐")
      replace (u! "_") (u! "")
      replace (u! "<") (u! "")
      forEach (pyZip ((ICons ++ UCons) ++ ACons) ((ISyll ++ USyll) ++ ASyll)) fun (x, y) => do
        replace x y
      pure ())
    (do
      reSub (u! "𐎻(?!𐎡)") (u! "𐎻𐎡")
      forEach (pyZip (ICons_ ++ UCons_) (ISyll ++ USyll)) fun (x, y) => do
        replace y x
      reSub (SylAlpha ++ (u! "(𐎠𐎡)")) (u! "\\1<\\2")
      reSub (SylAlpha ++ (u! "(𐎠𐎢)")) (u! "\\1<\\2")
      reSub (ListC ++ (u! "𐎠")) ((u! "\\1") ++ (u! "_𐎠"))
      reSub (SylAlpha ++ (u! "([𐎡𐎢])")) (u! "\\1_\\2")
      reSub ((((u! "([") ++ (pyJoin (u! "") ASyll)) ++ (u! "])")) ++ (u! "([𐎡𐎢])")) ((((u! "\\1") ++ (u! "<")) ++ (u! "𐎠")) ++ (u! "\\2"))
      replace (u! "𐏐") (u! " ")
      pure ())
  pure ()

/-- ConvertFix.py:2190-2194 -/
def ConvertFix.FixOldPersian (reverse : Bool := false) : Gen Unit := do
  ConvertFix.OldPersianSyllable reverse
  ConvertFix.OldPersianNumeral reverse
  pure ()

/-- PostProcess.py:3032-3047 -/
def PostProcess.SinhalaDefaultConjuncts : Gen Unit := do
  let t1 ← index (modAttr (u! "Sinhala") .ViramaMap) 0
  let vir := t1
  let YR := (pyJoin (u! "|") (pySlice (modAttr (u! "Sinhala") .ConsonantMap) (some 25) (some 27)))
  reSub ((((((u! "(") ++ vir) ++ (u! ")")) ++ (u! "(")) ++ YR) ++ (u! ")")) (((u! "\\1") ++ (u! "\u200d")) ++ (u! "\\2"))
  let t2 ← indexChar YR 2
  let t3 ← indexChar YR 0
  reSub ((((((((((((u! "(") ++ t2) ++ (u! ")")) ++ (u! "(")) ++ vir) ++ (u! ")")) ++ (u! "(")) ++ (u! "\u200d")) ++ (u! ")")) ++ (u! "(")) ++ t3) ++ (u! ")")) (u! "\\1\\3\\2\\3\\4")
  let t4 ← index (modAttr (u! "Sinhala") .ConsonantMap) 7
  let t5 ← index (modAttr (u! "Sinhala") .ViramaMap) 0
  let t6 ← index (modAttr (u! "Sinhala") .ConsonantMap) 9
  replace ((t4 ++ t5) ++ t6) (u! "ඥ")
  let t7 ← index (modAttr (u! "Sinhala") .ConsonantMap) 0
  let t8 ← index (modAttr (u! "Sinhala") .ConsonantMap) 30
  let t9 ← index (modAttr (u! "Sinhala") .ConsonantMap) 0
  let t10 ← index (modAttr (u! "Sinhala") .ConsonantMap) 30
  replace ((t7 ++ vir) ++ t8) (((t9 ++ vir) ++ (u! "\u200d")) ++ t10)
  replace (u! "ර\u200d්\u200dය") (u! "ර්ය")
  replace (u! "ර්\u200dර") (u! "ර්ර")
  pure ()

/-- ConvertFix.py:2364-2383 -/
def ConvertFix.FixSinhala (reverse : Bool := false) : Gen Unit := do
  PostProcess.SinhalaDefaultConjuncts
  branch (!reverse)
    (do
      PostProcess.RetainIndicNumerals (u! "Sinhala") true
      replace (u! "ජ්ඤ") (u! "ඥ")
      replace (u! "(අ)(අ)") (u! "(ආ)")
      pure ())
    (do
      PostProcess.RetainIndicNumerals (u! "Sinhala")
      replace (u! "ඥ") (u! "ජ්ඤ")
      replace (u! "\u200d") (u! "")
      replace (u! "(ආ)") (u! "(අ)(අ)")
      pure ())
  pure ()

/-- ConvertFix.py:2546-2596 -/
def ConvertFix.FixLimbu (reverse : Bool := false) : Gen Unit := do
  let t1 ← index (modAttr (u! "Limbu") .ViramaMap) 0
  let vir := t1
  let t3 ← pmap [25, 26, 28] fun x => (do let t2 ← index (modAttr (u! "Limbu") .ConsonantMap) x; pure t2)
  let SCons := (t3.map fun x => (vir ++ x))
  let SubCons := [(u! "ᤩ"), (u! "ᤪ"), (u! "ᤫ")]
  forEach (pyZip SCons SubCons) fun (x, y) => do
    branch (!reverse)
      (do
        replace x y
        pure ())
      (do
        replace y x
        pure ())
  let t4 ← crunchSymbols ((GM.Consonants ++ GM.Vowels) ++ GM.VowelSignsNV) (u! "Limbu")
  let signAll := (pyJoin (u! "|") t4)
  let t6 ← pmap [0, 4, 15, 19, 20, 24, 26, 27] fun x => (do let t5 ← index (modAttr (u! "Limbu") .ConsonantMap) x; pure t5)
  let FCons := (t6.map fun x => (x ++ vir))
  let FinalCons := [(u! "ᤰ"), (u! "ᤱ"), (u! "ᤳ"), (u! "ᤴ"), (u! "ᤵ"), (u! "ᤶ"), (u! "ᤷ"), (u! "ᤸ")]
  branch reverse
    (do
      reSub ((((u! "(") ++ (pyJoin (u! "|") FinalCons)) ++ (u! ")")) ++ (u! "(?=[ᤕᤖᤘ])")) ((u! "\\1") ++ (u! "\u200c"))
      reSub (u! "([ᤀᤁᤂᤃᤄᤅᤆᤇᤈᤉᤊᤋᤌᤍᤎᤏᤐᤑᤒᤓᤔᤕᤖᤗᤘᤚᤛᤜᤠᤣᤥᤧᤨᤩᤪᤫ])᤺") ((u! "\\1") ++ (u! "꞉"))
      pure ())
    (do
      replace (u! "꞉") (u! "᤺")
      pure ())
  forEach (pyZip FCons FinalCons) fun (x, y) => do
    branch (!reverse)
      (do
        reSub (((((((u! "(") ++ signAll) ++ (u! ")")) ++ (u! "(᤺?)")) ++ (u! "(")) ++ x) ++ (u! ")")) ((u! "\\1\\2") ++ y)
        pure ())
      (do
        replace y x
        pure ())
  branch (!reverse)
    (do
      replace (u! "ʔ") (u! "᤹")
      replace (u! "!") (u! "᥄")
      replace (u! "?") (u! "᥅")
      pure ())
    (do
      replace (u! "᤹") (u! "ʔ")
      replace (u! "᥄") (u! "!")
      replace (u! "᥅") (u! "?")
      pure ())
  pure ()

/-- ConvertFix.py:2537-2543 -/
def ConvertFix.FixLimbuLoC (reverse : Bool := false) : Gen Unit := do
  ConvertFix.FixLimbu reverse
  branch reverse
    (do
      replace (u! "ʔ") (u! "᤹")
      replace (u! "꞉") (u! "’")
      pure ())
    (do
      pure ())
  pure ()

/-- PostProcess.py:2359-2371 -/
def PostProcess.DevanagariPrishtamatra (reverse : Bool := false) : Gen Unit := do
  branch (!reverse)
    (do
      replace (u! "े") (u! "ॎ")
      replace (u! "ै") (u! "ॎे")
      replace (u! "ो") (u! "ॎा")
      replace (u! "ौ") (u! "ॎो")
      pure ())
    (do
      replace (u! "ॎे") (u! "ै")
      replace (u! "ॎो") (u! "ौ")
      replace (u! "ॎा") (u! "ो")
      replace (u! "ॎ") (u! "े")
      pure ())
  pure ()

/-- ConvertFix.py:2599-2649 -/
def ConvertFix.FixDevanagari (reverse : Bool := false) : Gen Unit := do
  let Sindhi := [(u! "ॻ"), (u! "ॼ"), (u! "ॾ"), (u! "ॿ")]
  let SindhiApprox := [(u! "ˍग"), (u! "ˍज"), (u! "ˍड"), (u! "ˍब")]
  branch (!reverse)
    (do
      replace (u! "ʔ") (u! "ॽ")
      forEach (pyZip Sindhi SindhiApprox) fun (x, y) => do
        replace y x
      replace (u! "ज़़") (u! "ॹ")
      replace (u! "श़") (u! "ॹ")
      replace (u! "ऱ्") (u! "ऱ्\u200c")
      replace (u! "ऱ्\u200cय") (u! "ऱ्य")
      replace (u! "ऱ्\u200cह") (u! "ऱ्ह")
      let t1 ← crunchSymbols GM.Consonants (u! "Devanagari")
      let ListC := (pyJoin (u! "|") t1)
      reSub ((((u! "(") ++ ListC) ++ (u! ")")) ++ (u! "ʼ")) ((u! "\\1") ++ (u! "ऺ"))
      replace (u! "ाʼ") (u! "ऻ")
      pure ())
    (do
      replace (u! "॔") (u! "")
      PostProcess.DevanagariPrishtamatra (reverse := true)
      replace (u! "ॽ") (u! "ʔ")
      replace (u! "ॹ") (u! "ज़़")
      forEach (pyZip Sindhi SindhiApprox) fun (x, y) => do
        replace x y
      pure ())
  pure ()

/-- ConvertFix.py:2651-2658 -/
def ConvertFix.FixKaithi (reverse : Bool := false) : Gen Unit := do
  branch (!reverse)
    (do
      replace (u! " ") (u! "⸱")
      pure ())
    (do
      replace (u! "⸱") (u! " ")
      pure ())
  pure ()

/-- ConvertFix.py:2660-2661 -/
def ConvertFix.FixLao2 (reverse : Bool := false) : Gen Unit := do
  ConvertFix.FixLao reverse
  pure ()

/-- PostProcess.py:2344-2357 -/
def PostProcess.NandinagariPrishtamatra (reverse : Bool := false) : Gen Unit := do
  branch (!reverse)
    (do
      replace (u! "𑧚") (u! "𑧤")
      replace (u! "𑧛") (u! "𑧤𑧚")
      replace (u! "𑧜") (u! "𑧤𑧑")
      replace (u! "𑧝") (u! "𑧤𑧜")
      pure ())
    (do
      replace (u! "𑧤𑧚") (u! "𑧛")
      replace (u! "𑧤𑧑") (u! "𑧜")
      replace (u! "𑧤𑧜") (u! "𑧝")
      replace (u! "𑧤") (u! "𑧚")
      pure ())
  pure ()

/-- ConvertFix.py:2663-2669 -/
def ConvertFix.FixNandinagari (reverse : Bool := false) : Gen Unit := do
  branch (!reverse)
    (do
      pure ())
    (do
      PostProcess.NandinagariPrishtamatra (reverse := true)
      pure ())
  pure ()

/-- ConvertFix.py:2673-2755 -/
def ConvertFix.FixLepcha (reverse : Bool := false) : Gen Unit := do
  let t1 ← index (modAttr (u! "Lepcha") .ViramaMap) 0
  let vir := t1
  let t2 ← index (modAttr (u! "Lepcha") .ConsonantMap) 27
  let la := t2
  let t4 ← pmap [0, 2, 20, 22, 24, 32] fun c => (do let t3 ← index (modAttr (u! "Lepcha") .ConsonantMap) c; pure t3)
  let t5 ← index (modAttr (u! "Lepcha") .NuktaConsonantMap) 6
  let conLa := ((t4 ++ [t5]).map fun x => ((x ++ vir) ++ la))
  let conL := [(u! "ᰁ"), (u! "ᰄ"), (u! "ᰏ"), (u! "ᰔ"), (u! "ᰖ"), (u! "ᰞ"), (u! "ᰒ")]
  forEach (pyZip conLa conL) fun (x, y) => do
    branch (!reverse)
      (do
        replace x y
        pure ())
      (do
        replace y x
        pure ())
  let yr := ((pySlice (modAttr (u! "Lepcha") .ConsonantMap) (some 25) (some 27)).map fun x => (vir ++ x))
  let yrSub := [(u! "ᰤ"), (u! "ᰥ")]
  forEach (pyZip yr yrSub) fun (x, y) => do
    branch (!reverse)
      (do
        replace x y
        pure ())
      (do
        replace y x
        pure ())
  let t7 ← pmap [1, 2, 3, 4, 5, 6, 7, 8, 9, 10, 11, 12, 13, 14, 16, 17, 18, 21, 22, 23, 29, 30, 31] fun x => (do let t6 ← index (modAttr (u! "Lepcha") .ConsonantMap) x; pure t6)
  let listNF := t7
  let t9 ← pmap [0, 0, 0, 34, 0, 0, 0, 0, 19, 15, 15, 15, 15, 19, 15, 15, 15, 20, 20, 20, 15, 15, 15] fun x => (do let t8 ← index ((pySlice (modAttr (u! "Lepcha") .ConsonantMap) none (some 33)) ++ (modAttr (u! "Lepcha") .AyogavahaMap)) x; pure t8)
  let listF := t9
  let listNF := (listNF ++ ((pySlice (modAttr (u! "Lepcha") .ConsonantMap) (some 25) (some 26)) ++ (pySlice (modAttr (u! "Lepcha") .ConsonantMap) (some 28) (some 29))))
  let listF := (listF ++ ((pySlice (modAttr (u! "Lepcha") .VowelMap) (some 2) (some 3)) ++ (pySlice (modAttr (u! "Lepcha") .VowelMap) (some 4) (some 5))))
  branch (!reverse)
    (do
      let t10 ← index (modAttr (u! "Lepcha") .NuktaMap) 0
      replace (t10 ++ vir) vir
      let t11 ← index (modAttr (u! "Lepcha") .ConsonantMap) 32
      replace (t11 ++ vir) (u! "")
      let consAll := (((u! "(") ++ (pyJoin (u! "|") (((modAttr (u! "Lepcha") .ConsonantMap) ++ (modAttr (u! "Lepcha") .VowelMap)) ++ (modAttr (u! "Lepcha") .VowelSignMap)))) ++ (u! ")"))
      forEach (pyZip listNF listF) fun (x, y) => do
        reSub ((((consAll ++ (u! "(")) ++ x) ++ vir) ++ (u! ")")) (((u! "\\1") ++ y) ++ vir)
      pure ())
    (do
      pure ())
  let t13 ← pmap [0, 15, 19, 20, 24, 26, 27] fun c => (do let t12 ← index (modAttr (u! "Lepcha") .ConsonantMap) c; pure t12)
  let conFinal := (t13.map fun x => (x ++ vir))
  let conF := [(u! "ᰭ"), (u! "ᰳ"), (u! "ᰰ"), (u! "ᰱ"), (u! "ᰮ"), (u! "ᰲ"), (u! "ᰯ")]
  let finConsList := (pyJoin (u! "") conF)
  let t14 ← crunchSymbols ((GM.Consonants ++ GM.Vowels) ++ GM.VowelSignsNV) (u! "Lepcha")
  let signAll := (pyJoin (u! "|") t14)
  forEach (pyZip conFinal conF) fun (x, y) => do
    branch (!reverse)
      (do
        reSub ((((((u! "(") ++ signAll) ++ (u! ")")) ++ (u! "(")) ++ x) ++ (u! ")")) ((u! "\\1") ++ y)
        pure ())
      (do
        reSub ((((u! "([") ++ finConsList) ++ (u! "])")) ++ (u! "(ᰶ)")) (u! "\\2\\1")
        replace y x
        pure ())
  let t15 ← crunchSymbols GM.VowelSignsNV (u! "Lepcha")
  let signVow := (pyJoin (u! "|") t15)
  branch (!reverse)
    (do
      replace vir (u! "")
      let t16 ← index (modAttr (u! "Lepcha") .AyogavahaMap) 1
      reSub ((((((u! "(") ++ signVow) ++ (u! ")")) ++ (u! "(")) ++ t16) ++ (u! ")")) ((u! "\\1") ++ (u! "ᰵ"))
      replace (u! "ᰧᰶᰵ") (u! "ᰧᰵᰶ")
      reSub ((((u! "(ᰶ)") ++ (u! "([")) ++ finConsList) ++ (u! "])")) (u! "\\2\\1")
      pure ())
    (do
      let t17 ← index (modAttr (u! "Lepcha") .AyogavahaMap) 1
      replace (u! "ᰵ") t17
      replace (u! "ᰴᰶ") (u! "ᰶᰴ")
      pure ())
  pure ()

/-- PostProcess.py:2240-2257 -/
def PostProcess.SundaneseHistoricConjuncts (reverse : Bool := false) : Gen Unit := do
  let t1 ← crunchSymbols ((GM.Consonants ++ GM.Vowels) ++ GM.VowelSignsNV) (u! "Sundanese")
  let ListC := (pyJoin (u! "|") t1)
  branch (!reverse)
    (do
      replace (u! "᮪ᮙ") (u! "ᮬ")
      replace (u! "᮪ᮝ") (u! "ᮭ")
      let t2 ← crunchSymbols ((GM.Consonants ++ GM.Vowels) ++ GM.VowelSignsNV) (u! "Sundanese")
      let ListC := (pyJoin (u! "|") t2)
      reSub ((((u! "(") ++ ListC) ++ (u! ")")) ++ (u! "ᮊ᮪")) ((u! "\\1") ++ (u! "ᮾ"))
      reSub ((((u! "(") ++ ListC) ++ (u! ")")) ++ (u! "ᮙ᮪")) ((u! "\\1") ++ (u! "ᮿ"))
      pure ())
    (do
      replace (u! "ᮬ") (u! "᮪ᮙ")
      replace (u! "ᮭ") (u! "᮪ᮝ")
      replace (u! "ᮾ") (u! "ᮊ᮪")
      replace (u! "ᮿ") (u! "ᮙ᮪")
      pure ())
  pure ()

/-- ConvertFix.py:2758-2785 -/
def ConvertFix.FixSundanese (reverse : Bool := false) : Gen Unit := do
  let t1 ← index (modAttr (u! "Sundanese") .ViramaMap) 0
  let vir := t1
  let t2 ← index (modAttr (u! "Sundanese") .ConsonantMap) 26
  let r := (t2 ++ vir)
  let t3 ← crunchSymbols ((GM.Consonants ++ GM.Vowels) ++ GM.VowelSignsNV) (u! "Sundanese")
  let ListC := (pyJoin (u! "|") t3)
  branch (!reverse)
    (do
      reSub ((((u! "(") ++ ListC) ++ (u! ")")) ++ r) ((u! "\\1") ++ (u! "ᮁ"))
      pure ())
    (do
      replace (u! "ᮁ") r
      PostProcess.SundaneseHistoricConjuncts reverse
      pure ())
  let yrl := ((pySlice (modAttr (u! "Sundanese") .ConsonantMap) (some 25) (some 28)).map fun x => (vir ++ x))
  let yrlSub := [(u! "ᮡ"), (u! "ᮢ"), (u! "ᮣ")]
  forEach (pyZip yrl yrlSub) fun (x, y) => do
    branch (!reverse)
      (do
        replace x y
        pure ())
      (do
        replace y x
        pure ())
  pure ()

/-- ConvertFix.py:2788-2804 -/
def ConvertFix.FixRejang (reverse : Bool := false) : Gen Unit := do
  let t1 ← index (modAttr (u! "Rejang") .ViramaMap) 0
  let vir := t1
  let t2 ← index (modAttr (u! "Rejang") .ConsonantMap) 26
  let r := (t2 ++ vir)
  let t3 ← index (modAttr (u! "Rejang") .ConsonantMap) 19
  let n := (t3 ++ vir)
  let t4 ← crunchSymbols ((GM.Consonants ++ GM.Vowels) ++ GM.VowelSignsNV) (u! "Rejang")
  let ListC := (pyJoin (u! "|") t4)
  branch (!reverse)
    (do
      reSub ((((u! "(") ++ ListC) ++ (u! ")")) ++ r) ((u! "\\1") ++ (u! "ꥑ"))
      reSub ((((u! "(") ++ ListC) ++ (u! ")")) ++ n) ((u! "\\1") ++ (u! "ꥐ"))
      pure ())
    (do
      replace (u! "ꥑ") r
      replace (u! "ꥐ") n
      pure ())
  pure ()

/-- PostProcess.py:2184-2205 -/
def PostProcess.ChakmaGemination (reverse : Bool := false) : Gen Unit := do
  let t1 ← crunchSymbols GM.Consonants (u! "Chakma")
  let ListC := (((u! "(") ++ (pyJoin (u! "|") t1)) ++ (u! ")"))
  let virs := (u! "([𑄴𑄳])")
  let virExp := (u! "𑄴")
  let virDep := (u! "𑄳")
  let t2 ← crunchSymbols GM.VowelSignsNV (u! "Chakma")
  let ListV := (((u! "(") ++ (pyJoin (u! "|") (sortByLenDesc t2))) ++ (u! ")"))
  branch (!reverse)
    (do
      reSub (((ListC ++ virs) ++ (u! "\\1")) ++ ListV) (((u! "\\1") ++ virExp) ++ (u! "\\3"))
      reSub ((((ListC ++ virExp) ++ (u! "\\1")) ++ virDep) ++ ListC) ((((u! "\\1") ++ virExp) ++ virDep) ++ (u! "\\2"))
      reSub ((((ListC ++ virDep) ++ (u! "\\1")) ++ virDep) ++ ListC) ((((u! "\\1") ++ virExp) ++ virDep) ++ (u! "\\2"))
      reSub (((virDep ++ ListC) ++ virExp) ++ ListV) (((virExp ++ (u! "\\1")) ++ virExp) ++ (u! "\\2"))
      pure ())
    (do
      reSub ((ListC ++ virExp) ++ ListV) ((((u! "\\1") ++ virExp) ++ (u! "\\1")) ++ (u! "\\2"))
      reSub ((ListC ++ virExp) ++ virDep) ((((u! "\\1") ++ virExp) ++ (u! "\\1")) ++ virDep)
      pure ())
  pure ()

/-- ConvertFix.py:2807-2864 -/
def ConvertFix.FixChakma (reverse : Bool := false) : Gen Unit := do
  let t1 ← crunchSymbols GM.Consonants (u! "Chakma")
  let listC := (((u! "(") ++ (pyJoin (u! "|") (sortByLenDesc (t1 ++ (pySlice (modAttr (u! "Chakma") .VowelMap) none (some 1)))))) ++ (u! ")"))
  let t2 ← crunchSymbols GM.VowelSigns (u! "Chakma")
  let listV := (((u! "(") ++ (pyJoin (u! "|") (sortByLenDesc ((t2 ++ (modAttr (u! "Chakma") .ViramaMap)) ++ [(u! "𑄳")])))) ++ (u! ")"))
  replace (u! "ʽ") (u! "")
  branch (!reverse)
    (do
      reSub ((((((u! "(") ++ listC) ++ (u! ")")) ++ (u! "(?!")) ++ listV) ++ (u! ")")) (u! "\\1ʾ")
      replace (u! "𑄧") (u! "")
      replace (u! "ʾ") (u! "𑄧")
      replace (u! "𑄣𑄳𑄦") (u! "𑅄")
      replace (u! "𑄣𑄴𑄦") (u! "𑅄")
      reSub ((((u! "(") ++ listC) ++ (u! ")")) ++ (u! "(𑄃𑄨)")) ((u! "\\1") ++ (u! "𑄭"))
      replace (u! "𑄬𑄃𑄨ʼ") (u! "𑅆")
      pure ())
    (do
      PostProcess.ChakmaGemination (reverse := true)
      replace (u! "𑅄") (u! "𑄣𑄳𑄦")
      replace (u! "𑄳𑄃") (u! "𑅅")
      replace (u! "𑄳𑄄") (u! "𑅆")
      replace (u! "𑄭") (u! "𑄃𑄨")
      replace (u! "𑅆") (u! "𑄬𑄃𑄨ʼ")
      replace (u! "𑄧") (u! "ʾ")
      reSub (((((((u! "(") ++ listC) ++ (u! ")")) ++ (u! "(?!")) ++ listV) ++ (u! "|ʾ")) ++ (u! ")")) (u! "\\1𑄧")
      replace (u! "ʾ") (u! "")
      pure ())
  let yrlvn := (((u! "(") ++ (pyJoin (u! "|") ((pySlice (modAttr (u! "Chakma") .ConsonantMap) (some 19) (some 20)) ++ (pySlice (modAttr (u! "Chakma") .ConsonantMap) (some 26) (some 29))))) ++ (u! ")"))
  branch (!reverse)
    (do
      reSub ((((u! "𑄴") ++ (u! "(?=")) ++ yrlvn) ++ (u! ")")) (u! "𑄳")
      PostProcess.ChakmaGemination
      pure ())
    (do
      replace (u! "𑄳") (u! "𑄴")
      let vowelDepA := [(u! "𑄃𑄨"), (u! "𑄃𑄪"), (u! "𑄃𑄬")]
      let vowelIndep := [(u! "𑄄"), (u! "𑄅"), (u! "𑄆")]
      forEach (pyZip vowelDepA vowelIndep) fun (x, y) => do
        replace y x
      pure ())
  pure ()

/-- ConvertFix.py:2866-2871 -/
def ConvertFix.FixIAST (reverse : Bool := false) : Gen Unit := do
  branch reverse
    (do
      let t1 ← index (modAttr (u! "IAST") .AyogavahaMap) 1
      replace (u! "ṁ") t1
      pure ())
    (do
      pure ())
  pure ()

/-- ConvertFix.py:2893-3034 -/
def ConvertFix.FixPhagsPa (reverse : Bool := false) : Gen Unit := do
  let t1 ← index (modAttr (u! "PhagsPa") .AyogavahaMap) 0
  let candraBindu := t1
  let ListC := (pyJoin (u! "|") (sortByLenDesc (modAttr (u! "PhagsPa") .ConsonantMap)))
  let ListV := (pyJoin (u! "|") (sortByLenDesc (modAttr (u! "PhagsPa") .VowelMap)))
  let ListVS := (pyJoin (u! "|") (sortByLenDesc (modAttr (u! "PhagsPa") .VowelSignMap)))
  let t2 ← index (modAttr (u! "PhagsPa") .ViramaMap) 0
  let vir := t2
  let t4 ← pmap [25, 26, 28] fun c => (do let t3 ← index (modAttr (u! "PhagsPa") .ConsonantMap) c; pure t3)
  let Virrvy := (t4.map fun x => (vir ++ x))
  let Subrvy := [(u! "ꡨ"), (u! "ꡱ"), (u! "ꡧ")]
  let SubrvyE := ([(u! "ꡱꡨ")] ++ Subrvy)
  let ListV ← branch (!reverse)
    (do
      forEach (pyZip Virrvy Subrvy) fun (x, y) => do
        replace x y
      reSub ((((((u! "(") ++ ListV) ++ (u! ")")) ++ (u! "(")) ++ candraBindu) ++ (u! ")")) (u! "\\2\\1")
      reSub ((((((((((((u! "(") ++ ListC) ++ (u! ")")) ++ (u! "((")) ++ (pyJoin (u! "|") SubrvyE)) ++ (u! ")?)")) ++ (u! "((")) ++ ListVS) ++ (u! ")?)")) ++ (u! "(")) ++ candraBindu) ++ (u! ")")) (u! "\\6\\1\\2\\4")
      pure ListV)
    (do
      let ListV := (pyReplace ListV (u! "ṿ") (u! ""))
      replace (u! "ꡖꡘꡟ") (u! "ꡱꡖꡟ")
      let Aspirate := [((u! "ꡂꡜ"), (u! "ṾꡂṾꡜṾ")), ((u! "ꡒꡜ"), (u! "ṾꡒṾꡜṾ")), ((u! "ꡫꡜ"), (u! "ṾꡫṾꡜṾ")), ((u! "ꡊꡜ"), (u! "ṾꡊṾꡜṾ")), ((u! "ꡎꡜ"), (u! "ṾꡎṾꡜṾ"))]
      forEach Aspirate fun (x, y) => do
        replace x y
      let t5 ← index (modAttr (u! "PhagsPa") .VowelSignMap) 0
      let t6 ← index Subrvy 1
      reSub ((((((u! "(") ++ t5) ++ (u! ")")) ++ (u! "([")) ++ (pyJoin (u! "") (pyChars t6))) ++ (u! "])")) (u! "\\2\\1")
      reSub ((((((((((((u! "(") ++ candraBindu) ++ (u! ")")) ++ (u! "(")) ++ ListC) ++ (u! ")")) ++ (u! "((")) ++ (pyJoin (u! "|") SubrvyE)) ++ (u! ")?)")) ++ (u! "((")) ++ ListVS) ++ (u! ")?)")) (u! "\\2\\3\\5\\1")
      reSub ((((((u! "(") ++ candraBindu) ++ (u! ")")) ++ (u! "(")) ++ ListV) ++ (u! ")")) (u! "\\2\\1")
      forEach (pyZip Virrvy Subrvy) fun (x, y) => do
        replace y x
      reSub (((u! "(") ++ ListV) ++ (u! ")")) (u! "ṿ\\1")
      reSub ((((((u! "(") ++ ListC) ++ (u! "|ꡖ)")) ++ (u! "(")) ++ (u! "ṿ")) ++ (u! ")")) (u! "\\1")
      pure ListV)
  branch (!reverse)
    (do
      replace (u! " ") (u! "᠂")
      replace (u! "ʽ") (u! "")
      reSub (((((((((((((((((((((((((((u! "((") ++ candraBindu) ++ (u! ")?")) ++ (u! "(")) ++ ListC) ++ (u! ")")) ++ (u! "((")) ++ (pyJoin (u! "|") SubrvyE)) ++ (u! ")?)")) ++ (u! "((")) ++ ListVS) ++ (u! ")?))")) ++ (u! "((")) ++ candraBindu) ++ (u! ")?")) ++ (u! "(")) ++ ListC) ++ (u! ")")) ++ (u! "((")) ++ (pyJoin (u! "|") SubrvyE)) ++ (u! ")?)")) ++ (u! "((")) ++ ListVS) ++ (u! ")?))")) ++ (u! "(?!")) ++ vir) ++ (u! ")")) (u! "\\1 \\8")
      reSub (((((((((((((((((((((((((((u! "((") ++ candraBindu) ++ (u! ")?")) ++ (u! "(")) ++ ListC) ++ (u! ")")) ++ (u! "((")) ++ (pyJoin (u! "|") SubrvyE)) ++ (u! ")?)")) ++ (u! "((")) ++ ListVS) ++ (u! ")?))")) ++ (u! "((")) ++ candraBindu) ++ (u! ")?")) ++ (u! "(")) ++ ListC) ++ (u! ")")) ++ (u! "((")) ++ (pyJoin (u! "|") SubrvyE)) ++ (u! ")?)")) ++ (u! "((")) ++ ListVS) ++ (u! ")?))")) ++ (u! "(?!")) ++ vir) ++ (u! ")")) (u! "\\1 \\8")
      reSub (((((((((((((((((((((u! "((") ++ candraBindu) ++ (u! ")?")) ++ (u! "(")) ++ ListV) ++ (u! "))")) ++ (u! "((")) ++ candraBindu) ++ (u! ")?")) ++ (u! "(")) ++ ListC) ++ (u! ")")) ++ (u! "((")) ++ (pyJoin (u! "|") SubrvyE)) ++ (u! ")?)")) ++ (u! "((")) ++ ListVS) ++ (u! ")?))")) ++ (u! "(?!")) ++ vir) ++ (u! ")")) (u! "\\1 \\4")
      reSub (((((((((((((((((((((u! "((") ++ candraBindu) ++ (u! ")?")) ++ (u! "(")) ++ ListV) ++ (u! "))")) ++ (u! "((")) ++ candraBindu) ++ (u! ")?")) ++ (u! "(")) ++ ListC) ++ (u! ")")) ++ (u! "((")) ++ (pyJoin (u! "|") SubrvyE)) ++ (u! ")?)")) ++ (u! "((")) ++ ListVS) ++ (u! ")?))")) ++ (u! "(?!")) ++ vir) ++ (u! ")")) (u! "\\1 \\4")
      reSub (((((((((((((((((((((u! "((") ++ candraBindu) ++ (u! ")?")) ++ (u! "(")) ++ ListC) ++ (u! ")")) ++ (u! "((")) ++ (pyJoin (u! "|") SubrvyE)) ++ (u! ")?)")) ++ (u! "((")) ++ ListVS) ++ (u! ")?))")) ++ (u! "((")) ++ candraBindu) ++ (u! ")?")) ++ (u! "(")) ++ ListV) ++ (u! "))")) ++ (u! "(?!")) ++ vir) ++ (u! ")")) (u! "\\1 \\8")
      reSub (((((((((((((((((((((u! "((") ++ candraBindu) ++ (u! ")?")) ++ (u! "(")) ++ ListC) ++ (u! ")")) ++ (u! "((")) ++ (pyJoin (u! "|") SubrvyE)) ++ (u! ")?)")) ++ (u! "((")) ++ ListVS) ++ (u! ")?))")) ++ (u! "((")) ++ candraBindu) ++ (u! ")?")) ++ (u! "(")) ++ ListV) ++ (u! "))")) ++ (u! "(?!")) ++ vir) ++ (u! ")")) (u! "\\1 \\8")
      reSub ((((((((((((((((((u! "((") ++ candraBindu) ++ (u! ")?")) ++ (u! "(")) ++ ListV) ++ (u! "))")) ++ (u! "(?!")) ++ vir) ++ (u! ")")) ++ (u! "((")) ++ candraBindu) ++ (u! ")?")) ++ (u! "(")) ++ ListV) ++ (u! "))")) ++ (u! "(?!")) ++ vir) ++ (u! ")")) (u! "\\1 \\4")
      reSub ((((((((((((((((((u! "((") ++ candraBindu) ++ (u! ")?")) ++ (u! "(")) ++ ListV) ++ (u! "))")) ++ (u! "(?!")) ++ vir) ++ (u! ")")) ++ (u! "((")) ++ candraBindu) ++ (u! ")?")) ++ (u! "(")) ++ ListV) ++ (u! "))")) ++ (u! "(?!")) ++ vir) ++ (u! ")")) (u! "\\1 \\4")
      replace (u! "\n") (u! "\n")
      prepend (u! "ኺ᠂")
      let ListCE := ((ListC ++ (u! "|")) ++ (pyJoin (u! "|") SubrvyE))
      reSub ((((((((((((((u! "(?:(?<!\n)(?<!᠂)(?<![,\\.\"\\?\\&\\(\\)]))") ++ (u! "(?<!")) ++ vir) ++ (u! ")")) ++ (u! "(")) ++ ListC) ++ (u! ")")) ++ vir) ++ (u! "((")) ++ candraBindu) ++ (u! ")?")) ++ (u! "(")) ++ ListC) ++ (u! "))")) (u! "\\1 \\2")
      reSub (((((((((((u! "(?<!᠂)") ++ (u! "(")) ++ ListC) ++ (u! ")")) ++ vir) ++ (u! "((")) ++ candraBindu) ++ (u! ")?")) ++ (u! "(")) ++ ListV) ++ (u! "))")) (u! " \\1")
      replace vir (u! "")
      replace (u! "ṿ") (u! "")
      replace (u! "Ṿ") (u! "")
      replace (u! "ኺ᠂") (u! "")
      replace (u! "᠂") (u! " ᠂ ")
      pure ())
    (do
      replace (u! "ꡆ") (u! "ꡒ")
      forEach (pyZip Virrvy Subrvy) fun (x, y) => do
        replace x y
      reSub (((((((((((((((((((((u! "((") ++ ListC) ++ (u! ")")) ++ (u! "((")) ++ (pyJoin (u! "|") SubrvyE)) ++ (u! ")?)")) ++ (u! "(?!")) ++ ListVS) ++ (u! "))")) ++ (u! "(((")) ++ ListC) ++ (u! ")")) ++ (u! "((")) ++ (pyJoin (u! "|") SubrvyE)) ++ (u! ")?)")) ++ (u! "((")) ++ ListVS) ++ (u! "))")) ++ (u! "(")) ++ candraBindu) ++ (u! ")?))")) (((u! "\\1") ++ vir) ++ (u! "\\6"))
      reSub (((((((((((((((((((((u! "(((") ++ ListC) ++ (u! ")")) ++ (u! "((")) ++ (pyJoin (u! "|") SubrvyE)) ++ (u! ")?)")) ++ (u! "((")) ++ ListVS) ++ (u! ")?)")) ++ (u! "(")) ++ candraBindu) ++ (u! ")?)")) ++ (u! "((")) ++ ListC) ++ (u! ")")) ++ (u! "((")) ++ (pyJoin (u! "|") SubrvyE)) ++ (u! ")?)")) ++ (u! "(?!")) ++ ListVS) ++ (u! ")))")) ((u! "\\1") ++ vir)
      reSub (((((((((((((((u! "(((") ++ ListV) ++ (u! ")")) ++ (u! "(")) ++ candraBindu) ++ (u! ")?)")) ++ (u! "((")) ++ ListC) ++ (u! ")")) ++ (u! "((")) ++ (pyJoin (u! "|") SubrvyE)) ++ (u! ")?)")) ++ (u! "(?!")) ++ ListVS) ++ (u! ")))")) ((u! "\\1") ++ vir)
      forEach (pyZip Virrvy Subrvy) fun (x, y) => do
        replace y x
      replace (u! " ") (u! "")
      replace (u! "᠂") (u! " ")
      replace (u! "᠃") (u! " ")
      replace (vir ++ vir) vir
      pure ())
  pure ()

/-- ConvertFix.py:3040-3057 -/
def ConvertFix.FixLatn (Source : PyStr) (reverse : Bool := false) : Gen Unit := do
  let vir := (u! "")
  branch (!reverse)
    (do
      reSub (((u! "([aiuāīū") ++ vir) ++ (u! "])(꞉)")) (u! "\\2\\1")
      reSub (u! "(꞉)(̽)") (u! "\\2\\1")
      replace (u! "aʰ") (u! "ʰ")
      pure ())
    (do
      reSub (((u! "([aiuāīū") ++ vir) ++ (u! "])(꞉)")) (u! "\\2\\1")
      reSub (u! "(̽)(꞉)") (u! "\\2\\1")
      pure ())
  pure ()

/-- ConvertFix.py:3059-3070 -/
def ConvertFix.FixArab (Source : PyStr) (reverse : Bool := false) : Gen Unit := do
  ConvertFix.PersoArabicPuntuation reverse
  branch (!reverse)
    (do
      pure ())
    (do
      replace (u! "آ") (u! "آ")
      replace (u! "ـ") (u! "")
      replace (u! "َّ") (u! "َّ")
      pure ())
  pure ()

/-- ConvertFix.py:3072-3081 -/
def ConvertFix.FixThaa (Source : PyStr) (reverse : Bool := false) : Gen Unit := do
  ConvertFix.PersoArabicPuntuation reverse
  pure ()

/-- ConvertFix.py:3083-3084 -/
def ConvertFix.FixArab_Ph (Source : PyStr) (reverse : Bool := false) : Gen Unit := do
  ConvertFix.FixArab Source reverse
  pure ()

/-- ConvertFix.py:3086-3089 -/
def ConvertFix.FixArab_Fa (Source : PyStr) (reverse : Bool := false) : Gen Unit := do
  ConvertFix.FixArab Source reverse
  pure ()

/-- ConvertFix.py:3091-3101 -/
def ConvertFix.FixArab_Ur (Source : PyStr) (reverse : Bool := false) : Gen Unit := do
  ConvertFix.FixArab Source reverse
  pure ()

/-- ConvertFix.py:3103-3110 -/
def ConvertFix.FixUgar (Source : PyStr) (reverse : Bool := false) : Gen Unit := do
  branch (!reverse)
    (do
      replace (u! "𐎒²") (u! "𐎝")
      replace (u! " ") (u! "𐎟")
      pure ())
    (do
      replace (u! "𐎟") (u! "")
      pure ())
  pure ()

/-- ConvertFix.py:3112-3118 -/
def ConvertFix.FixSogd (Source : PyStr) (reverse : Bool := false) : Gen Unit := do
  branch (!reverse)
    (do
      replace (u! "𐼹²") (u! "𐽄")
      pure ())
    (do
      pure ())
  pure ()

/-- PostProcess.py:2483-2526 -/
def PostProcess.MalayalamChillu (reverse : Bool := false) (preserve : Bool := false) : Gen Unit := do
  let Chillus := [(u! "ൺ"), (u! "ൻ"), (u! "ർ"), (u! "ൽ"), (u! "ൾ"), (u! "ഩ\u200d്")]
  let t1 ← crunchSymbols GM.CharactersNV (u! "Malayalam")
  let ListC := (((u! "(") ++ (pyJoin (u! "|") (t1 ++ [(u! "ഽ")]))) ++ (u! ")"))
  let t2 ← index (modAttr (u! "Malayalam") .ViramaMap) 0
  let vir := t2
  let t3 ← index (modAttr (u! "Malayalam") .ConsonantMap) 14
  let t4 ← index (modAttr (u! "Malayalam") .ConsonantMap) 19
  let t5 ← index (modAttr (u! "Malayalam") .ConsonantMap) 26
  let t6 ← index (modAttr (u! "Malayalam") .ConsonantMap) 27
  let t7 ← index (modAttr (u! "Malayalam") .SouthConsonantMap) 0
  let ConVir := [(t3 ++ vir), (t4 ++ vir), (t5 ++ vir), (t6 ++ vir), (t7 ++ vir), (u! "ഩ്")]
  let CList := [(((pySlice (modAttr (u! "Malayalam") .ConsonantMap) (some 10) (some 15)) ++ (pySlice (modAttr (u! "Malayalam") .ConsonantMap) (some 24) (some 26))) ++ (pySlice (modAttr (u! "Malayalam") .ConsonantMap) (some 28) (some 29))), ((((pySlice (modAttr (u! "Malayalam") .ConsonantMap) (some 15) (some 20)) ++ (pySlice (modAttr (u! "Malayalam") .ConsonantMap) (some 24) (some 27))) ++ (pySlice (modAttr (u! "Malayalam") .ConsonantMap) (some 28) (some 29))) ++ [(u! "റ")]), (pySlice (modAttr (u! "Malayalam") .ConsonantMap) (some 25) (some 27)), (((pySlice (modAttr (u! "Malayalam") .ConsonantMap) (some 20) (some 21)) ++ (pySlice (modAttr (u! "Malayalam") .ConsonantMap) (some 24) (some 26))) ++ (pySlice (modAttr (u! "Malayalam") .ConsonantMap) (some 27) (some 29))), ((pySlice (modAttr (u! "Malayalam") .SouthConsonantMap) (some 0) (some 1)) ++ (pySlice (modAttr (u! "Malayalam") .ConsonantMap) (some 25) (some 27))), ((((pySlice (modAttr (u! "Malayalam") .ConsonantMap) (some 15) (some 20)) ++ (pySlice (modAttr (u! "Malayalam") .ConsonantMap) (some 24) (some 27))) ++ (pySlice (modAttr (u! "Malayalam") .ConsonantMap) (some 28) (some 29))) ++ [(u! "റ")])]
  branch (!reverse)
    (do
      forEach (List.range (Chillus).length) fun i => do
        let t8 ← index ConVir i
        let t9 ← index CList i
        let t10 ← index Chillus i
        reSub (((((((ListC ++ GM.VedicSvaras) ++ (u! "(")) ++ t8) ++ (u! ")")) ++ (u! "(?![")) ++ (pyJoin (u! "") t9)) ++ (u! "])")) ((u! "\\1\\2") ++ t10)
        let t11 ← index ConVir i
        let t12 ← index CList i
        let t13 ← index Chillus i
        reSub ((((((((((ListC ++ GM.VedicSvaras) ++ (u! "(")) ++ t11) ++ (u! ")")) ++ (u! "(?=([")) ++ (pyJoin (u! "") t12)) ++ (u! "])")) ++ vir) ++ (u! "\\4")) ++ (u! ")")) ((u! "\\1\\2") ++ t13)
      reSub (u! "(?<!ത്)ˍ") (u! "")
      pure ())
    (do
      branch preserve
        (do
          forEach (pyZip Chillus ConVir) fun (x, y) => do
            replace x (y ++ (u! "ˍ"))
          pure ())
        (do
          forEach (pyZip Chillus ConVir) fun (x, y) => do
            replace x y
          pure ())
      pure ())
  pure ()

/-- ConvertFix.py:3120-3145 -/
def ConvertFix.FixMalayalam (reverse : Bool := false) : Gen Unit := do
  PostProcess.MalayalamChillu reverse
  branch (!reverse)
    (do
      PostProcess.RetainDandasIndic (u! "Malayalam") true
      PostProcess.RetainIndicNumerals (u! "Malayalam") true
      pure ())
    (do
      PostProcess.RetainIndicNumerals (u! "Malayalam")
      PostProcess.RetainDandasIndic (u! "Malayalam")
      let chilluArch := [(u! "ൔ"), (u! "ൕ"), (u! "ൖ"), (u! "ൿ")]
      let chilluArchhVir := [(u! "മ്"), (u! "യ്"), (u! "ഴ്"), (u! "ക്")]
      forEach (pyZip chilluArch chilluArchhVir) fun (ch, chvir) => do
        replace ch chvir
      pure ())
  let Chillus := [(u! "ൺ"), (u! "ൻ"), (u! "ർ"), (u! "ൽ"), (u! "ൾ"), (u! "ഩ\u200d്")]
  let t1 ← crunchSymbols GM.CombiningSigns (u! "Malayalam")
  let t2 ← index t1 1
  let Anu := t2
  pure ()

/-- ConvertFix.py:3147-3156 -/
def ConvertFix.FixTelugu (reverse : Bool := false) : Gen Unit := do
  branch (!reverse)
    (do
      PostProcess.RetainDandasIndic (u! "Telugu") true
      PostProcess.RetainIndicNumerals (u! "Telugu") true
      pure ())
    (do
      PostProcess.RetainIndicNumerals (u! "Telugu")
      PostProcess.RetainDandasIndic (u! "Telugu")
      replace (u! "ఁ") (u! "ఀ")
      pure ())
  pure ()

/-- ConvertFix.py:3158-3169 -/
def ConvertFix.FixMeeteiMayek (reverse : Bool := false) : Gen Unit := do
  let t1 ← index (modAttr (u! "MeeteiMayek") .ViramaMap) 0
  let vir := t1
  let t3 ← pmap [0, 27, 24, 20, 19, 15, 4, 25] fun x => (do let t2 ← index (modAttr (u! "MeeteiMayek") .ConsonantMap) x; pure t2)
  let listC := (t3.map fun x => (x ++ vir))
  let finalC := [(u! "ꯛ"), (u! "ꯜ"), (u! "ꯝ"), (u! "ꯞ"), (u! "ꯟ"), (u! "ꯠ"), (u! "ꯡ"), (u! "ꯢ")]
  forEach (pyZip listC finalC) fun (x, y) => do
    branch (!reverse)
      (do
        reSub x y
        pure ())
      (do
        replace y x
        pure ())
  pure ()

/-- ConvertFix.py:3176-3182 -/
def ConvertFix.FixBatakSima (reverse : Bool := false) : Gen Unit := do
  branch (!reverse)
    (do
      replace (u! "ᯙᯮ") (u! "ᯙᯯ")
      pure ())
    (do
      replace (u! "ᯙᯯ") (u! "ᯙᯮ")
      pure ())
  pure ()

/-- ConvertFix.py:3185-3256 -/
def ConvertFix.FixCham (reverse : Bool := false) : Gen Unit := do
  replace (u! "ʽ") (u! "")
  let t1 ← crunchSymbols GM.Consonants (u! "Cham")
  let ListCAll := (((u! "(") ++ (pyJoin (u! "|") t1)) ++ (u! ")"))
  let t2 ← crunchSymbols GM.Vowels (u! "Cham")
  let ListVow := (((u! "(") ++ (pyJoin (u! "|") t2)) ++ (u! ")"))
  let t3 ← crunchSymbols GM.VowelSignsNV (u! "Cham")
  let ListVowS := (((u! "(") ++ (pyJoin (u! "|") t3)) ++ (u! ")"))
  let t4 ← index (modAttr (u! "Cham") .ViramaMap) 0
  let vir := t4
  let t5 ← index (modAttr (u! "Cham") .ConsonantMap) 9
  let t6 ← index (modAttr (u! "Cham") .ConsonantMap) 7
  let nja := ((t5 ++ vir) ++ t6)
  let listC := ((pySlice (modAttr (u! "Cham") .ConsonantMap) (some 25) (some 29)).map fun x => (vir ++ x))
  let SubC := [(u! "ꨳ"), (u! "ꨴ"), (u! "ꨵ"), (u! "ꨶ")]
  forEach (pyZip listC SubC) fun (x, y) => do
    branch (!reverse)
      (do
        replace x y
        pure ())
      (do
        replace y x
        pure ())
  let t8 ← pmap [1, 3, 6, 7, 8, 9, 16, 17, 18, 21, 22, 23, 31, 29] fun x => (do let t7 ← index (modAttr (u! "Cham") .ConsonantMap) x; pure t7)
  let listNF := t8
  let t10 ← pmap [0, 2, 5, 5, 5, 19, 15, 15, 15, 20, 20, 20, 30, 30] fun x => (do let t9 ← index (modAttr (u! "Cham") .ConsonantMap) x; pure t9)
  let listF := t10
  forEach (pyZip listNF listF) fun (x, y) => do
    branch (!reverse)
      (do
        replace (x ++ vir) (y ++ vir)
        pure ())
      (do
        pure ())
  let t12 ← pmap [0, 2, 4, 5, 15, 19, 20, 25, 26, 27, 30, 24] fun x => (do let t11 ← index (modAttr (u! "Cham") .ConsonantMap) x; pure t11)
  let listC := (t12.map fun x => (x ++ vir))
  let finalC := [(u! "ꩀ"), (u! "ꩁ"), (u! "ꩂ"), (u! "ꩄ"), (u! "ꩅ"), (u! "ꩆ"), (u! "ꩇ"), (u! "ꩈ"), (u! "ꩉ"), (u! "ꩊ"), (u! "ꩋ"), (u! "ꩌ")]
  forEach (pyZip listC finalC) fun (x, y) => do
    branch (!reverse)
      (do
        replace x y
        reSub (((((((((u! "(") ++ ListCAll) ++ (u! "|")) ++ ListVow) ++ (u! "|")) ++ ListVowS) ++ (u! ")")) ++ (u! "ꨨ")) ++ vir) ((u! "\\1") ++ (u! "ꩍ"))
        pure ())
      (do
        replace (u! "ꩍ") ((u! "ꨨ") ++ vir)
        branch (!(pyIn y (modAttr (u! "Cham") .AyogavahaMap)))
          (do
            replace y x
            pure ())
          (do
            pure ())
        pure ())
  let t13 ← index (modAttr (u! "Cham") .ConsonantMap) 28
  let va := t13
  branch (!reverse)
    (do
      replace (va ++ vir) va
      pure ())
    (do
      pure ())
  pure ()

/-- PostProcess.py:3296-3318 -/
def PostProcess.FixTallA (TallACons : PyStr) : Gen Unit := do
  let t1 ← crunchSymbols GM.Consonants (u! "TaiTham")
  let ListC := (pyJoin (u! "|") t1)
  let Sub := [(u! "ᩕ"), (u! "ᩖ")]
  let E := (u! "ᩮ")
  let AA := (u! "ᩣ")
  reSub (((((((u! "(?<!᩠)(") ++ TallACons) ++ (u! ")")) ++ (u! "(")) ++ E) ++ (u! "?)")) ++ AA) ((u! "\\1\\2") ++ (u! "ᩤ"))
  reSub (((((((((u! "(") ++ TallACons) ++ (u! ")(᩠)(")) ++ ListC) ++ (u! ")")) ++ (u! "(")) ++ E) ++ (u! "?)")) ++ AA) ((u! "\\1\\2\\3\\4") ++ (u! "ᩤ"))
  reSub ((((((((((((u! "(") ++ TallACons) ++ (u! ")(᩠)(")) ++ ListC) ++ (u! ")")) ++ (u! "(᩠)(")) ++ ListC) ++ (u! ")")) ++ (u! "(")) ++ E) ++ (u! "?)")) ++ AA) ((u! "\\1\\2\\3\\4\\5\\6") ++ (u! "ᩤ"))
  reSub ((((((((((u! "(") ++ TallACons) ++ (u! ")")) ++ (u! "(")) ++ (pyJoin (u! "|") Sub)) ++ (u! ")")) ++ (u! "(")) ++ E) ++ (u! "?)")) ++ AA) ((u! "\\1\\2\\3") ++ (u! "ᩤ"))
  let reverseSub := (((u! "([") ++ (pyJoin (u! "") [(u! "ᨥ"), (u! "ᨫ"), (u! "ᨬ"), (u! "ᨰ"), (u! "ᨸ"), (u! "ᩈ"), (u! "ᨿ"), (u! "ᩇ"), (u! "ᨹ")])) ++ (u! "])"))
  reSub (((u! "(᩠)") ++ reverseSub) ++ (u! "(ᩮᩤ)")) ((u! "\\1\\2") ++ (u! "ᩮᩣ"))
  reSub (((u! "(᩠)") ++ reverseSub) ++ (u! "(ᩤ)")) ((u! "\\1\\2") ++ (u! "ᩣ"))
  pure ()

/-- ConvertFix.py:3260-3311 -/
def ConvertFix.FixTaiTham (reverse : Bool := false) : Gen Unit := do
  let t1 ← index (modAttr (u! "TaiTham") .ViramaMap) 0
  let vir := t1
  let t3 ← pmap [26, 27] fun x => (do let t2 ← index (modAttr (u! "TaiTham") .ConsonantMap) x; pure t2)
  let Cons := (t3.map fun x => (vir ++ x))
  let Sub := [(u! "ᩕ"), (u! "ᩖ")]
  forEach (pyZip Cons Sub) fun (x, y) => do
    branch (!reverse)
      (do
        replace x y
        pure ())
      (do
        replace y x
        pure ())
  let t4 ← crunchSymbols GM.Consonants (u! "TaiTham")
  let ListC := (pyJoin (u! "|") t4)
  let t5 ← index (modAttr (u! "TaiTham") .ConsonantMap) 4
  let ng := (t5 ++ vir)
  branch (!reverse)
    (do
      reSub ((((((u! "(") ++ ng) ++ (u! ")")) ++ (u! "(")) ++ ListC) ++ (u! ")")) ((u! "ᩘ") ++ (u! "\\2"))
      reSub (((vir ++ (u! "(")) ++ ListC) ++ (u! ")")) ((u! "᩠") ++ (u! "\\1"))
      replace (u! "ᩈ᩠ᩈ") (u! "ᩔ")
      let TallACons := (pyJoin (u! "|") [(u! "ᩅ"), (u! "ᨴ"), (u! "ᨵ"), (u! "ᨣ")])
      PostProcess.FixTallA TallACons
      replace (u! "ᩕ᩠ᨿ") (u! "᩠ᨿᩕ")
      replace (u! "᩠ᩇ") (vir ++ (u! "ᩇ"))
      pure ())
    (do
      let AA := (u! "ᩣ")
      replace (u! "ᩔ") (u! "ᩈ᩠ᩈ")
      reSub ((((u! "(") ++ ListC) ++ (u! ")")) ++ (u! "ᩘ")) ((u! "\\1") ++ ng)
      replace (u! "᩠") vir
      replace (u! "ᩤ") AA
      replace (u! "᩠ᨿᩕ") (u! "ᩕ᩠ᨿ")
      pure ())
  pure ()

/-- ConvertFix.py:3313-3316 -/
def ConvertFix.FixLaoTham (reverse : Bool := false) : Gen Unit := do
  ConvertFix.FixTaiTham reverse
  pure ()

end Verif
