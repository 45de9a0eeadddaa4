import Verif.Model.Crunch
import Verif.Model.Fns0

/-!
# Text functions of ConvertFix.py, PreProcess.py and PostProcess.py, part 1

Generated by tools/genfuncs.py, in dependency order, one definition per Python function and one
line per statement.
-/

set_option maxRecDepth 20000
set_option linter.unusedVariables false

namespace Verif

/-- PostProcess.py:2583-2599 -/
def PostProcess.ReverseGeminationSign (Target : PyStr) : Gen Unit := do
  let t1 ← crunchSymbols GM.VowelSigns Target
  let t2 ← index t1 0
  let vir := t2
  let t5 ← pmap [0, 2, 5, 7, 10, 12, 15, 17, 20, 22, 4, 9, 14, 19, 24, 25, 26, 27, 28, 29, 30, 31, 32] fun x => (do let t3 ← crunchList .ConsonantMap Target; let t4 ← index t3 x; pure t4)
  let ConUnAsp := t5
  let t6 ← crunchList .SouthConsonantMap Target
  let t7 ← crunchList .NuktaConsonantMap Target
  let ConUnAsp := ((ConUnAsp ++ t6) ++ t7)
  let t10 ← pmap [1, 3, 6, 8, 11, 13, 16, 18, 21, 23] fun x => (do let t8 ← crunchList .ConsonantMap Target; let t9 ← index t8 x; pure t9)
  let ConAsp := t10
  let t13 ← pmap [0, 2, 5, 7, 10, 12, 15, 17, 20, 22, 4, 9, 14, 19, 24] fun x => (do let t11 ← crunchList .ConsonantMap Target; let t12 ← index t11 x; pure t12)
  let ConOthrs := t13
  branch (pyEq Target (u! "Gurmukhi"))
    (do
      replace (u! "ੱਸ਼਼") (u! "ਸ਼਼੍ਸ਼਼")
      pure ())
    (do
      pure ())
  let t14 ← dictGet GM.Gemination Target
  reSub ((((((u! "(") ++ t14) ++ (u! ")")) ++ (u! "(")) ++ (pyJoin (u! "|") ConUnAsp)) ++ (u! ")")) (((u! "\\2") ++ vir) ++ (u! "\\2"))
  forEach (List.range (ConAsp).length) fun i => do
    let t15 ← dictGet GM.Gemination Target
    let t16 ← index ConAsp i
    let t17 ← index ConUnAsp i
    reSub ((((((u! "(") ++ t15) ++ (u! ")")) ++ (u! "(")) ++ t16) ++ (u! ")")) ((t17 ++ vir) ++ (u! "\\2"))
  pure ()

/-- ConvertFix.py:942-968 -/
def ConvertFix.FixGurmukhiLoC (reverse : Bool := false) : Gen Unit := do
  ConvertFix.CorrectRuLu (u! "Gurmukhi") reverse
  let t1 ← index (modAttr (u! "Gurmukhi") .SignMap) 0
  let ava := t1
  let avaA := (u! "(ਆ)")
  branch (!reverse)
    (do
      replace (ava ++ ava) avaA
      PostProcess.InsertGeminationSign (u! "Gurmukhi")
      PostProcess.RetainIndicNumerals (u! "Gurmukhi") true
      let Vedicomp := (((u! "([") ++ (pyJoin (u! "") GM.VedicSvarasList)) ++ (u! "])"))
      let t2 ← index (modAttr (u! "Gurmukhi") .ViramaMap) 0
      reSub ((Vedicomp ++ (u! "ੱ")) ++ (u! "(.)")) ((((u! "\\1") ++ (u! "\\2")) ++ t2) ++ (u! "\\2"))
      pure ())
    (do
      PostProcess.RetainIndicNumerals (u! "Gurmukhi")
      replace avaA (ava ++ ava)
      PostProcess.ReverseGeminationSign (u! "Gurmukhi")
      pure ())
  pure ()

/-- PostProcess.py:2379-2385 -/
def PostProcess.GurmukhiYakaash (reverse : Bool := false) : Gen Unit := do
  branch (!reverse)
    (do
      replace (u! "੍ਯ") (u! "ੵ")
      pure ())
    (do
      replace (u! "ੵ") (u! "੍ਯ")
      pure ())
  pure ()

/-- ConvertFix.py:972-999 -/
def ConvertFix.FixGurmukhi (reverse : Bool := false) : Gen Unit := do
  ConvertFix.CorrectRuLu (u! "Gurmukhi") reverse
  let t1 ← index (modAttr (u! "Gurmukhi") .SignMap) 0
  let ava := t1
  let avaA := (u! "(ਆ)")
  branch (!reverse)
    (do
      replace (ava ++ ava) avaA
      PostProcess.InsertGeminationSign (u! "Gurmukhi")
      PostProcess.RetainIndicNumerals (u! "Gurmukhi") true
      let Vedicomp := (((u! "([") ++ (pyJoin (u! "") GM.VedicSvarasList)) ++ (u! "])"))
      let t2 ← index (modAttr (u! "Gurmukhi") .ViramaMap) 0
      reSub ((Vedicomp ++ (u! "ੱ")) ++ (u! "(.)")) ((((u! "\\1") ++ (u! "\\2")) ++ t2) ++ (u! "\\2"))
      pure ())
    (do
      PostProcess.RetainIndicNumerals (u! "Gurmukhi")
      replace avaA (ava ++ ava)
      PostProcess.ReverseGeminationSign (u! "Gurmukhi")
      replace (u! "ੰਨ") (u! "ਨ੍ਨ")
      replace (u! "ੰਮ") (u! "ਮ੍ਮ")
      replace (u! "ੰ") (u! "ਂ")
      PostProcess.GurmukhiYakaash true
      pure ())
  pure ()

/-- ConvertFix.py:1020-1036 -/
def ConvertFix.ShiftDiacritics (Target : PyStr) (reverse : Bool := false) : Gen Unit := do
  let t1 ← crunchSymbols GM.VowelSigns Target
  let VS := (pyJoin (u! "|") t1)
  let Diac := (pyJoin (u! "|") GM.Diacritics)
  branch (!reverse)
    (do
      reSub ((((((u! "(") ++ Diac) ++ (u! ")")) ++ (u! "(")) ++ VS) ++ (u! ")")) (u! "\\2\\1")
      branch (pyEq Target (u! "Tamil"))
        (do
          replace (u! "³்") (u! "்³")
          pure ())
        (do
          pure ())
      pure ())
    (do
      branch (pyEq Target (u! "Tamil"))
        (do
          replace (u! "்³") (u! "³்")
          pure ())
        (do
          pure ())
      reSub ((((((u! "(") ++ VS) ++ (u! ")")) ++ (u! "(")) ++ Diac) ++ (u! ")")) (u! "\\2\\1")
      pure ())
  pure ()

/-- ConvertFix.py:1039-1053 -/
def ConvertFix.FixTamilExtended (reverse : Bool := false) : Gen Unit := do
  branch (!reverse)
    (do
      replace (u! "ക്\u200cഷ") (u! "ക്ഷ")
      replace (u! "ശ്\u200cര") (u! "ശ്\u200dര")
      replace (u! "ൗ") (u! "ൌ")
      forEach GM.VedicSvarasList fun svara => do
        replace ((u! "\u200c") ++ svara) (svara ++ (u! "\u200c"))
      pure ())
    (do
      forEach GM.VedicSvarasList fun svara => do
        replace (svara ++ (u! "\u200c")) ((u! "\u200c") ++ svara)
      replace (u! "്") (u! "്\u200c")
      pure ())
  pure ()

/-- ConvertFix.py:1056-1081 -/
def ConvertFix.FixTamilGrantha (reverse : Bool := false) : Gen Unit := do
  let t1 ← crunchSymbols GM.Consonants (u! "TamilGrantha")
  let ListC := (pyJoin (u! "|") t1)
  let ListEAI := (pyJoin (u! "|") ((pySlice (modAttr (u! "TamilGrantha") .VowelSignMap) (some 9) (some 11)) ++ (pySlice (modAttr (u! "TamilGrantha") .SouthVowelSignMap) (some 0) (some 1))))
  let ListOAU := ((pySlice (modAttr (u! "TamilGrantha") .VowelSignMap) (some 11) (some 13)) ++ (pySlice (modAttr (u! "TamilGrantha") .SouthVowelSignMap) (some 1) (some 2)))
  branch (!reverse)
    (do
      reSub ((((((u! "(") ++ ListC) ++ (u! ")")) ++ (u! "(")) ++ ListEAI) ++ (u! ")")) ((u! "\u200b\u200c\u200d\u200c") ++ (u! "\\2\\1"))
      let t2 ← index ListOAU 0
      let t3 ← index (modAttr (u! "TamilGrantha") .VowelSignMap) 9
      let t4 ← index (modAttr (u! "TamilGrantha") .VowelSignMap) 0
      reSub ((((((u! "(") ++ ListC) ++ (u! ")")) ++ (u! "(")) ++ t2) ++ (u! ")")) ((((u! "\u200b\u200c\u200d\u200c") ++ t3) ++ (u! "\\1")) ++ t4)
      let t5 ← index ListOAU 2
      let t6 ← index (modAttr (u! "TamilGrantha") .SouthVowelSignMap) 0
      let t7 ← index (modAttr (u! "TamilGrantha") .VowelSignMap) 0
      reSub ((((((u! "(") ++ ListC) ++ (u! ")")) ++ (u! "(")) ++ t5) ++ (u! ")")) ((((u! "\u200b\u200c\u200d\u200c") ++ t6) ++ (u! "\\1")) ++ t7)
      let t8 ← index ListOAU 1
      let t9 ← index (modAttr (u! "TamilGrantha") .SouthVowelSignMap) 0
      let t10 ← index (modAttr (u! "Tamil") .SouthConsonantMap) 0
      reSub ((((((u! "(") ++ ListC) ++ (u! ")")) ++ (u! "(")) ++ t8) ++ (u! ")")) ((((u! "\u200b\u200c\u200d\u200c") ++ t9) ++ (u! "\\1")) ++ t10)
      reSub (((((u! "(\u200b\u200c\u200d\u200c.)") ++ (u! "(")) ++ ListC) ++ (u! ")")) ++ (u! "(்ˆ)")) (u! "\\2\\3\\1")
      pure ())
    (do
      let t11 ← index (modAttr (u! "TamilGrantha") .VowelSignMap) 9
      let t12 ← index (modAttr (u! "TamilGrantha") .VowelSignMap) 0
      let t13 ← index ListOAU 0
      reSub ((((((u! "\u200b") ++ t11) ++ (u! "(")) ++ ListC) ++ (u! ")")) ++ t12) ((u! "\\1") ++ t13)
      let t14 ← index (modAttr (u! "TamilGrantha") .SouthVowelSignMap) 0
      let t15 ← index (modAttr (u! "TamilGrantha") .VowelSignMap) 0
      let t16 ← index ListOAU 2
      reSub ((((((u! "\u200b") ++ t14) ++ (u! "(")) ++ ListC) ++ (u! ")")) ++ t15) ((u! "\\1") ++ t16)
      let t17 ← index (modAttr (u! "TamilGrantha") .SouthVowelSignMap) 0
      let t18 ← index (modAttr (u! "Tamil") .SouthConsonantMap) 0
      let t19 ← index ListOAU 1
      reSub ((((((u! "\u200b") ++ t17) ++ (u! "(")) ++ ListC) ++ (u! ")")) ++ t18) ((u! "\\1") ++ t19)
      reSub (((((((u! "\u200b") ++ (u! "(")) ++ ListEAI) ++ (u! ")")) ++ (u! "(")) ++ ListC) ++ (u! ")")) (u! "\\2\\1")
      pure ())
  pure ()

/-- ConvertFix.py:1087-1112 -/
def ConvertFix.FixKhmer (reverse : Bool := false) (target : PyStr := (u! "Khmer")) : Gen Unit := do
  let t1 ← crunchSymbols GM.Consonants target
  let ListC := (pyJoin (u! "|") t1)
  let t2 ← crunchSymbols GM.VowelSigns target
  let ListV := (pyJoin (u! "|") t2)
  let t3 ← crunchSymbols GM.CombiningSigns target
  let ListA := (pyJoin (u! "|") t3)
  let t4 ← index (modAttr (u! "Khmer") .ConsonantMap) 26
  let ra := t4
  let t5 ← index (modAttr (u! "Khmer") .ViramaMap) 0
  let vir := t5
  branch (!reverse)
    (do
      reSub (((vir ++ (u! "(")) ++ ListC) ++ (u! ")")) ((u! "្") ++ (u! "\\1"))
      reSub (((((((u! "(?<!្)(") ++ ra) ++ (u! ")")) ++ (u! "្")) ++ (u! "(")) ++ ListC) ++ (u! ")")) ((u! "\\2") ++ (u! "៌"))
      replace (u! "ិំ") (u! "ឹ")
      pure ())
    (do
      replace (u! "្") vir
      reSub (vir ++ (u! "(?=[ឫឬឭឮ])")) (u! "្")
      reSub ((((u! "(") ++ ListC) ++ (u! ")")) ++ (u! "៌")) ((ra ++ vir) ++ (u! "\\1"))
      replace (u! "ឹ") (u! "ិំ")
      pure ())
  pure ()

/-- ConvertFix.py:1083-1084 -/
def ConvertFix.FixKhmerLoC (reverse : Bool := false) : Gen Unit := do
  ConvertFix.FixKhmer reverse (target := (u! "KhmerLoC"))
  pure ()

/-- ConvertFix.py:1114-1135 -/
def ConvertFix.FixKhamtiShan (reverse : Bool := false) : Gen Unit := do
  branch (!reverse)
    (do
      replace (u! "်ရ") (u! "ြ")
      replace (u! "်ယ") (u! "ျ")
      replace (u! "်ဝ") (u! "ွ")
      replace (u! "ြျ") (u! "ျြ")
      replace (u! "ွျ") (u! "ျွ")
      replace (u! "ႂြ") (u! "ြွ")
      pure ())
    (do
      replace (u! "ꩳ") (u! "ရ")
      replace (u! "ျြ") (u! "ြျ")
      replace (u! "ျွ") (u! "ွျ")
      replace (u! "ြႂ") (u! "ႂြ")
      replace (u! "ြ") (u! "်ꩳ")
      replace (u! "ꩳ") (u! "ရ")
      replace (u! "ျ") (u! "်ယ")
      replace (u! "ွ") (u! "်ဝ")
      pure ())
  pure ()

/-- ConvertFix.py:1137-1159 -/
def ConvertFix.FixTaiLaing (reverse : Bool := false) : Gen Unit := do
  branch (!reverse)
    (do
      replace (u! "်ꩺ") (u! "ြ")
      replace (u! "်ယ") (u! "ျ")
      replace (u! "်ဝ") (u! "ႂ")
      replace (u! "ြျ") (u! "ျြ")
      replace (u! "ွျ") (u! "ျွ")
      replace (u! "ႂြ") (u! "ြႂ")
      replace (u! "ႂျ") (u! "်၀ျ")
      pure ())
    (do
      replace (u! "ျြ") (u! "ြျ")
      replace (u! "ျွ") (u! "ွျ")
      replace (u! "ြႂ") (u! "ႂြ")
      replace (u! "ြ") (u! "်ꩺ")
      replace (u! "ျ") (u! "်ယ")
      replace (u! "ႂ") (u! "်ဝ")
      pure ())
  pure ()

/-- ConvertFix.py:1161-1193 -/
def ConvertFix.FixShan (reverse : Bool := false) : Gen Unit := do
  branch (!reverse)
    (do
      replace (u! "်ရ") (u! "ြ")
      replace (u! "်ယ") (u! "ျ")
      replace (u! "်ဝ") (u! "ႂ")
      reSub ((u! "(ှ)") ++ (u! "([ျြွ])")) (u! "\\2\\1")
      replace (u! "ြျ") (u! "ျြ")
      replace (u! "ွျ") (u! "ျွ")
      replace (u! "ွြ") (u! "ြွ")
      reSub (u! "သျʽ?ျ") (u! "သျ်ယ")
      pure ())
    (do
      reSub ((u! "([ျြွ])") ++ (u! "(ှ)")) (u! "\\2\\1")
      replace (u! "ျြ") (u! "ြျ")
      replace (u! "ျွ") (u! "ွျ")
      replace (u! "ြွ") (u! "ွြ")
      replace (u! "ြ") (u! "်ရ")
      replace (u! "ျ") (u! "်ယ")
      replace (u! "ွ") (u! "်ဝ")
      replace (u! "ႂ") (u! "်ဝ")
      replace (u! "ှ") (u! "်ႁ")
      replace (u! "္") (u! "်")
      pure ())
  pure ()

/-- ConvertFix.py:1244-1344 -/
def ConvertFix.FixBurmese (reverse : Bool := false) : Gen Unit := do
  let t1 ← crunchSymbols GM.Consonants (u! "Burmese")
  let ListC := (pyJoin (u! "|") t1)
  let t2 ← index (modAttr (u! "Burmese") .ViramaMap) 0
  let vir := t2
  let t3 ← index (modAttr (u! "Burmese") .VowelSignMap) 0
  let AA := t3
  let t4 ← index (modAttr (u! "Burmese") .VowelSignMap) 9
  let E := t4
  let yrvh := (((pySlice (modAttr (u! "Burmese") .ConsonantMap) (some 25) (some 27)) ++ (pySlice (modAttr (u! "Burmese") .ConsonantMap) (some 28) (some 29))) ++ (pySlice (modAttr (u! "Burmese") .ConsonantMap) (some 32) (some 33)))
  let yrvhsub := [(u! "ျ"), (u! "ြ"), (u! "ွ"), (u! "ှ")]
  let t6 ← pmap [1, 2, 4, 17, 20, 28] fun x => (do let t5 ← index (modAttr (u! "Burmese") .ConsonantMap) x; pure t5)
  let TallACons := (pyJoin (u! "|") t6)
  branch (!reverse)
    (do
      reSub (((((u! "(?<!ာ)") ++ vir) ++ (u! "(")) ++ ListC) ++ (u! ")")) ((u! "္") ++ (u! "\\1"))
      let t7 ← index (modAttr (u! "Burmese") .ConsonantMap) 4
      reSub ((((((u! "(") ++ t7) ++ (u! ")")) ++ (u! "(")) ++ (u! "္")) ++ (u! ")")) (((u! "\\1") ++ vir) ++ (u! "\\2"))
      reSub ((((u! "(ရ)") ++ (u! "(")) ++ (u! "္")) ++ (u! ")")) (((u! "\\1") ++ vir) ++ (u! "\\2"))
      reSub (((((((u! "(?<!္)(") ++ TallACons) ++ (u! ")")) ++ (u! "(")) ++ E) ++ (u! "?)")) ++ AA) ((u! "\\1\\2") ++ (u! "ါ"))
      reSub (((((((((u! "(") ++ TallACons) ++ (u! ")(္)(")) ++ ListC) ++ (u! ")")) ++ (u! "(")) ++ E) ++ (u! "?)")) ++ AA) ((u! "\\1\\2\\3\\4") ++ (u! "ါ"))
      reSub ((((((((((((u! "(") ++ TallACons) ++ (u! ")(္)(")) ++ ListC) ++ (u! ")")) ++ (u! "(္)(")) ++ ListC) ++ (u! ")")) ++ (u! "(")) ++ E) ++ (u! "?)")) ++ AA) ((u! "\\1\\2\\3\\4\\5\\6") ++ (u! "ါ"))
      reSub ((((((((u! "(?<=်္)") ++ (u! "(")) ++ TallACons) ++ (u! ")")) ++ (u! "(")) ++ E) ++ (u! "?)")) ++ AA) ((u! "\\1\\2") ++ (u! "ါ"))
      forEach (pyZip yrvh yrvhsub) fun (x, y) => do
        reSub ((u! "(?<!်)္") ++ x) y
      reSub (u! "ျါ") (u! "ျာ")
      reSub (u! "(?<!ဂ)ြါ") (u! "ြာ")
      reSub (u! "ျေါ") (u! "ျော")
      reSub (u! "(?<!ဂ)ြေါ") (u! "ြော")
      replace (u! "သ္သ") (u! "ဿ")
      replace (u! "ဉ္ဉ") (u! "ည")
      replace (u! "˳") (u! "့")
      replace (u! "့်") (u! "့်")
      replace (u! "ာ္") (u! "ာ်")
      reSub ((((u! "(ရ်္င်္)") ++ (u! "(")) ++ ListC) ++ (u! ")")) ((u! "ရ်္င္") ++ (u! "\\2"))
      replace (u! "ါ္") (u! "ါ်")
      replace (u! "်္ယ") (u! "ျ")
      replace (u! "ြ်္ဝ") (u! "ြွ")
      reSub ((u! "(ှ)") ++ (u! "([ျြွ])")) (u! "\\2\\1")
      replace (u! "ြျ") (u! "ျြ")
      replace (u! "ွျ") (u! "ျွ")
      replace (u! "ွြ") (u! "ြွ")
      replace (u! "ရျ") (u! "ရ်္ယ")
      replace (u! "ငျ") (u! "င်္ယ")
      pure ())
    (do
      reSub ((u! "([ျြွ])") ++ (u! "(ှ)")) (u! "\\2\\1")
      replace (u! "ျြ") (u! "ြျ")
      replace (u! "ျွ") (u! "ွျ")
      replace (u! "ြွ") (u! "ွြ")
      replace (u! "ဿ") (u! "သ္သ")
      replace (u! "ည") (u! "ဉ္ဉ")
      replace (u! "့်") (u! "့်")
      replace (u! "့") (u! "˳")
      replace (u! "္") vir
      replace (u! "ါ") AA
      let t8 ← index (modAttr (u! "Burmese") .ConsonantMap) 4
      let t9 ← index (modAttr (u! "Burmese") .ConsonantMap) 4
      replace ((t8 ++ vir) ++ vir) (t9 ++ vir)
      replace (((u! "ရ") ++ vir) ++ vir) ((u! "ရ") ++ vir)
      forEach (pyZip yrvh yrvhsub) fun (x, y) => do
        replace y (vir ++ x)
      pure ())
  pure ()

/-- ConvertFix.py:1195-1241 -/
def ConvertFix.FixMon (reverse : Bool := false) : Gen Unit := do
  let pairs := [((u! "င"), (u! "ၚ")), ((u! "ဉ"), (u! "ည")), ((u! "ဈ"), (u! "ၛ"))]
  forEach pairs fun (x, y) => do
    replace y x
  ConvertFix.FixBurmese reverse
  replace (u! "ည") (u! "")
  forEach pairs fun (x, y) => do
    replace x y
  replace (u! "") (u! "ည္ည")
  let medials_cons_mon := [(u! "္န"), (u! "္မ"), (u! "္လ")]
  let medials_mon := [(u! "ၞ"), (u! "ၟ"), (u! "ၠ")]
  branch (!reverse)
    (do
      forEach (pyZip medials_cons_mon medials_mon) fun (x, y) => do
        replace x y
      replace (u! "ၠြ") (u! "ြၠ")
      forEach (pyEnumerate medials_mon) fun (i, med1) => do
        forEach (pyEnumerate medials_mon) fun (j, med2) => do
          let t1 ← index medials_cons_mon i
          let t2 ← index medials_cons_mon j
          replace (med1 ++ med2) (t1 ++ t2)
      forEach (pyEnumerate medials_mon) fun (i, med) => do
        let t3 ← index medials_cons_mon i
        replace (med ++ (u! "ျ")) (t3 ++ (u! "ျ"))
        let t4 ← index medials_cons_mon i
        replace ((u! "ရ်") ++ med) ((u! "ရ်") ++ t4)
        let t5 ← index medials_cons_mon i
        replace ((u! "ၚ်") ++ med) ((u! "ၚ်") ++ t5)
      pure ())
    (do
      replace (u! "်ရၠ") (u! "ၠ်ရ")
      forEach (pyZip medials_cons_mon medials_mon) fun (x, y) => do
        replace y x
      replace (u! "္") (u! "်")
      pure ())
  pure ()

/-- ConvertFix.py:1349-1366 -/
def ConvertFix.AddRepha (Script : PyStr) (Repha : PyStr) (reverse : Bool := false) : Gen Unit := do
  let t1 ← crunchSymbols GM.VowelSigns Script
  let t2 ← index t1 0
  let vir := t2
  let t3 ← crunchSymbols GM.Consonants Script
  let t4 ← index t3 26
  let ra := t4
  let t5 ← crunchSymbols GM.Consonants Script
  let ListC := (pyJoin (u! "|") t5)
  let t6 ← crunchSymbols GM.Vowels Script
  let ListV := (pyJoin (u! "|") t6)
  let t7 ← crunchSymbols GM.VowelSignsNV Script
  let ListVS := (pyJoin (u! "|") t7)
  branch (!reverse)
    (do
      reSub (((((((((((u! "(") ++ ListC) ++ (u! "|")) ++ ListV) ++ (u! "|")) ++ ListVS) ++ (u! ")")) ++ (u! "(")) ++ ra) ++ vir) ++ (u! ")")) ((u! "\\1") ++ Repha)
      pure ())
    (do
      replace Repha (ra ++ vir)
      pure ())
  pure ()

/-- ConvertFix.py:1368-1374 -/
def ConvertFix.FixTagbanwa (reverse : Bool := false) : Gen Unit := do
  branch (!reverse)
    (do
      PostProcess.InsertGeminationSign (u! "Tagbanwa")
      pure ())
    (do
      pure ())
  pure ()

/-- ConvertFix.py:1376-1382 -/
def ConvertFix.FixBuhid (reverse : Bool := false) : Gen Unit := do
  branch (!reverse)
    (do
      PostProcess.InsertGeminationSign (u! "Buhid")
      pure ())
    (do
      pure ())
  pure ()

/-- ConvertFix.py:1384-1401 -/
def ConvertFix.FixBuginese (reverse : Bool := false) : Gen Unit := do
  branch (!reverse)
    (do
      replace (u! "ᨂʾᨀ") (u! "ᨃ")
      replace (u! "ᨆʾᨄ") (u! "ᨇ")
      replace (u! "ᨊʾᨑ") (u! "ᨋ")
      replace (u! "ᨎʾᨌ") (u! "ᨏ")
      PostProcess.InsertGeminationSign (u! "Buginese")
      replace (u! "ʾ") (u! "")
      pure ())
    (do
      replace (u! "ᨃ") (u! "ᨂʾᨀ")
      replace (u! "ᨇ") (u! "ᨆʾᨄ")
      replace (u! "ᨋ") (u! "ᨊʾᨑ")
      replace (u! "ᨏ") (u! "ᨎʾᨌ")
      pure ())
  pure ()

/-- ConvertFix.py:1405-1422 -/
def ConvertFix.FixBalinese (reverse : Bool := false) : Gen Unit := do
  let Repha := (u! "ᬃ")
  ConvertFix.AddRepha (u! "Balinese") Repha reverse
  branch (!reverse)
    (do
      pure ())
    (do
      replace (u! "ᭌ") (u! "ᬚ᭄ᬜ")
      let vowelsA := [(u! "ᬅᬶ"), (u! "ᬅᬷ"), (u! "ᬅᬸ"), (u! "ᬅᬹ"), (u! "ᬅᬺ"), (u! "ᬅᬻ"), (u! "ᬅ᭄ᬮᭂ"), (u! "ᬅ᭄ᬮᭃ"), (u! "ᬅᬾ"), (u! "ᬅᬿ"), (u! "ᬅᭀ"), (u! "ᬅᭁ")]
      let vowels := [(u! "ᬇ"), (u! "ᬈ"), (u! "ᬉ"), (u! "ᬊ"), (u! "ᬋ"), (u! "ᬌ"), (u! "ᬍ"), (u! "ᬎ"), (u! "ᬏ"), (u! "ᬐ"), (u! "ᬑ"), (u! "ᬒ")]
      forEach (pyZip vowels vowelsA) fun (v, vA) => do
        replace vA v
      pure ())
  pure ()

/-- ConvertFix.py:1425-1471 -/
def ConvertFix.FixDivesAkuru (reverse : Bool := false) : Gen Unit := do
  let target := (u! "DivesAkuru")
  let t1 ← crunchSymbols GM.Consonants target
  let ListC := (pyJoin (u! "|") (t1 ++ [(u! "𑤦")]))
  let t2 ← crunchSymbols GM.VowelSigns target
  let ListV := (pyJoin (u! "|") t2)
  let t3 ← crunchSymbols GM.CombiningSigns target
  let ListA := (pyJoin (u! "|") t3)
  let t4 ← crunchSymbols GM.Consonants target
  let t5 ← index t4 26
  let ra := t5
  let t6 ← crunchSymbols GM.Consonants target
  let t7 ← index t6 25
  let ya := t7
  let t8 ← crunchSymbols GM.virama target
  let t9 ← index t8 0
  let vir := t9
  let combVir := (u! "𑤾")
  let aVS := (u! "𑼴")
  branch (!reverse)
    (do
      reSub (((vir ++ (u! "(")) ++ ListC) ++ (u! ")")) (combVir ++ (u! "\\1"))
      reSub (combVir ++ ra) (u! "𑥂")
      reSub (combVir ++ ya) (u! "𑥀")
      reSub ((((((u! "(?<!𑤾)") ++ ra) ++ (u! "𑤾")) ++ (u! "(")) ++ ListC) ++ (u! ")")) ((u! "𑥁") ++ (u! "\\1"))
      pure ())
    (do
      let homoNasal := (u! "𑤿")
      reSub (homoNasal ++ (u! "(?=[𑤌𑤍𑤎𑤏])")) (u! "𑤐𑤾")
      reSub (homoNasal ++ (u! "(?=[𑤑𑤒𑤓])")) (u! "𑤕𑤾")
      reSub (homoNasal ++ (u! "(?=[𑤖𑤘𑤙])")) (u! "𑤚𑤾")
      reSub (homoNasal ++ (u! "(?=[𑤛𑤜𑤝𑤞])")) (u! "𑤟𑤾")
      reSub (homoNasal ++ (u! "(?=[𑤠𑤡𑤢𑤣])")) (u! "𑤤𑤾")
      replace combVir vir
      replace (u! "𑤦") (u! "𑤥")
      reSub combVir vir
      reSub (u! "𑥂") (vir ++ ra)
      reSub (u! "𑥀") (vir ++ ya)
      reSub (u! "𑥁") (vir ++ ra)
      pure ())
  pure ()

/-- ConvertFix.py:1474-1521 -/
def ConvertFix.FixKawi (reverse : Bool := false) : Gen Unit := do
  let target := (u! "Kawi")
  let t1 ← crunchSymbols GM.Consonants target
  let ListC := (pyJoin (u! "|") t1)
  let t2 ← crunchSymbols GM.VowelSigns target
  let ListV := (pyJoin (u! "|") t2)
  let t3 ← crunchSymbols GM.CombiningSigns target
  let ListA := (pyJoin (u! "|") t3)
  let t4 ← index (modAttr (u! "Kawi") .ConsonantMap) 26
  let ra := t4
  let t5 ← index (modAttr (u! "Kawi") .ViramaMap) 0
  let vir := t5
  let aVS := (u! "𑼴")
  let aVSAlt := (u! "𑼵")
  let E := (u! "𑼾")
  let AA := (u! "𑼴")
  branch (!reverse)
    (do
      reSub (((vir ++ (u! "(")) ++ ListC) ++ (u! ")")) ((u! "𑽂") ++ (u! "\\1"))
      reSub ((((((u! "(?<!𑽂)") ++ ra) ++ (u! "𑽂")) ++ (u! "(")) ++ ListC) ++ (u! ")")) ((u! "𑼂") ++ (u! "\\1"))
      let TallACons := (pyJoin (u! "|") [(u! "𑼦"), (u! "𑼖"), (u! "𑼜")])
      reSub (((((((u! "(?<!𑽂)(") ++ TallACons) ++ (u! ")")) ++ (u! "(")) ++ E) ++ (u! "?)")) ++ AA) ((u! "\\1\\2") ++ (u! "𑼵"))
      reSub (((((((((u! "(") ++ TallACons) ++ (u! ")(𑽂)(")) ++ ListC) ++ (u! ")")) ++ (u! "(")) ++ E) ++ (u! "?)")) ++ AA) ((u! "\\1\\2\\3\\4") ++ (u! "𑼵"))
      reSub ((((((((((((u! "(") ++ TallACons) ++ (u! ")(𑽂)(")) ++ ListC) ++ (u! ")")) ++ (u! "(𑽂)(")) ++ ListC) ++ (u! ")")) ++ (u! "(")) ++ E) ++ (u! "?)")) ++ AA) ((u! "\\1\\2\\3\\4\\5\\6") ++ (u! "𑼵"))
      let postBaseCons := (pyJoin (u! "|") [(u! "𑼚"), (u! "𑼦"), (u! "𑼧"), (u! "𑼫"), (u! "𑼱")])
      reSub ((((u! "(𑽂)(") ++ postBaseCons) ++ (u! ")")) ++ (u! "(𑼵)")) ((u! "\\1\\2") ++ AA)
      pure ())
    (do
      replace (u! "𑽂") vir
      replace (u! "𑼂") (ra ++ vir)
      replace aVSAlt aVS
      replace (u! "𑼳") (u! "𑼙𑽂𑼛")
      replace (u! "𑼄𑼴") (u! "𑼅")
      replace (u! "𑼆𑼴") (u! "𑼇")
      replace (u! "𑼈𑼴") (u! "𑼉")
      replace (u! "𑼾𑼾") (u! "𑼿")
      pure ())
  pure ()

/-- ConvertFix.py:1524-1552 -/
def ConvertFix.FixJavanese (reverse : Bool := false) : Gen Unit := do
  let Repha := (u! "ꦂ")
  let t1 ← index (modAttr (u! "Javanese") .ViramaMap) 0
  let vir := t1
  let t2 ← index (modAttr (u! "Javanese") .ConsonantMap) 26
  let t3 ← index (modAttr (u! "Javanese") .ConsonantMap) 25
  let ra := t2
  let ya := t3
  let SubRa := (u! "ꦿ")
  let SubYa := (u! "ꦾ")
  ConvertFix.AddRepha (u! "Javanese") Repha reverse
  branch (!reverse)
    (do
      replace (vir ++ ra) SubRa
      replace (vir ++ ya) SubYa
      pure ())
    (do
      replace (u! "ꦘ") (u! "ꦗ꧀ꦚ")
      replace (u! "ꦬ") ra
      replace SubRa (vir ++ ra)
      replace SubYa (vir ++ ya)
      replace (u! "ᭌ") (u! "ᬚ᭄ᬜ")
      let vowelsA := [(u! "ꦄꦶ"), (u! "ꦄꦷ"), (u! "ꦄꦸ"), (u! "ꦄꦹ"), (u! "ꦄꦽ"), (u! "ꦄ꧀ꦉꦴ"), (u! "ꦄ꧀ꦭꦼ"), (u! "ꦄ꧀ꦭꦼꦴ"), (u! "ꦄꦺ"), (u! "ꦄꦻ"), (u! "ꦄꦺꦴ"), (u! "ꦄꦻꦴ")]
      let vowels := [(u! "ꦆ"), (u! "ꦇ"), (u! "ꦈ"), (u! "ꦈꦴ"), (u! "ꦉ"), (u! "ꦉꦴ"), (u! "ꦊ"), (u! "ꦋ"), (u! "ꦌ"), (u! "ꦍ"), (u! "ꦎ"), (u! "ꦎꦴ")]
      forEach (pyZip vowels vowelsA) fun (v, vA) => do
        replace vA v
      pure ())
  pure ()

/-- ConvertFix.py:1821-1834 -/
def ConvertFix.PersoArabicPuntuation (reverse : Bool := false) : Gen Unit := do
  branch (!reverse)
    (do
      forEach (pyZip [(u! ","), (u! "?"), (u! ";")] [(u! "،"), (u! "؟"), (u! "؛")]) fun (x, y) => do
        replace x y
      replace (u! ".") (u! "۔")
      pure ())
    (do
      forEach (pyZip [(u! ","), (u! "?"), (u! ";")] [(u! "،"), (u! "؟"), (u! "؛")]) fun (x, y) => do
        replace y x
      replace (u! "۔") (u! ".")
      pure ())
  pure ()

/-- ConvertFix.py:1563-1818 -/
def ConvertFix.FixUrduShahmukhi (Target : PyStr) (reverse : Bool := false) : Gen Unit := do
  replace (u! "ʽ") (u! "")
  let t1 ← crunchSymbols GM.VowelSigns Target
  let t2 ← index t1 0
  let vir := t2
  let t5 ← pmap ([0, 2, 5, 7, 10, 12, 15, 17, 20, 22, 4, 9, 14, 19, 24] ++ [25, 26, 27, 28, 29, 30, 31, 32]) fun x => (do let t3 ← crunchList .ConsonantMap Target; let t4 ← index t3 x; pure t4)
  let ConUnAsp := t5
  let t6 ← crunchList .SouthConsonantMap Target
  let t7 ← crunchList .NuktaConsonantMap Target
  let ConUnAsp := ((ConUnAsp ++ t6) ++ t7)
  let ShortVowels := (pyJoin (u! "|") [(u! "ْ"), (u! "َ"), (u! "ِ"), (u! "ُ")])
  let a := (u! "َ")
  let ya := (u! "ی")
  let va := (u! "و")
  let yaBig := (u! "ے")
  let t8 ← index (modAttr (u! "Urdu") .VowelSignMap) 0
  let Aa := t8
  branch (!reverse)
    (do
      let t9 ← crunchSymbols GM.VowelSigns Target
      let ListVS := (((u! "(") ++ (pyJoin (u! "|") t9)) ++ (u! ")"))
      let t10 ← crunchSymbols GM.Vowels Target
      let ListV := (((u! "(") ++ (pyJoin (u! "|") t10)) ++ (u! ")"))
      let t11 ← crunchSymbols GM.VowelSigns Target
      let ListVSA := (((u! "(") ++ (pyJoin (u! "|") (t11 ++ [a]))) ++ (u! ")"))
      let t12 ← crunchSymbols GM.Consonants Target
      let ListC := (((u! "(") ++ (pyJoin (u! "|") t12)) ++ (u! ")"))
      reSub ((u! "(ںʽ?)") ++ ListC) ((u! "ن٘") ++ (u! "\\2"))
      let hamzaFull := (u! "ء")
      let hamzaChair := (u! "ئ")
      reSub (ListVS ++ ListV) (((u! "\\1") ++ hamzaFull) ++ (u! "\\2"))
      reSub (ListV ++ ListV) (((u! "\\1") ++ hamzaFull) ++ (u! "\\2"))
      reSub (((((((u! "(") ++ a) ++ (u! ")")) ++ ListV) ++ (u! "(?!")) ++ ListVSA) ++ (u! ")")) (((u! "\\1") ++ hamzaFull) ++ (u! "\\2"))
      reSub ((((((u! "(") ++ a) ++ (u! ")")) ++ (u! "(")) ++ ShortVowels) ++ (u! ")")) (u! "\\2")
      reSub ((((((((((((((u! "(?<!") ++ Aa) ++ (u! ")")) ++ (u! "(")) ++ a) ++ (u! ")")) ++ (u! "(")) ++ va) ++ (u! "|")) ++ ya) ++ (u! ")")) ++ (u! "(?!")) ++ ShortVowels) ++ (u! ")")) (u! "\\2")
      let t13 ← crunchSymbols GM.Consonants Target
      let ListC := (pyReplace (pyJoin (u! "|") t13) a (u! ""))
      let t14 ← index (modAttr (u! "Urdu") .AyogavahaMap) 0
      let t15 ← index (modAttr (u! "Urdu") .AyogavahaMap) 1
      let Ayoga := (pyJoin (u! "|") (pyChars (t14 ++ t15)))
      replace ya yaBig
      reSub (((((((u! "(") ++ yaBig) ++ (u! ")")) ++ (u! "(?=")) ++ (pyJoin (u! "|") ConUnAsp)) ++ ShortVowels) ++ (u! ")")) ya
      reSub ((((((u! "(") ++ yaBig) ++ (u! ")")) ++ (u! "(")) ++ ListC) ++ (u! ")")) (ya ++ (u! "\\2"))
      reSub ((((((u! "(") ++ yaBig) ++ (u! ")")) ++ (u! "(")) ++ Ayoga) ++ (u! ")")) (ya ++ (u! "\\2"))
      replace ((u! "ِ") ++ yaBig) ((u! "ِ") ++ ya)
      let t18 ← pmap [1, 3, 6, 8, 11, 13, 16, 18, 21, 23] fun x => (do let t16 ← crunchList .ConsonantMap Target; let t17 ← index t16 x; pure t17)
      let ConAsp := t18
      let ConUnAsp_a := (ConUnAsp.map fun x => (pyReplace x (u! "َ") (u! "")))
      let t19 ← dictGet GM.Gemination Target
      reSub (((((((u! "(") ++ (pyJoin (u! "|") ConUnAsp_a)) ++ (u! ")")) ++ (u! "(")) ++ vir) ++ (u! ")")) ++ (u! "\\1")) ((u! "\\1") ++ t19)
      reSub (u! "(.)(ّ)(ھ)") (u! "\\1\\3\\2")
      replace (u! "ےے") (u! "یے")
      replace (u! "ےی") (u! "یی")
      replace (u! "ےْ") (u! "یْ")
      replace (u! "ءاِی") (u! "ئِی")
      replace (u! "ءاے") (u! "ئے")
      replace (u! "ءای") (u! "ئی")
      replace (u! "ءاو") (u! "ؤ")
      replace (u! "ءاُو") (u! "ؤُ")
      replace (u! "ءاُ") (u! "ؤُ")
      reSub (((u! "(") ++ hamzaFull) ++ (u! ")(اُو)")) ((u! "\\1") ++ (u! "ؤُ"))
      reSub (((u! "(") ++ hamzaFull) ++ (u! ")(اُ)")) ((u! "\\1") ++ (u! "ؤُ"))
      reSub (((u! "(") ++ hamzaFull) ++ (u! ")(او)")) ((u! "\\1") ++ (u! "ؤ"))
      replace (u! "ءاِ") (u! "ئِ")
      replace (u! "ئِءآ") (u! "ئِا")
      reSub (((u! "(") ++ hamzaFull) ++ (u! ")(اِ)")) ((u! "\\1") ++ (u! "ئِ"))
      reSub (((u! "(") ++ hamzaFull) ++ (u! ")(ا)(ے|ی)")) (((u! "\\1") ++ (u! "ئ")) ++ (u! "\\3"))
      replace (u! "ئِئ") (u! "ئِ")
      replace (u! "ئِؤ") (u! "ئِو")
      replace (u! "ࣇ") (u! "لؕ")
      branch (pyEq Target (u! "Shahmukhi"))
        (do
          reSub (u! "(ن|م|ی|ر|ل|و)(ْ)(ہ)") ((u! "\\1") ++ (u! "ھ"))
          pure ())
        (do
          pure ())
      pure ())
    (do
      branch true
        (do
          replace (u! "ن٘") (u! "ں")
          reSub (u! "(\\s)ھ") ((u! "\\1") ++ (u! "ہ"))
          replace (u! "ۓ") (u! "_ے")
          branch (pyEq Target (u! "Shahmukhi"))
            (do
              reSub (u! "(ن|م|ی|ر|ل|و)(ھ)") ((u! "\\1") ++ (u! "ْہ"))
              pure ())
            (do
              pure ())
          replace (u! "لؕ") (u! "ࣇ")
          let t20 ← crunchSymbols GM.Consonants Target
          let ListC := t20
          replace (u! "ص") (u! "س")
          replace (u! "ث") (u! "س")
          replace (u! "ح") (u! "ہ")
          replace (u! "ۃ") (u! "ہ")
          replace (u! "ذ") (u! "ز")
          replace (u! "ض") (u! "ز")
          replace (u! "ظ") (u! "ز")
          replace (u! "ط") (u! "ت")
          replace (u! "ژ") (u! "ز")
          replace (u! "ع") (u! "اَ")
          replace (u! "ً") (u! "نْ")
          replace (u! "ئ") ((u! "_") ++ ya)
          replace (u! "ؤ") (((u! "_") ++ va) ++ a)
          replace (u! "ء") (u! "_")
          replace (u! "یٰ") (u! "ا")
          replace (u! "ك") (u! "ک")
          replace (u! "ي") (u! "ی")
          reSub (u! "(ھ)(ّ)") (u! "\\2\\1")
          reSub (((u! "(") ++ ShortVowels) ++ (u! ")(ّ)")) ((u! "\\2") ++ (u! "\\1"))
          reSub (u! "(.)(ّ)") (((u! "\\1") ++ (u! "ْ")) ++ (u! "\\1"))
          whenDyn (.has (u! "ʻʻ"))
            (do
              replace (u! "ا") (u! "اَ")
              replace (u! "لؕ") (u! "لَؕ")
              forEach ListC fun c => do
                replace (pyReplace c a (u! "")) c
                replace (c ++ (u! "اَ")) (c ++ (u! "ا"))
                replace ((c ++ (u! "ا")) ++ (u! "و")) (((c ++ (u! "ا")) ++ (u! "\u200b")) ++ (u! "و"))
                replace ((c ++ (u! "ا")) ++ (u! "ی")) (((c ++ (u! "ا")) ++ (u! "\u200b")) ++ (u! "ی"))
              replace (a ++ (u! "ھ")) ((u! "ھ") ++ a)
              replace (((u! "ھ") ++ a) ++ (u! "اَ")) (((u! "ھ") ++ a) ++ (u! "ا"))
              replace ((((u! "ھ") ++ a) ++ (u! "ا")) ++ (u! "و")) (((((u! "ھ") ++ a) ++ (u! "ا")) ++ (u! "\u200b")) ++ (u! "و"))
              replace ((((u! "ھ") ++ a) ++ (u! "ا")) ++ (u! "ی")) (((((u! "ھ") ++ a) ++ (u! "ا")) ++ (u! "\u200b")) ++ (u! "ی"))
              replace (a ++ a) a
              replace (u! "اَے") (u! "اے")
              replace yaBig ya
              replace (u! "ʻʻ") (u! "")
              pure ())
            (do
              let ShortVowelsR := (pyJoin (u! "|") [(u! "ْ"), (u! "ِ"), (u! "ُ")])
              let longVowels := (pyJoin (u! "|") [(u! "و"), (u! "ا"), ya])
              replace yaBig ya
              let t21 ← crunchSymbols GM.Consonants Target
              let ListCR := (pyReplace (pyJoin (u! "|") t21) a (u! ""))
              reSub ((((((u! "(") ++ ListCR) ++ (u! ")")) ++ (u! "(")) ++ ShortVowelsR) ++ (u! ")")) (((u! "\\1") ++ a) ++ (u! "\\2"))
              reSub (((((((((u! "(") ++ ListCR) ++ (u! ")")) ++ (u! "(")) ++ longVowels) ++ (u! ")")) ++ (u! "(?!")) ++ ShortVowels) ++ (u! ")")) (((u! "\\1") ++ a) ++ (u! "\\2"))
              reSub ((((u! "(") ++ ListCR) ++ (u! ")")) ++ (u! "(_)")) (((u! "\\1") ++ a) ++ (u! "\\2"))
              pure ())
          let t22 ← crunchSymbols GM.VowelSigns Target
          let VowelVS := (pyJoin (u! "|") t22)
          pure ())
        (do
          pure ())
      pure ())
  ConvertFix.PersoArabicPuntuation reverse
  pure ()

/-- ConvertFix.py:1555-1556 -/
def ConvertFix.FixUrdu (reverse : Bool := false) : Gen Unit := do
  ConvertFix.FixUrduShahmukhi (u! "Urdu") reverse
  pure ()

/-- ConvertFix.py:1559-1560 -/
def ConvertFix.FixShahmukhi (reverse : Bool := false) : Gen Unit := do
  ConvertFix.FixUrduShahmukhi (u! "Shahmukhi") reverse
  pure ()

/-- ConvertFix.py:1838-1880 -/
def ConvertFix.FixThaana (reverse : Bool := false) : Gen Unit := do
  let t1 ← crunchSymbols GM.Consonants (u! "Thaana")
  let ListC := (pyJoin (u! "|") t1)
  let t2 ← crunchSymbols GM.VowelSigns (u! "Thaana")
  let VowelVS := (pyJoin (u! "|") t2)
  let aBase := (u! "އ")
  branch (!reverse)
    (do
      PostProcess.InsertGeminationSign (u! "Thaana")
      reSub ((((u! "(ަ)") ++ (u! "(?=(")) ++ VowelVS) ++ (u! "))")) (u! "")
      replace (u! "ʾ") (u! "")
      forEach (pyZip [(u! ","), (u! "?"), (u! ";")] [(u! "،"), (u! "؟"), (u! "؛")]) fun (x, y) => do
        replace x y
      replace (u! "ʔ") (u! "އް")
      pure ())
    (do
      replace (u! "ޢ") (u! "އ")
      replace (u! "ޡ") (u! "ތ")
      replace (u! "ޥ") (u! "ވ")
      replace (u! "ޠ") (u! "ތ")
      replace (u! "ޟ") (u! "ސ")
      replace (u! "ޞ") (u! "ސ")
      replace (u! "ޜ") (u! "ށ")
      replace (u! "ޛ") (u! "ދ")
      replace (u! "ޘ") (u! "ތ")
      replace (u! "ޛ") (u! "ދ")
      replace (u! "ޙ") (u! "ހ")
      reSub (((((((u! "(") ++ (pyReplace ListC (u! "ަ") (u! ""))) ++ (u! ")")) ++ (u! "(?!")) ++ VowelVS) ++ (u! "|ަ")) ++ (u! ")")) ((u! "\\1") ++ (u! "ް"))
      reSub (((((((u! "(?<!") ++ aBase) ++ (u! ")(?<!")) ++ (u! "ʽʽʽ")) ++ (u! ")(")) ++ VowelVS) ++ (u! ")")) ((u! "ަ") ++ (u! "\\1"))
      PostProcess.ReverseGeminationSign (u! "Thaana")
      replace (u! "އް") (u! "ʔ")
      forEach (pyZip [(u! ","), (u! "?"), (u! ";")] [(u! "،"), (u! "؟"), (u! "؛")]) fun (x, y) => do
        replace y x
      pure ())
  pure ()

/-- ConvertFix.py:1882-1888 -/
def ConvertFix.FixSaurashtra (reverse : Bool := false) : Gen Unit := do
  branch (!reverse)
    (do
      replace (u! "ꢒ꣄ꢰ") (u! "ꢒ꣄\u200dꢰ")
      pure ())
    (do
      replace (u! "ꢴ") (u! "꣄ꢲ")
      pure ())
  pure ()

/-- ConvertFix.py:1894-1959 -/
def ConvertFix.FixTibetan (reverse : Bool := false) (swapNative : Bool := true) : Gen Unit := do
  let t2 ← pmap (pyRange 3904 3944) fun x => (do let t1 ← index (modAttr (u! "Tibetan") .ViramaMap) 0; pure (t1 ++ [x]))
  let ListC := t2
  let ListSubC := ((pyRange 3904 3944).map fun x => [(x + 80)])
  let SubC := [(u! "ཝྭ"), (u! "ཡྱ"), (u! "རྱ"), (u! "རྭ"), (u! "ྺྭ")]
  let SubMinC := [(u! "ཝྺ"), (u! "ཡྻ"), (u! "ཪྻ"), (u! "ཪྺ"), (u! "ྺྺ")]
  branch (!reverse)
    (do
      reSub (u! "([ྈྉ])") ((u! "\\1") ++ (u! "྄"))
      forEach (pyZip ListC ListSubC) fun (x, y) => do
        replace x y
      forEach (pyZip SubC SubMinC) fun (x, y) => do
        replace x y
      replace (u! " ") (u! "་")
      replace (u! "ཛྷ༹") (u! "ཞ")
      replace (u! "(") (u! "༺")
      replace (u! ")") (u! "༻")
      replace (u! "{") (u! "༼")
      replace (u! "}") (u! "༽")
      pure ())
    (do
      pure ())
  branch reverse
    (do
      let AspirateDecom := [(u! "གྷ"), (u! "ཌྷ"), (u! "དྷ"), (u! "བྷ"), (u! "ཛྷ"), (u! "ྒྷ"), (u! "ྜྷ"), (u! "ྡྷ"), (u! "ྦྷ"), (u! "ྫྷ")]
      let AspirateAtomic := [(u! "གྷ"), (u! "ཌྷ"), (u! "དྷ"), (u! "བྷ"), (u! "ཛྷ"), (u! "ྒྷ"), (u! "ྜྷ"), (u! "ྡྷ"), (u! "ྦྷ"), (u! "ྫྷ")]
      forEach (pyZip AspirateDecom AspirateAtomic) fun (x, y) => do
        replace x y
      forEach (pyZip SubC SubMinC) fun (x, y) => do
        replace y x
      forEach (pyZip ListC ListSubC) fun (x, y) => do
        replace y x
      forEach (pyZip [(u! "྄རྀ"), (u! "྄རཱྀ"), (u! "྄ལྀ"), (u! "྄ལཱྀ")] [(u! "ྲྀ"), (u! "ྲཱྀ"), (u! "ླྀ"), (u! "ླཱྀ")]) fun (x, y) => do
        replace x y
      replace (u! "་") (u! " ")
      replace (u! "༔") (u! "།")
      replace (u! "༈") (u! "།")
      replace (u! "༺") (u! "(")
      replace (u! "༻") (u! ")")
      replace (u! "༼") (u! "{")
      replace (u! "༽") (u! "}")
      reSub (u! "([ྈྉ])(྄)") (u! "\\1")
      branch swapNative
        (do
          replace (u! "ཇྷ") (u! "ཛྷ")
          replace (u! "ཇ") (u! "ཛ")
          replace (u! "ཅ") (u! "ཙ")
          replace (u! "ཆ") (u! "ཚ")
          replace (u! "ཞ") (u! "ཛྷ༹")
          replace (u! "འ") (u! "ཨ")
          pure ())
        (do
          pure ())
      pure ())
    (do
      pure ())
  pure ()

/-- ConvertFix.py:1890-1891 -/
def ConvertFix.FixTibetanLoC (reverse : Bool := false) : Gen Unit := do
  ConvertFix.FixTibetan reverse (swapNative := false)
  pure ()

/-- ConvertFix.py:1964-1984 -/
def ConvertFix.ReverseVowelSigns (Script : PyStr) (reverse : Bool := false) : Gen Unit := do
  let t1 ← crunchSymbols GM.VowelSignsNV Script
  let t2 ← crunchSymbols GM.VowelSignsNV Script
  let EAIO := (pyJoin (u! "|") (sortByLenDesc ((pySlice t1 (some 9) (some 12)) ++ (pySlice t2 (some 17) none))))
  let t3 ← crunchSymbols GM.Consonants Script
  let cons := (pyJoin (u! "|") t3)
  let t4 ← crunchSymbols GM.Vowels Script
  let t5 ← index t4 0
  let t6 ← index (pySplitWs t5) 0
  let a := t6
  let t7 ← crunchSymbols GM.Consonants Script
  let consa := (pyJoin (u! "|") (t7 ++ [a]))
  let EAIO ← branch (pyEq Script (u! "Thai"))
    (do
      let EAIO := (EAIO ++ (u! "|ใ"))
      let t8 ← crunchSymbols GM.Consonants Script
      let cons := (pyJoin (u! "|") (t8 ++ [(u! "ฮ"), (u! "บ"), (u! "ฝ"), (u! "ด"), (u! "ฦ"), (u! "ฤ")]))
      pure EAIO)
    (do
      pure EAIO)
  branch (pyEq Script (u! "Lao"))
    (do
      let t9 ← crunchSymbols GM.Consonants Script
      let cons := (pyJoin (u! "|") (t9 ++ [(u! "ດ"), (u! "ບ"), (u! "ຟ")]))
      pure ())
    (do
      pure ())
  let t10 ← crunchSymbols GM.Vowels Script
  let t11 ← index t10 0
  let a := t11
  branch (!reverse)
    (do
      reSub (((((u! "(") ++ consa) ++ (u! ")(")) ++ EAIO) ++ (u! ")")) (u! "\\2\\1")
      pure ())
    (do
      reSub ((((((u! "(") ++ EAIO) ++ (u! ")")) ++ (u! "(")) ++ consa) ++ (u! ")")) (u! "\\2\\1")
      pure ())
  pure ()

/-- ConvertFix.py:2023-2038 -/
def ConvertFix.ThaiReverseVowelSigns (reverse : Bool := false) : Gen Unit := do
  ConvertFix.ReverseVowelSigns (u! "Thai") reverse
  branch (!reverse)
    (do
      replace (u! "าํ") (u! "ำ")
      replace (u! "ิํ") (u! "ึ")
      pure ())
    (do
      replace (u! "ำ") (u! "าํ")
      replace (u! "ึ") (u! "ิํ")
      pure ())
  pure ()

/-- ConvertFix.py:1986-2009 -/
def ConvertFix.FixKhomThai (reverse : Bool := false) : Gen Unit := do
  branch (!reverse)
    (do
      replace (u! "โ") (u! "เา")
      ConvertFix.ThaiReverseVowelSigns reverse
      reSub (u! "(.ฺ)(.ฺ)(ใ)") (u! "\\3\\1\\2")
      reSub (u! "(.ฺ)(ใ)") (u! "\\2\\1")
      reSub (u! "((.ฺ)+)(เ)") (u! "\\3\\1")
      reSub (u! "(.ฺ)?(.)(ฺร)") (u! "\\3\\1\\2")
      replace (u! "เอา") (u! "โอ")
      replace (u! "เอำ") (u! "เาอํ")
      replace (u! "เาอํ") (u! "โอํ")
      pure ())
    (do
      reSub (u! "(ใ)(.ฺ)(.ฺ)") (u! "\\2\\3\\1")
      reSub (u! "(ใ)(.ฺ)") (u! "\\2\\1")
      reSub (u! "(ฺร)(.ฺ)?(.)") (u! "\\2\\3\\1")
      reSub (u! "(เ)((.ฺ)+)") (u! "\\2\\1")
      ConvertFix.ThaiReverseVowelSigns reverse
      replace (u! "เา") (u! "โ")
      pure ())
  pure ()

/-- ConvertFix.py:2171-2188 -/
def ConvertFix.ThaiDigraphConjuncts (reverse : Bool := false) : Gen Unit := do
  let EAIO := (pyJoin (u! "") (pySlice (modAttr (u! "Thai") .VowelSignMap) (some 9) (some 12)))
  let t1 ← crunchSymbols GM.Consonants (u! "Thai")
  let cons := (pyJoin (u! "|") t1)
  let t2 ← crunchSymbols GM.Consonants (u! "Thai")
  let t3 ← crunchSymbols GM.Consonants (u! "Thai")
  let yrlvh := (pyJoin (u! "|") ((pySlice t2 (some 25) (some 29)) ++ (pySlice t3 (some 32) (some 33))))
  let sh := (pyJoin (u! "|") (pySlice (modAttr (u! "Thai") .ConsonantMap) (some 31) (some 33)))
  let t4 ← index (modAttr (u! "Thai") .ViramaMap) 0
  let vir := t4
  branch (!reverse)
    (do
      reSub ((((((((((((u! "(?<=\\s)(") ++ cons) ++ (u! ")")) ++ (u! "(")) ++ vir) ++ (u! ")")) ++ (u! "([")) ++ EAIO) ++ (u! "])")) ++ (u! "(")) ++ cons) ++ (u! ")")) (u! "\\3\\1\\2\\4")
      reSub ((((((((((((u! "(") ++ cons) ++ (u! ")")) ++ (u! "(")) ++ vir) ++ (u! ")")) ++ (u! "([")) ++ EAIO) ++ (u! "])")) ++ (u! "(")) ++ yrlvh) ++ (u! ")")) (u! "\\3\\1\\2\\4")
      reSub ((((((((((((u! "(") ++ sh) ++ (u! ")")) ++ (u! "(")) ++ vir) ++ (u! ")")) ++ (u! "([")) ++ EAIO) ++ (u! "])")) ++ (u! "(")) ++ cons) ++ (u! ")")) (u! "\\3\\1\\2\\4")
      pure ())
    (do
      reSub (((((((((u! "([") ++ EAIO) ++ (u! "])")) ++ (u! "(")) ++ vir) ++ (u! ")")) ++ (u! "(")) ++ cons) ++ (u! ")")) (u! "\\2\\3\\1")
      pure ())
  pure ()

/-- PostProcess.py:2713-2733 -/
def PostProcess.AnusvaraToNasal (Target : PyStr) : Gen Unit := do
  let t1 ← crunchList .NuktaMap Target
  let t2 ← index t1 0
  let nukta := t2
  let t5 ← pmap [4, 9, 14, 19, 24] fun x => (do let t3 ← crunchSymbols GM.Consonants Target; let t4 ← index t3 x; pure t4)
  let ListN := t5
  let t6 ← crunchList .ConsonantMap Target
  let t7 ← crunchList .ConsonantMap Target
  let t8 ← crunchList .ConsonantMap Target
  let t9 ← crunchList .ConsonantMap Target
  let t10 ← crunchList .ConsonantMap Target
  let ListC := [(pyJoin (u! "|") (pySlice t6 (some 0) (some 4))), (pyJoin (u! "|") (pySlice t7 (some 5) (some 9))), (pyJoin (u! "|") (pySlice t8 (some 10) (some 14))), (pyJoin (u! "|") (pySlice t9 (some 15) (some 19))), (pyJoin (u! "|") (pySlice t10 (some 20) (some 24)))]
  let t11 ← crunchSymbols GM.VowelSigns Target
  let t12 ← index t11 0
  let vir := t12
  let t13 ← crunchSymbols GM.CombiningSigns Target
  let t14 ← index t13 1
  let Anu := t14
  forEach (List.range (ListN).length) fun i => do
    let t15 ← index ListC i
    let t16 ← index ListN i
    reSub (((((((((u! "(") ++ Anu) ++ (u! ")")) ++ GM.VedicSvaras) ++ (u! "(")) ++ t15) ++ (u! ")(?!")) ++ nukta) ++ (u! ")")) ((t16 ++ vir) ++ (u! "\\2\\3"))
    branch (pyEq Target (u! "Tamil"))
      (do
        let t17 ← index ListC i
        let t18 ← index ListN i
        reSub ((((((u! "(ம்)") ++ GM.VedicSvaras) ++ (u! "(ʼ)")) ++ (u! "(")) ++ t17) ++ (u! ")")) ((t18 ++ vir) ++ (u! "\\2\\4"))
        pure ())
      (do
        pure ())
  pure ()

/-- PostProcess.py:3121-3204 -/
def PostProcess.ThaiLaoTranscription (Script : PyStr) (shortA : PyStr) (shortAconj : PyStr) (reverse : Bool := false) (anusvaraChange : Bool := true) : Gen Unit := do
  replace (u! "ʽ") (u! "")
  let t1 ← crunchSymbols GM.Consonants Script
  let t2 ← crunchList .VowelMap Script
  let cons := (pyJoin (u! "|") (t1 ++ (pySlice t2 (some 0) (some 1))))
  let cons ← branch (pyEq Script (u! "Thai"))
    (do
      let t3 ← crunchSymbols GM.Consonants Script
      let t4 ← crunchList .VowelMap Script
      let cons := (pyJoin (u! "|") ((t3 ++ (pySlice t4 (some 0) (some 1))) ++ [(u! "ฮ"), (u! "บ"), (u! "ฝ"), (u! "ด")]))
      pure cons)
    (do
      pure cons)
  let cons ← branch (pyEq Script (u! "Lao"))
    (do
      let t5 ← crunchSymbols GM.Consonants Script
      let t6 ← crunchList .VowelMap Script
      let cons := (pyJoin (u! "|") ((t5 ++ (pySlice t6 (some 0) (some 1))) ++ [(u! "ດ"), (u! "ບ"), (u! "ຟ")]))
      pure cons)
    (do
      pure cons)
  let consnA := (pySlice cons none (some (-2)))
  let t7 ← crunchSymbols GM.VowelSignsNV Script
  let listVS := (pyJoin (u! "|") t7)
  let t8 ← crunchList .ViramaMap Script
  let t9 ← index t8 0
  let vir := t9
  let t10 ← crunchList .VowelSignMap Script
  let AIUVir := (pyJoin (u! "") ((pySlice t10 (some 0) (some 5)) ++ [vir]))
  let t11 ← crunchList .VowelSignMap Script
  let t12 ← crunchList .SinhalaVowelSignMap Script
  let EAIO := (pyJoin (u! "") ((pySlice t11 (some 9) (some 12)) ++ (pySlice t12 none none)))
  let t13 ← crunchList .AyogavahaMap Script
  let t14 ← index t13 1
  let Anu := t14
  let t15 ← crunchList .ConsonantMap Script
  let t16 ← index t15 4
  let ng := t16
  let t17 ← crunchList .VowelMap Script
  let t18 ← index t17 0
  let vowA := t18
  branch anusvaraChange
    (do
      PostProcess.AnusvaraToNasal Script
      pure ())
    (do
      pure ())
  branch (!reverse)
    (do
      branch (pyEq Script (u! "Thai"))
        (do
          reSub (((((((((u! "([") ++ EAIO) ++ (u! "])")) ++ (u! "(")) ++ cons) ++ (u! ")")) ++ (u! "(")) ++ vir) ++ (u! ")")) (u! "\\2\\3\\1")
          replace (u! "ำ") (u! "าํ")
          replace (u! "ึ") (u! "ิํ")
          pure ())
        (do
          pure ())
      branch (pyEq Script (u! "LaoPali"))
        (do
          replace (u! "ຳ") (u! "າໍ")
          pure ())
        (do
          pure ())
      branch anusvaraChange
        (do
          replace Anu (ng ++ vir)
          pure ())
        (do
          pure ())
      reSub (((((((((u! "(?<![") ++ EAIO) ++ (u! "])")) ++ (u! "(")) ++ cons) ++ (u! ")")) ++ (u! "(?![")) ++ AIUVir) ++ (u! "])")) ((u! "\\1") ++ shortA)
      reSub (((((((((u! "(") ++ shortA) ++ (u! ")")) ++ (u! "(?=(")) ++ cons) ++ (u! ")")) ++ (u! "(")) ++ vir) ++ (u! "))")) shortAconj
      replace ((shortAconj ++ (u! "ห")) ++ vir) ((shortA ++ (u! "ห")) ++ vir)
      reSub ((((((u! "(") ++ shortAconj) ++ (u! ")")) ++ (u! "(.)(")) ++ vir) ++ (u! ")([รล])")) (shortA ++ (u! "\\2\\3\\4"))
      let t19 ← crunchSymbols GM.Consonants (u! "Thai")
      let consswap := (pyJoin (u! "|") t19)
      reSub ((((((((((u! "(") ++ consswap) ++ (u! ")")) ++ (u! "(")) ++ vir) ++ (u! ")")) ++ (u! "([")) ++ EAIO) ++ (u! "])")) ++ (u! "([รล])")) (u! "\\3\\1\\2\\4")
      reSub (((shortAconj ++ (u! "([")) ++ EAIO) ++ (u! "])")) (shortA ++ (u! "\\1"))
      replace vir (u! "")
      replace (shortAconj ++ (u! "ร")) (u! "รร")
      pure ())
    (do
      let t20 ← crunchSymbols GM.Consonants Script
      let consOnly := (pyJoin (u! "|") t20)
      let t21 ← crunchList .VowelMap Script
      let t22 ← index t21 0
      let aVow := t22
      reSub ((((((((((u! "(") ++ consnA) ++ (u! ")")) ++ (u! "(?!")) ++ listVS) ++ (u! "|")) ++ shortA) ++ (u! "|")) ++ shortAconj) ++ (u! ")")) ((u! "\\1") ++ vir)
      branch (pyEq Script (u! "Lao"))
        (do
          reSub ((((((((((u! "(?<!ໂ)") ++ (u! "(?<!ແ)")) ++ (u! "(?<!ເ)")) ++ (u! "(")) ++ aVow) ++ (u! ")")) ++ (u! "(?<!ເ)")) ++ shortA) ++ (u! "|")) ++ shortAconj) (u! "\\1")
          reSub (((((((u! "(") ++ consOnly) ++ (u! ")")) ++ (u! "(?<!າ|ໂ|ແ|ເ)")) ++ shortA) ++ (u! "|")) ++ shortAconj) (u! "\\1")
          replace (u! "຺ຳ") (u! "ຳ")
          pure ())
        (do
          reSub ((((((((((u! "(?<!โ)") ++ (u! "(?<!แ)")) ++ (u! "(?<!เ)")) ++ (u! "(")) ++ aVow) ++ (u! ")")) ++ (u! "(?<!เ)")) ++ shortA) ++ (u! "|")) ++ shortAconj) (u! "\\1")
          reSub (((((((u! "(") ++ consOnly) ++ (u! ")")) ++ (u! "(?<!า|โ|แ|เ)")) ++ shortA) ++ (u! "|")) ++ shortAconj) (u! "\\1")
          reSub (vir ++ (u! "รฺรฺ")) (u! "รฺ")
          reSub (vir ++ (u! "หฺ")) (u! "หฺ")
          pure ())
      pure ())
  pure ()

/-- ConvertFix.py:2011-2021 -/
def ConvertFix.FixThai (reverse : Bool := false) : Gen Unit := do
  ConvertFix.ThaiReverseVowelSigns reverse
  ConvertFix.ThaiDigraphConjuncts reverse
  whenDyn (.has (u! "ʻʻ"))
    (do
      PostProcess.ThaiLaoTranscription (u! "Thai") (u! "ะ") (u! "ั") true
      replace (u! "ʻʻ") (u! "")
      replace (u! "หฺ์") (u! "ห์")
      pure ())
    (do
      pure ())
  pure ()

/-- ConvertFix.py:3386-3395 -/
def ConvertFix.LaoPaliTranscribe (reverse : Bool := false) (anusvaraChange : Bool := true) : Gen Unit := do
  let shortA := (u! "ະ")
  let conjA := (u! "ັ")
  branch (!reverse)
    (do
      PostProcess.ThaiLaoTranscription (u! "LaoPali") shortA conjA (anusvaraChange := anusvaraChange)
      pure ())
    (do
      PostProcess.ThaiLaoTranscription (u! "LaoPali") shortA conjA (reverse := true)
      pure ())
  pure ()

/-- ConvertFix.py:2040-2058 -/
def ConvertFix.FixLaoPali (reverse : Bool := false) : Gen Unit := do
  ConvertFix.ReverseVowelSigns (u! "LaoPali") reverse
  whenDyn (.has (u! "ʻʻ"))
    (do
      ConvertFix.LaoPaliTranscribe true
      replace (u! "ʻʻ") (u! "")
      replace (u! "ຫ຺໌") (u! "ຫ໌")
      pure ())
    (do
      pure ())
  branch (!reverse)
    (do
      replace (u! "າໍ") (u! "ຳ")
      pure ())
    (do
      replace (u! "ຳ") (u! "າໍ")
      pure ())
  pure ()

/-- ConvertFix.py:2060-2076 -/
def ConvertFix.FixMakasar (reverse : Bool := false) : Gen Unit := do
  let ListC := (pyJoin (u! "|") (modAttr (u! "Makasar") .ConsonantMap))
  let ListV := (pyJoin (u! "|") [(u! "𑻳"), (u! "𑻴"), (u! "𑻵"), (u! "𑻶")])
  let Anka := (u! "𑻲")
  branch (!reverse)
    (do
      PostProcess.InsertGeminationSign (u! "Makasar")
      replace (u! "ʾ") (u! "")
      replace (u! "ʽ") (u! "")
      reSub (((((((u! "(") ++ ListC) ++ (u! ")")) ++ (u! "(")) ++ ListV) ++ (u! ")?")) ++ (u! "\\1")) (((u! "\\1") ++ (u! "\\2")) ++ Anka)
      pure ())
    (do
      reSub (((((((u! "(") ++ ListC) ++ (u! ")")) ++ (u! "(")) ++ ListV) ++ (u! ")?")) ++ Anka) (((u! "\\1") ++ (u! "\\2")) ++ (u! "\\1"))
      pure ())
  pure ()

end Verif
