import Verif.Model.Crunch
import Verif.Model.Fns12

/-!
# Text functions of ConvertFix.py, PreProcess.py and PostProcess.py, part 13

Generated by tools/genfuncs.py, in dependency order, one definition per Python function and one
line per statement.
-/

set_option maxRecDepth 20000
set_option linter.unusedVariables false

namespace Verif

/-- PostProcess.py:2935-2936 -/
def PostProcess.romanNumerals : Gen Unit := do
  pure ()

/-- PostProcess.py:2938-2939 -/
def PostProcess.RetainTeluguDanda : Gen Unit := do
  PostProcess.RetainDandasIndic (u! "Telugu")
  pure ()

/-- PostProcess.py:2941-2942 -/
def PostProcess.RetainTeluguNumerals : Gen Unit := do
  PostProcess.RetainIndicNumerals (u! "Telugu")
  pure ()

/-- PostProcess.py:2944-2945 -/
def PostProcess.RetainTamilDanda : Gen Unit := do
  PostProcess.RetainDandasIndic (u! "Tamil")
  pure ()

/-- PostProcess.py:2947-2948 -/
def PostProcess.RetainTamilNumerals : Gen Unit := do
  PostProcess.RetainIndicNumerals (u! "Tamil")
  pure ()

/-- PostProcess.py:2950-2951 -/
def PostProcess.RetainKannadaDanda : Gen Unit := do
  PostProcess.RetainDandasIndic (u! "Kannada")
  pure ()

/-- PostProcess.py:2953-2954 -/
def PostProcess.RetainKannadaNumerals : Gen Unit := do
  PostProcess.RetainIndicNumerals (u! "Kannada")
  pure ()

/-- PostProcess.py:2956-2957 -/
def PostProcess.RetainMalayalamDanda : Gen Unit := do
  PostProcess.RetainDandasIndic (u! "Malayalam")
  pure ()

/-- PostProcess.py:2959-2960 -/
def PostProcess.RetainMalayalamNumerals : Gen Unit := do
  PostProcess.RetainIndicNumerals (u! "Malayalam")
  pure ()

/-- PostProcess.py:2962-2963 -/
def PostProcess.RetainGujaratiDanda : Gen Unit := do
  PostProcess.RetainDandasIndic (u! "Gujarati")
  pure ()

/-- PostProcess.py:2965-2966 -/
def PostProcess.RetainGurmukhiNumerals : Gen Unit := do
  PostProcess.RetainIndicNumerals (u! "Gurmukhi")
  pure ()

/-- PostProcess.py:2968-2975 -/
def PostProcess.SundaneseRemoveHistoric : Gen Unit := do
  replace (u! "᮪ᮻ") (u! "ᮢᮩ")
  replace (u! "᮪ᮼ") (u! "ᮣᮩ")
  replace (u! "ᮻ") (u! "ᮛᮩ")
  replace (u! "ᮼ") (u! "ᮜᮩ")
  replace (u! "ᮽ") (u! "ᮘ")
  pure ()

/-- PostProcess.py:2977-2984 -/
def PostProcess.OriyaVa : Gen Unit := do
  let t1 ← index (modAttr (u! "Oriya") .ConsonantMap) 28
  let va := t1
  let OriyaVa := (u! "ବ")
  reSub ((u! "(?<!୍)") ++ va) OriyaVa
  pure ()

/-- PostProcess.py:2986-2990 -/
def PostProcess.RemoveDiacritics : Gen Unit := do
  forEach GM.DiacriticsRemovable fun x => do
    replace x (u! "")
  pure ()

/-- PostProcess.py:2992-2996 -/
def PostProcess.RemoveDiacriticsTamil : Gen Unit := do
  forEach GM.DiacriticsRemovableTamil fun x => do
    replace x (u! "")
  pure ()

/-- PostProcess.py:2998-3006 -/
def PostProcess.TamilSubScript : Gen Unit := do
  let SuperScript := [(u! "¹"), (u! "²"), (u! "³"), (u! "⁴")]
  let SubScript := [(u! "₁"), (u! "₂"), (u! "₃"), (u! "₄")]
  forEach (pyZip SuperScript SubScript) fun (x, y) => do
    replace x y
  pure ()

/-- PostProcess.py:3008-3020 -/
def PostProcess.TamilAddFirstVarga : Gen Unit := do
  let t1 ← crunchList .ConsonantMap (u! "Tamil")
  let CM := t1
  let t3 ← pmap [0, 5, 10, 15, 20] fun x => (do let t2 ← index CM x; pure t2)
  let ConUnVoiced := (pyJoin (u! "|") t3)
  let SuperSubScript := (pyJoin (u! "|") [(u! "²"), (u! "³"), (u! "⁴"), (u! "₂"), (u! "₃"), (u! "₄")])
  reSub ((((((u! "(") ++ ConUnVoiced) ++ (u! ")")) ++ (u! "(?!")) ++ SuperSubScript) ++ (u! ")")) ((u! "\\1") ++ (u! "¹"))
  ConvertFix.ShiftDiacritics (u! "Tamil")
  reSub ((((u! "¹") ++ (u! "(?=")) ++ SuperSubScript) ++ (u! ")")) (u! "")
  pure ()

/-- PostProcess.py:3022-3030 -/
def PostProcess.SaurashtraHaru : Gen Unit := do
  let t2 ← pmap [19, 24, 26, 27] fun x => (do let t1 ← index (modAttr (u! "Saurashtra") .ConsonantMap) x; pure t1)
  let ListC := (pyJoin (u! "|") t2)
  let t3 ← index (modAttr (u! "Saurashtra") .ViramaMap) 0
  let vir := t3
  let t4 ← index (modAttr (u! "Saurashtra") .ConsonantMap) 32
  let ha := t4
  reSub (((((u! "(") ++ ListC) ++ (u! ")")) ++ vir) ++ ha) ((u! "\\1") ++ (u! "ꢴ"))
  pure ()

/-- PostProcess.py:3049-3052 -/
def PostProcess.IASTPali : Gen Unit := do
  replace (u! "l̤") (u! "ḷ")
  pure ()

/-- PostProcess.py:3054-3057 -/
def PostProcess.CyrillicPali : Gen Unit := do
  replace (u! "л̤") (u! "л̣")
  pure ()

/-- PostProcess.py:3059-3078 -/
def PostProcess.SinhalaConjuncts : Gen Unit := do
  let t1 ← index (modAttr (u! "Sinhala") .SouthConsonantMap) 0
  let ListC := ((modAttr (u! "Sinhala") .ConsonantMap) ++ [t1])
  let t2 ← index (modAttr (u! "Sinhala") .ViramaMap) 0
  let vir := t2
  let ZWJ := (u! "\u200d")
  let conjoining := [(0, 28), (2, 18), (9, 5), (10, 11), (15, 16), (15, 28), (17, 18), (17, 28), (19, 16), (19, 17), (19, 18), (19, 28)]
  forEach conjoining fun (x, y) => do
    let t3 ← index ListC x
    let t4 ← index ListC y
    let t5 ← index ListC x
    let t6 ← index ListC y
    replace ((t3 ++ vir) ++ t4) (((t5 ++ vir) ++ ZWJ) ++ t6)
  forEach ListC fun x => do
    let t7 ← index ListC 26
    let t8 ← index ListC 26
    replace ((t7 ++ vir) ++ x) (((t8 ++ vir) ++ ZWJ) ++ x)
  forEach ListC fun x => do
    forEach ListC fun y => do
      replace ((x ++ vir) ++ y) (((x ++ ZWJ) ++ vir) ++ y)
  replace (u! "ර\u200d්\u200dය") (u! "ර්\u200dය")
  pure ()

/-- PostProcess.py:3092-3095 -/
def PostProcess.UrduAlternateUU : Gen Unit := do
  replace (u! "\\u064F\\u0648") (u! "وٗ")
  pure ()

/-- PostProcess.py:3097-3100 -/
def PostProcess.TibetanNada : Gen Unit := do
  replace (u! "ྃ") (u! "ྂ")
  pure ()

/-- PostProcess.py:3102-3105 -/
def PostProcess.TibetanTsheg : Gen Unit := do
  replace (u! "་") (u! " ")
  pure ()

/-- PostProcess.py:3107-3110 -/
def PostProcess.TibetanRemoveVirama : Gen Unit := do
  let t1 ← index (modAttr (u! "Tibetan") .ViramaMap) 0
  replace t1 (u! "")
  pure ()

/-- PostProcess.py:3112-3119 -/
def PostProcess.TibetanRemoveBa : Gen Unit := do
  PostProcess.VaToBa (u! "Tibetan")
  replace (u! "ཪྺ") (u! "རྦ")
  replace (u! "བྺ") (u! "བྦ")
  replace (u! "ྦྺ") (u! "ྦྦ")
  pure ()

/-- PostProcess.py:3206-3211 -/
def PostProcess.LaoTranscription : Gen Unit := do
  ConvertFix.LaoPaliTranscribe
  replace (u! "ະ໌") (u! "໌")
  pure ()

/-- PostProcess.py:3213-3216 -/
def PostProcess.ThaiVisargaSaraA : Gen Unit := do
  replace (u! "ห์") (u! "ะ")
  pure ()

/-- PostProcess.py:3218-3221 -/
def PostProcess.ThamTallADisable : Gen Unit := do
  replace (u! "ᩤ") (u! "ᩣ")
  pure ()

/-- PostProcess.py:3223-3228 -/
def PostProcess.ThamTallAOthers : Gen Unit := do
  let TallACons := (pyJoin (u! "|") [(u! "ᨧ"), (u! "ᨻ"), (u! "ᩁ"), (u! "ᨽ")])
  PostProcess.FixTallA TallACons
  pure ()

/-- PostProcess.py:3231-3250 -/
def PostProcess.LaoPhonetic : Gen Unit := do
  reSub (u! "(຺)([ໂເໄ]?)([ຍຣລວຫ])") ((u! "͜") ++ (u! "\\2\\3"))
  reSub ((((u! "([ຍຣລວຫ])") ++ (u! "͜")) ++ (u! "([ໂເໄ]?)")) ++ (u! "\\1")) (((u! "\\1") ++ (u! "຺")) ++ (u! "\\2\\1"))
  replace (u! "ຫ຺") (u! "ຫ͜")
  reSub (((u! "([ຍຣລວຫ])") ++ (u! "͜")) ++ (u! "\\1")) (((u! "\\1") ++ (u! "຺")) ++ (u! "\\1"))
  PostProcess.LaoTranscription
  replace (u! "ະ͜") (u! "͜")
  replace (u! "ງ") (u! "ງໍ")
  replace (u! "ທ") (u! "ດ")
  replace (u! "ພ") (u! "ບ")
  pure ()

/-- PostProcess.py:3253-3275 -/
def PostProcess.RephaDoubleMalayalam : Gen Unit := do
  let repha := (u! "[ർൎ]")
  let Target := (u! "Malayalam")
  let t1 ← crunchSymbols GM.VowelSigns Target
  let t2 ← index t1 0
  let vir := t2
  let t5 ← pmap [0, 2, 5, 7, 10, 12, 15, 17, 20, 22, 4, 9, 14, 19, 24, 25, 28, 29, 31] fun x => (do let t3 ← crunchList .ConsonantMap Target; let t4 ← index t3 x; pure t4)
  let ConUnAsp := t5
  let ConUnAsp := (ConUnAsp ++ [(u! "ള")])
  let t8 ← pmap [1, 3, 6, 8, 11, 13, 16, 18, 21] fun x => (do let t6 ← crunchList .ConsonantMap Target; let t7 ← index t6 x; pure t7)
  let ConAsp := t8
  reSub (((((((((u! "(") ++ repha) ++ (u! ")")) ++ (u! "(")) ++ (pyJoin (u! "|") ConUnAsp)) ++ (u! ")")) ++ (u! "(?!")) ++ vir) ++ (u! ")")) (((u! "\\1\\2") ++ vir) ++ (u! "\\2"))
  forEach (List.range (ConAsp).length) fun i => do
    let t9 ← index ConAsp i
    let t10 ← index ConUnAsp i
    reSub (((((((((u! "(") ++ repha) ++ (u! ")")) ++ (u! "(")) ++ t9) ++ (u! ")")) ++ (u! "(?!")) ++ vir) ++ (u! ")")) ((((u! "\\1") ++ t10) ++ vir) ++ (u! "\\2"))
  pure ()

/-- PostProcess.py:3277-3280 -/
def PostProcess.DograShaKha : Gen Unit := do
  replace (u! "𑠨") (u! "𑠋")
  pure ()

/-- PostProcess.py:3282-3293 -/
def PostProcess.ThamShiftMaiKangLai : Gen Unit := do
  reSub (u! "(ᩘ)(.)") (u! "\\2\\1")
  let t1 ← crunchSymbols GM.VowelSigns (u! "TaiTham")
  let ListV := (((u! "(") ++ (pyJoin (u! "|") (t1 ++ [(u! "ᩤ")]))) ++ (u! ")"))
  reSub (u! "(ᩘ)([ᩕᩖ])") (u! "\\2\\1")
  reSub (u! "(ᩘ)(᩠.)") (u! "\\2\\1")
  reSub ((u! "(ᩘ)") ++ ListV) (u! "\\2\\1")
  reSub ((u! "(ᩘ)") ++ ListV) (u! "\\2\\1")
  pure ()

/-- PostProcess.py:3407-3452 -/
def PostProcess.AvestanConventions : Gen Unit := do
  let extraCons := [(u! "𐬳"), (u! "𐬲"), (u! "𐬝"), (u! "𐬒"), (u! "𐬣"), (u! "𐬝")]
  let t1 ← crunchSymbols GM.Consonants (u! "Avestan")
  let ListC := (pyJoin (u! "|") (t1 ++ extraCons))
  let t2 ← crunchSymbols GM.Vowels (u! "Avestan")
  let ListV := (pyJoin (u! "|") t2)
  let t3 ← crunchSymbols (GM.Vowels ++ GM.Consonants) (u! "Avestan")
  let ListA := (pyJoin (u! "|") ((t3 ++ extraCons) ++ [(u! "𐬄"), (u! "𐬅")]))
  let t4 ← index (modAttr (u! "Avestan") .VowelMap) 2
  let ii := (pyMul t4 2)
  let t5 ← index (modAttr (u! "Avestan") .VowelMap) 4
  let uu := (pyMul t5 2)
  let t6 ← index (modAttr (u! "Avestan") .VowelMap) 2
  let i := t6
  let t7 ← index (modAttr (u! "Avestan") .VowelMap) 0
  let a := t7
  let t8 ← index (modAttr (u! "Avestan") .ConsonantMap) 1
  let kha := t8
  let t9 ← index (modAttr (u! "Avestan") .ConsonantMap) 4
  let nga := t9
  let t10 ← index (modAttr (u! "Avestan") .ConsonantMap) 25
  let ya := t10
  let t11 ← index (modAttr (u! "Avestan") .ConsonantMap) 28
  let va := t11
  let t12 ← index (modAttr (u! "Avestan") .ConsonantMap) 15
  let ta := t12
  let t13 ← index (modAttr (u! "Avestan") .ConsonantMap) 16
  let tha := t13
  let t14 ← index (modAttr (u! "Avestan") .ConsonantMap) 18
  let dha := t14
  let t15 ← index (modAttr (u! "Avestan") .ConsonantMap) 19
  let na := t15
  let t16 ← index (modAttr (u! "Avestan") .ConsonantMap) 24
  let ma := t16
  let t17 ← index (modAttr (u! "Avestan") .ConsonantMap) 0
  let t18 ← index (modAttr (u! "Avestan") .ConsonantMap) 22
  let kb := (pyJoin (u! "|") [t17, t18])
  let t19 ← index (modAttr (u! "Avestan") .ConsonantMap) 14
  let nna := t19
  let t20 ← index (modAttr (u! "Avestan") .ConsonantMap) 29
  let sha := t20
  let VelarDental := (pyJoin (u! "|") ((pySlice (modAttr (u! "Avestan") .ConsonantMap) (some 0) (some 4)) ++ (pySlice (modAttr (u! "Avestan") .ConsonantMap) (some 15) (some 19))))
  replace (nga ++ i) ((u! "𐬣") ++ i)
  reSub (((((((a ++ (u! "([")) ++ na) ++ ma) ++ (u! "])")) ++ (u! "(?!")) ++ ListA) ++ (u! ")")) ((u! "𐬆") ++ (u! "\\1"))
  reSub ((((((u! "(") ++ na) ++ (u! ")")) ++ (u! "(")) ++ VelarDental) ++ (u! ")")) (nna ++ (u! "\\2"))
  reSub ((((((u! "(") ++ kha) ++ (u! ")")) ++ (u! "(?=")) ++ ii) ++ (u! ")")) (u! "𐬒")
  reSub ((((((u! "(") ++ sha) ++ (u! ")")) ++ (u! "(?=")) ++ ii) ++ (u! ")")) (u! "𐬳")
  reSub ((((((((u! "(") ++ tha) ++ (u! "|")) ++ dha) ++ (u! ")")) ++ (u! "(")) ++ uu) ++ (u! ")")) (u! "\\1𐬡")
  reSub ((((((((((((u! "(") ++ ta) ++ (u! ")")) ++ (u! "(?!")) ++ (u! "((")) ++ ListV) ++ (u! ")")) ++ (u! "|")) ++ (u! "(")) ++ ListC) ++ (u! "))")) ++ (u! ")")) (u! "𐬝")
  reSub ((((((((u! "(") ++ ta) ++ (u! ")")) ++ (u! "(?=")) ++ (u! "(")) ++ kb) ++ (u! ")")) ++ (u! ")")) (u! "𐬝")
  pure ()

/-- PostProcess.py:3455-3458 -/
def PostProcess.TaiThamO : Gen Unit := do
  replace (u! "ᩮᩣ") (u! "ᩰ")
  pure ()

/-- PostProcess.py:3461-3464 -/
def PostProcess.TaiThamHighNga : Gen Unit := do
  replace (u! "ᩘ") (u! "ᩙ")
  pure ()

/-- PostProcess.py:3467-3470: the computed text is dropped and the constant "Vinodh" returned. -/
def PostProcess.TaiThamMoveNnga : Gen Unit := do
  reSub (u! "(.)(ᩘ)") (u! "\\2\\1")
  setTo (u! "Vinodh")

/-- PostProcess.py:3472-3478 -/
def PostProcess.UrduRemoveShortVowels : Gen Unit := do
  let ShortVowels := [(u! "ْ"), (u! "َ"), (u! "ِ"), (u! "ُ"), (u! "٘")]
  forEach ShortVowels fun vow => do
    replace vow (u! "")
  pure ()

/-- PostProcess.py:3480-3483 -/
def PostProcess.LatinPipes : Gen Unit := do
  pure ()

end Verif
