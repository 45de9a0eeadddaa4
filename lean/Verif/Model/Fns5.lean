import Verif.Model.Crunch
import Verif.Model.Fns4

/-!
# Text functions of ConvertFix.py, PreProcess.py and PostProcess.py, part 5

Generated by tools/genfuncs.py, in dependency order, one definition per Python function and one
line per statement.
-/

set_option maxRecDepth 20000
set_option linter.unusedVariables false

namespace Verif

/-- PreProcess.py:662-665 -/
def PreProcess.PhliWawAyinResh : Gen Unit := do
  replace (u! "𐭥") (u! "[--]")
  pure ()

/-- PreProcess.py:667-670 -/
def PreProcess.HatrDalethResh : Gen Unit := do
  replace (u! "𐣣") (u! "[-]")
  pure ()

/-- PreProcess.py:672-679 -/
def PreProcess.MalayalamHalfu : Gen Unit := do
  let consu := (u! "[കചടതറനണരലവഴളറ]")
  let t1 ← crunchSymbols GM.VowelSigns (u! "Malayalam")
  let t2 ← index t1 0
  let vir := t2
  let t3 ← crunchSymbols GM.Consonants (u! "Malayalam")
  let consAll := (((u! "(") ++ (pyJoin (u! "|") t3)) ++ (u! ")"))
  reSub (((((((((u! "(?<=") ++ consu) ++ (u! ")")) ++ (u! "(")) ++ vir) ++ (u! ")")) ++ (u! "(?!")) ++ consAll) ++ (u! ")")) ((u! "\\2") ++ (u! "ു്"))
  pure ()

/-- PreProcess.py:681-732 -/
def PreProcess.MalayalamTranscribe : Gen Unit := do
  PreProcess.MalayalamHalfu
  let script := (u! "Malayalam")
  let t1 ← crunchList .ConsonantMap script
  let ListC := t1
  let t2 ← crunchList .SouthConsonantMap script
  let ListSC := t2
  let t3 ← crunchSymbols GM.VowelSigns script
  let t4 ← index t3 0
  let vir := t4
  let t6 ← pmap [0, 5, 10, 15, 20] fun x => (do let t5 ← index ListC x; pure t5)
  let ConUnVoiced := t6
  let t8 ← pmap [2, 7, 12, 17, 22] fun x => (do let t7 ← index ListC x; pure t7)
  let ConVoicedJ := t8
  let t10 ← pmap [2, 5, 12, 17, 22] fun x => (do let t9 ← index ListC x; pure t9)
  let ConVoicedS := t10
  let t12 ← pmap [4, 9, 14, 19, 24] fun x => (do let t11 ← index ListC x; pure t11)
  let ConNasalsAll := (pyJoin (u! "|") t12)
  let t14 ← pmap [9] fun x => (do let t13 ← index ListC x; pure t13)
  let conNasalCa := (pyJoin (u! "|") t14)
  let ConNasalsGroup := [ConNasalsAll, conNasalCa, ConNasalsAll, ConNasalsAll, ConNasalsAll]
  let ConMedials := (pyJoin (u! "|") (((pySlice ListC (some 25) (some 28)) ++ (pySlice ListSC (some 0) (some 2))) ++ (pySlice ListSC (some 3) (some 4))))
  let t15 ← crunchSymbols (GM.Vowels ++ GM.VowelSignsNV) script
  let Vowels := (pyJoin (u! "|") t15)
  let t16 ← crunchList .Aytham script
  let t17 ← index t16 0
  let Aytham := t17
  let t18 ← crunchSymbols GM.Consonants script
  let Consonants := (pyJoin (u! "|") t18)
  let t19 ← index ListSC 3
  let t20 ← index ListSC 2
  let NRA := ((t19 ++ vir) ++ t20)
  let t21 ← index ListC 14
  let t22 ← index ListC 12
  let t23 ← index ListC 26
  let NDRA := ((((t21 ++ vir) ++ t22) ++ vir) ++ t23)
  forEach (List.range (ConUnVoiced).length) fun i => do
    let t24 ← index ConUnVoiced i
    let t25 ← index ConVoicedS i
    reSub (((((((((((u! "(") ++ Vowels) ++ (u! "|")) ++ Consonants) ++ (u! "|")) ++ Aytham) ++ (u! ")")) ++ t24) ++ (u! "(?!")) ++ vir) ++ (u! ")")) ((u! "\\1") ++ t25)
    let t26 ← index ConVoicedS i
    let t27 ← index ConUnVoiced i
    let t28 ← index ConVoicedS i
    reSub (((((((u! "(") ++ t26) ++ (u! ")")) ++ t27) ++ (u! "(?!")) ++ vir) ++ (u! ")")) ((u! "\\1") ++ t28)
    let t29 ← index ConNasalsGroup i
    let t30 ← index ConUnVoiced i
    let t31 ← index ConVoicedJ i
    reSub (((((((u! "(") ++ t29) ++ (u! ")")) ++ (u! "(")) ++ vir) ++ (u! ")")) ++ t30) ((u! "\\1\\2") ++ t31)
    let t32 ← index ConUnVoiced i
    let t33 ← index ConVoicedS i
    reSub ((((((((((u! "(") ++ ConMedials) ++ (u! ")")) ++ (u! "(")) ++ vir) ++ (u! ")")) ++ t32) ++ (u! "(?!")) ++ vir) ++ (u! ")")) ((u! "\\1\\2") ++ t33)
  replace (u! "റ്റ") (u! "ട്ട")
  replace (u! "ന്റ") (u! "ണ്ഡ")
  replace (u! "ം") (u! "മ്")
  pure ()

/-- PreProcess.py:735-738: `latn_all`.  The lower-case and upper-case lists are concatenated without
a separating space, so the last lower-case and the first upper-case letter are glued (`ōA`). -/
def PreProcess.latn_all : List PyStr :=
  pySplit (u! "a b c d e f g h i j k l m n o p q r s t u v w x y z ḥ ṭ ṣ ʾ ʿ š ā ī ū ē ōA B C D E F G H I J K L M N O P Q R S T U V W X Y Z Ḥ Ṭ Ṣ ʾ ʿ Š Ā Ī Ū Ē Ō") (u! " ")

/-- PreProcess.py:734-751 -/
def PreProcess.retainLatin (reverse : Bool := false) : Gen Unit := do
  branch (!reverse)
    (do
      forEach (pyEnumerate PreProcess.latn_all) fun (i, c) => replace c [60929 + i]
      replace (u! "\uEA01") (u! "r")
      replace (u! "\uEA02") (u! "ʿ")
      replace (u! "\uEA03") (u! "m")
      replace (u! "\uEA04") (u! "q")
      replace (u! "\uEA05") (u! "w")
      replace (u! "\uEA06") (u! "d"))
    (forEach (pyEnumerate PreProcess.latn_all) fun (i, c) => replace [60929 + i] c)

/-- PreProcess.py:754-801 (third-party `pykakasi`: not modelled) -/
def PreProcess.JapanesePreProcess (src : PyStr) (preoptions : List PyStr) : Gen Unit :=
  host (.japanesePre src preoptions)

/-- PreProcess.py:800-804 -/
def PreProcess.holamlong : Gen Unit := do
  replace (u! "ֹּ") (u! "ֹּ")
  reSub (u! "(?<!ו)ֹ") (u! "וֹ")
  pure ()

/-- PreProcess.py:818-822 -/
def PreProcess.novowelshebrewSemitic : Gen Unit := do
  replace (u! "כ") (u! "כּ")
  replace (u! "פ") (u! "פּ")
  replace (u! "ב") (u! "בּ")
  replace (u! "ך") (u! "ךּ")
  replace (u! "ף") (u! "ףּ")
  pure ()

/-- PreProcess.py:806-816 -/
def PreProcess.novowelshebrewIndic : Gen Unit := do
  PreProcess.novowelshebrewSemitic
  let finals := [(u! "ך"), (u! "ם"), (u! "ן"), (u! "ף"), (u! "ץ"), (u! "ףּ"), (u! "ךּ")]
  let otherCons := (pySplit (u! "ב,ח,ע,צ,ש,ת") (u! ","))
  let t1 ← crunchSymbols GM.Consonants (u! "Hebrew")
  let consonantsAll := (((u! "(") ++ (pyJoin (u! "|") (((t1 ++ finals) ++ otherCons) ++ [(u! "׳"), (u! "י"), (u! "ו"), (u! "א")]))) ++ (u! ")"))
  let t2 ← crunchSymbols GM.VowelSigns (u! "Hebrew")
  let vowelsignsADShinG := (((u! "(") ++ (pyJoin (u! "|") (t2 ++ [(u! "ַ"), (u! "ּ"), (u! "ׁ"), (u! "׳")]))) ++ (u! ")"))
  reSub (((consonantsAll ++ (u! "(?!")) ++ vowelsignsADShinG) ++ (u! ")")) (((u! "\\1") ++ (u! "ַ")) ++ (u! "\\2"))
  pure ()

/-- PreProcess.py:824-827 -/
def PreProcess.shvanakhall : Gen Unit := do
  append (u! " ௞")
  pure ()

/-- PreProcess.py:829-832 -/
def PreProcess.longEOISO : Gen Unit := do
  replace (u! "e") (u! "ē")
  replace (u! "o") (u! "ō")
  pure ()

/-- PreProcess.py:834-836 -/
def PreProcess.SanskritLexicaizeHK : Gen Unit := do
  pure ()

/-- PreProcess.py:838-851 -/
def PreProcess.ThaiPhonetic : Gen Unit := do
  replace (u! "ด") (u! "ท")
  replace (u! "บ") (u! "พ")
  replace (u! "ก̥") (u! "ค")
  replace (u! "จ̥") (u! "ช")
  replace (u! "งํ") (u! "ง")
  replace (u! "͜") (u! "")
  replace (u! "็") (u! "")
  append (u! "ʻʻ")
  pure ()

/-- PreProcess.py:853-862 -/
def PreProcess.LaoPhonetic : Gen Unit := do
  replace (u! "ດ") (u! "ທ")
  replace (u! "ບ") (u! "ພ")
  replace (u! "ງໍ") (u! "ງ")
  replace (u! "͜") (u! "")
  append (u! "ʻʻ")
  pure ()

/-- PreProcess.py:864-875 -/
def PreProcess.SaurastraHaaruColonTamil : Gen Unit := do
  replace (u! "ன") (u! "ந")
  let t1 ← crunchSymbols GM.VowelSigns (u! "Tamil")
  let ListVS := (pyJoin (u! "|") t1)
  reSub ((((u! "(") ++ ListVS) ++ (u! ")")) ++ (u! "(:)")) (u! "\\2\\1")
  let chars := (u! "([நமரல])")
  reSub (chars ++ (u! ":")) ((u! "\\1") ++ (u! "ꢴ"))
  pure ()

/-- PreProcess.py:877-893 -/
def PreProcess.ChakmaPali : Gen Unit := do
  replace (u! "𑅇") (u! "𑄤")
  replace (u! "𑄠") (u! "𑄡")
  let t1 ← crunchSymbols GM.Consonants (u! "Chakma")
  let listC := (((u! "(") ++ (pyJoin (u! "|") (sortByLenDesc (t1 ++ (pySlice (modAttr (u! "Chakma") .VowelMap) none (some 1)))))) ++ (u! ")"))
  let t2 ← crunchSymbols GM.VowelSigns (u! "Chakma")
  let listV := (((u! "(") ++ (pyJoin (u! "|") (sortByLenDesc ((t2 ++ (modAttr (u! "Chakma") .ViramaMap)) ++ [(u! "𑄳")])))) ++ (u! ")"))
  replace (u! "ʽ") (u! "")
  replace (u! "𑄂") (u! "𑄧")
  reSub ((((((u! "(") ++ listC) ++ (u! ")")) ++ (u! "(?!")) ++ listV) ++ (u! ")")) (u! "\\1ʾ")
  replace (u! "𑄧") (u! "")
  replace (u! "ʾ") (u! "𑄧")
  pure ()

/-- PreProcess.py:895-897 -/
def PreProcess.TakriArchaicKha : Gen Unit := do
  replace (u! "𑚋") (u! "𑚸")
  pure ()

/-- PreProcess.py:899-902 -/
def PreProcess.UrduShortNotShown : Gen Unit := do
  append (u! "ʻʻ")
  pure ()

/-- PreProcess.py:908-914 -/
def PreProcess.AnuChandraEq (script : PyStr) : Gen Unit := do
  let t1 ← crunchList .AyogavahaMap script
  let t2 ← index t1 0
  let Chandrabindu := t2
  let t3 ← crunchList .AyogavahaMap script
  let t4 ← index t3 1
  let Anusvara := t4
  replace Chandrabindu Anusvara
  pure ()

/-- PreProcess.py:904-906 -/
def PreProcess.AnuChandraEqDeva : Gen Unit := do
  PreProcess.AnuChandraEq (u! "Devanagari")
  pure ()

/-- PreProcess.py:916-934 -/
def PreProcess.TamilNumeralSub : Gen Unit := do
  let ListC := (((u! "(") ++ (u! "[கசடதபஜஸ]")) ++ (u! ")"))
  let t1 ← crunchSymbols GM.VowelSigns (u! "Tamil")
  let ListV := (((u! "(") ++ (pyJoin (u! "|") t1)) ++ (u! ")"))
  reSub ((ListC ++ ListV) ++ (u! "2")) ((u! "\\1\\2") ++ (u! "²"))
  reSub ((ListC ++ ListV) ++ (u! "3")) ((u! "\\1\\2") ++ (u! "³"))
  reSub ((ListC ++ ListV) ++ (u! "4")) ((u! "\\1\\2") ++ (u! "⁴"))
  reSub (ListC ++ (u! "2")) ((u! "\\1") ++ (u! "²"))
  reSub (ListC ++ (u! "3")) ((u! "\\1") ++ (u! "³"))
  reSub (ListC ++ (u! "4")) ((u! "\\1") ++ (u! "⁴"))
  replace (u! "ரு'") (u! "ருʼ")
  replace (u! "ரு’") (u! "ருʼ")
  replace (u! "ம்'") (u! "ம்ʼ")
  replace (u! "ம்’") (u! "ம்ʼ")
  pure ()

/-- PreProcess.py:936-945 -/
def PreProcess.swapEe : Gen Unit := do
  replace (u! "E") (u! "X@X@")
  replace (u! "e") (u! "E")
  replace (u! "X@X@") (u! "e")
  replace (u! "O") (u! "X@X@")
  replace (u! "o") (u! "O")
  replace (u! "X@X@") (u! "o")
  pure ()

/-- PreProcess.py:947-956 -/
def PreProcess.swapEeItrans : Gen Unit := do
  replace (u! "^e") (u! "X@X@")
  replace (u! "e") (u! "^e")
  replace (u! "X@X@") (u! "e")
  replace (u! "^o") (u! "X@X@")
  replace (u! "o") (u! "^o")
  replace (u! "X@X@") (u! "o")
  pure ()

/-- PreProcess.py:958-959 -/
def PreProcess.egrantamil : Gen Unit := do
  pure ()

/-- PreProcess.py:961-962 -/
def PreProcess.siddhammukta : Gen Unit := do
  pure ()

/-- PreProcess.py:964-965 -/
def PreProcess.TaiKuen : Gen Unit := do
  pure ()

/-- PreProcess.py:967-968 -/
def PreProcess.TaiThamLao : Gen Unit := do
  pure ()

/-- PreProcess.py:970-983 -/
def PreProcess.ThaiSajjhayaOrthography : Gen Unit := do
  let Script := (u! "Thai")
  replace (u! "ัง") (u! "ังฺ")
  replace (u! "์") (u! "ฺ")
  replace (u! "๎") (u! "ฺ")
  replace (u! "ั") (u! "")
  pure ()

/-- PreProcess.py:985-989 -/
def PreProcess.ThaiSajjhayawithA : Gen Unit := do
  replace (u! "ะ") (u! "")
  PreProcess.ThaiSajjhayaOrthography
  pure ()

/-- PreProcess.py:991-1000 -/
def PreProcess.LaoSajhayaOrthography : Gen Unit := do
  replace (u! "ັງ") (u! "ັງ຺")
  reSub (u! "([ເໂໄ])(.๎)([ຍຣລວຨຩສຫຬ])") (u! "\\2\\1\\3")
  replace (u! "໌") (u! "຺")
  replace (u! "๎") (u! "຺")
  replace (u! "ັ") (u! "")
  pure ()

/-- PreProcess.py:1002-1006 -/
def PreProcess.LaoSajhayaOrthographywithA : Gen Unit := do
  replace (u! "ະ") (u! "")
  PreProcess.LaoSajhayaOrthography
  pure ()

/-- PreProcess.py:1009-1059 -/
def PreProcess.RemoveSchwaHindi (showschwa : Bool := false) : Gen Unit := do
  let t1 ← crunchSymbols GM.Vowels (u! "Devanagari")
  let VowI := (((u! "(") ++ (pyJoin (u! "|") t1)) ++ (u! ")"))
  let t2 ← crunchSymbols GM.VowelSignsNV (u! "Devanagari")
  let VowS := (((u! "(") ++ (pyJoin (u! "|") t2)) ++ (u! ")"))
  let t3 ← crunchSymbols GM.Consonants (u! "Devanagari")
  let Cons := (((u! "(") ++ (pyJoin (u! "|") t3)) ++ (u! ")"))
  let t4 ← crunchSymbols GM.Characters (u! "Devanagari")
  let Char := (((u! "(") ++ (pyJoin (u! "|") t4)) ++ (u! ")"))
  let Nas := (u! "([ंःँ]?)")
  let ISyl := ((((((((((u! "((") ++ VowI) ++ (u! "|")) ++ (u! "(")) ++ Cons) ++ VowS) ++ (u! "?")) ++ (u! "))")) ++ Nas) ++ (u! ")"))
  let Syl := ((((((u! "((") ++ Cons) ++ VowS) ++ (u! ")")) ++ Nas) ++ (u! ")"))
  let SylAny := (((((((u! "((") ++ Cons) ++ VowS) ++ (u! "?")) ++ (u! ")")) ++ Nas) ++ (u! ")"))
  let (vir, vir2) ← branch (!showschwa)
    (do
      let vir := (u! "्")
      let vir2 := (u! "्")
      pure (vir, vir2))
    (do
      let vir := (u! "॔")
      let vir2 := (u! "॔")
      pure (vir, vir2))
  reSub ((((((ISyl ++ Cons) ++ Cons) ++ SylAny) ++ (u! "(?!")) ++ Char) ++ (u! ")")) (((u! "\\1\\8") ++ vir) ++ (u! "\\9\\10"))
  reSub ((((((ISyl ++ Cons) ++ Syl) ++ SylAny) ++ (u! "(?!")) ++ Char) ++ (u! ")")) (((u! "\\1\\8") ++ vir) ++ (u! "\\9\\15"))
  reSub (((((ISyl ++ Cons) ++ Syl) ++ (u! "(?!")) ++ Char) ++ (u! ")")) (((u! "\\1\\8") ++ vir) ++ (u! "\\9"))
  reSub ((((ISyl ++ Cons) ++ (u! "(?!")) ++ Char) ++ (u! ")")) ((u! "\\1\\8") ++ vir)
  let Cons_sss := (((((u! "((") ++ Cons) ++ vir) ++ (u! ")")) ++ (u! "([शषस]))"))
  reSub ((((ISyl ++ Cons_sss) ++ (u! "(?!")) ++ Char) ++ (u! ")")) ((u! "\\1\\8") ++ vir)
  let Target := (u! "Devanagari")
  let t7 ← pmap [0, 2, 5, 7, 10, 12, 15, 17, 20, 22, 4, 9, 14, 19, 24, 25, 26, 27, 28, 29, 30, 31, 32] fun x => (do let t5 ← crunchList .ConsonantMap Target; let t6 ← index t5 x; pure t6)
  let ConUnAsp := t7
  let t8 ← crunchList .SouthConsonantMap Target
  let t9 ← crunchList .NuktaConsonantMap Target
  let ConUnAsp := ((ConUnAsp ++ t8) ++ t9)
  let t12 ← pmap [1, 3, 6, 8, 11, 13, 16, 18, 21, 23] fun x => (do let t10 ← crunchList .ConsonantMap Target; let t11 ← index t10 x; pure t11)
  let ConAsp := t12
  reSub ((((((((((ISyl ++ (u! "(")) ++ (pyJoin (u! "|") ConUnAsp)) ++ (u! ")")) ++ (u! "(")) ++ vir) ++ (u! ")(")) ++ (u! "\\8")) ++ (u! ")(?!")) ++ Char) ++ (u! ")")) ((u! "\\1\\8\\9\\10") ++ vir)
  forEach (List.range (ConAsp).length) fun i => do
    let t13 ← index ConUnAsp i
    let t14 ← index ConAsp i
    reSub ((((((((((ISyl ++ (u! "(")) ++ t13) ++ (u! ")")) ++ (u! "(")) ++ vir) ++ (u! ")")) ++ (u! "(")) ++ t14) ++ (u! ")")) ++ (u! "(?!\" + Char + \")")) ((u! "\\1\\8\\9\\10") ++ vir)
  let cons_pyramid := [(u! "[यरलव]"), (u! "[नमण]"), (u! "[शषस]"), (u! "[कखपफगघबभ]"), (u! "[टठतथडढदध]"), (u! "[चछजझज़]")]
  forEach (pyEnumerate cons_pyramid) fun (c1, cons1) => do
    forEach (pyEnumerate cons_pyramid) fun (c2, cons2) => do
      branch (decide (c1 < c2))
        (do
          let Cons_pyr := (((((((u! "((") ++ cons1) ++ vir) ++ (u! ")")) ++ (u! "(")) ++ cons2) ++ (u! "))"))
          reSub ((((ISyl ++ Cons_pyr) ++ (u! "(?!")) ++ Char) ++ (u! ")")) ((u! "\\1\\8") ++ vir)
          pure ())
        (do
          pure ())
  replace vir vir2
  pure ()

/-- PreProcess.py:1062-1095 -/
def PreProcess.RemoveFinal (Target : PyStr) : Gen Unit := do
  branch (pyEq Target (u! "Bengali"))
    (do
      PostProcess.KhandaTa Target true
      pure ())
    (do
      pure ())
  let t1 ← crunchSymbols GM.Vowels Target
  let VowI := (((u! "(") ++ (pyJoin (u! "|") t1)) ++ (u! ")"))
  let t2 ← crunchSymbols GM.VowelSignsNV Target
  let VowS := (((u! "(") ++ (pyJoin (u! "|") t2)) ++ (u! ")"))
  let t3 ← crunchSymbols GM.Consonants Target
  let Cons := (((u! "(") ++ (pyJoin (u! "|") t3)) ++ (u! ")"))
  let t4 ← crunchSymbols GM.Characters Target
  let Char := (((u! "(") ++ (pyJoin (u! "|") t4)) ++ (u! ")"))
  let t5 ← crunchList .AyogavahaMap Target
  let Nas := (((u! "([") ++ (pyJoin (u! "|") t5)) ++ (u! "]?)"))
  let ISyl := ((((((((((u! "((") ++ VowI) ++ (u! "|")) ++ (u! "(")) ++ Cons) ++ VowS) ++ (u! "?")) ++ (u! ")")) ++ Nas) ++ (u! "))"))
  let Syl := ((((((u! "((") ++ Cons) ++ VowS) ++ (u! ")")) ++ Nas) ++ (u! ")"))
  let SylAny := (((((((u! "((") ++ Cons) ++ VowS) ++ (u! "?")) ++ (u! ")")) ++ Nas) ++ (u! ")"))
  let t6 ← crunchList .ViramaMap Target
  let t7 ← index t6 0
  let vir := t7
  let Cons2 ← branch (!(pyEq Target (u! "Bengali")))
    (do
      let Cons2 := ((((((u! "((") ++ Cons) ++ vir) ++ (u! ")?")) ++ Cons) ++ (u! ")"))
      pure Cons2)
    (do
      let Cons2 := (((u! "(()?") ++ Cons) ++ (u! ")"))
      pure Cons2)
  branch ((pyEq Target (u! "Khmer")) || (pyEq Target (u! "KhmerLoC")))
    (do
      let t8 ← crunchSymbols [.SinhalaConsonantMap, .SouthConsonantMap, .NuktaConsonantMap, .ConsonantMap] Target
      let ListC := (pyJoin (u! "|") t8)
      let t9 ← index (modAttr (u! "Khmer") .ConsonantMap) 26
      let ra := t9
      reSub ((((u! "(") ++ ListC) ++ (u! ")")) ++ (u! "៌")) ((ra ++ (u! "្")) ++ (u! "\\1"))
      reSub (((((((ISyl ++ (u! "(")) ++ ListC) ++ (u! ")")) ++ (u! "(((្)")) ++ (u! "(")) ++ ListC) ++ (u! "))*)([៍៎៏]?)(?=[\\s\n])")) (((u! "\\1\\8\\9") ++ vir) ++ (u! "\\13"))
      reSub (((((((ISyl ++ (u! "(")) ++ ListC) ++ (u! ")")) ++ (u! "(((្)")) ++ (u! "(")) ++ ListC) ++ (u! "))*)([៍៎៏]?)$")) (((u! "\\1\\8\\9") ++ vir) ++ (u! "\\13"))
      pure ())
    (do
      reSub ((((ISyl ++ Cons2) ++ (u! "(?!")) ++ Char) ++ (u! ")")) ((u! "\\1\\8") ++ vir)
      reSub ((((ISyl ++ Cons2) ++ (u! "(?!")) ++ Char) ++ (u! ")")) ((u! "\\1\\8") ++ vir)
      pure ())
  pure ()

/-- PreProcess.py:1097-1101 -/
def PreProcess.SchwaFinalGurmukhi : Gen Unit := do
  PreProcess.RemoveFinal (u! "Gurmukhi")
  pure ()

/-- PreProcess.py:1103-1107 -/
def PreProcess.SchwaFinalGujarati : Gen Unit := do
  PreProcess.RemoveFinal (u! "Gujarati")
  pure ()

/-- PreProcess.py:1109-1113 -/
def PreProcess.SchwaFinalBengali : Gen Unit := do
  PreProcess.RemoveFinal (u! "Bengali")
  pure ()

/-- PreProcess.py:1115-1119 -/
def PreProcess.SchwaFinalKhmerLoC : Gen Unit := do
  PreProcess.RemoveFinal (u! "KhmerLoC")
  pure ()

/-- PreProcess.py:1121-1125 -/
def PreProcess.SchwaFinalKhmer : Gen Unit := do
  PreProcess.RemoveFinal (u! "Khmer")
  pure ()

/-- PreProcess.py:1127-1146 -/
def PreProcess.SchwaFinalWarangCiti : Gen Unit := do
  let Target := (u! "WarangCiti")
  let t1 ← crunchSymbols GM.Vowels Target
  let VowI := (((u! "(") ++ (pyJoin (u! "|") t1)) ++ (u! ")"))
  let t2 ← crunchSymbols GM.VowelSignsNV Target
  let VowS := (((u! "(") ++ (pyJoin (u! "|") t2)) ++ (u! ")"))
  let t3 ← crunchSymbols GM.Consonants Target
  let Cons := (((u! "(") ++ (pyJoin (u! "|") t3)) ++ (u! ")"))
  let t4 ← crunchSymbols GM.Characters Target
  let Char := (((u! "(") ++ (pyJoin (u! "|") t4)) ++ (u! ")"))
  let t5 ← crunchList .AyogavahaMap Target
  let Nas := (((u! "([") ++ (pyJoin (u! "|") t5)) ++ (u! "]?)"))
  let ISyl := ((((((((((u! "((") ++ VowI) ++ (u! "|")) ++ (u! "(")) ++ Cons) ++ VowS) ++ (u! "?")) ++ (u! ")")) ++ Nas) ++ (u! "))"))
  let Syl := ((((((u! "((") ++ Cons) ++ VowS) ++ (u! ")")) ++ Nas) ++ (u! ")"))
  let SylAny := (((((((u! "((") ++ Cons) ++ VowS) ++ (u! "?")) ++ (u! ")")) ++ Nas) ++ (u! ")"))
  let vir := (u! "ʻ")
  let Cons2 := ((((((u! "((") ++ Cons) ++ vir) ++ (u! ")?")) ++ Cons) ++ (u! ")"))
  reSub ((((ISyl ++ Cons2) ++ (u! "(?!")) ++ Char) ++ (u! ")")) ((u! "\\1\\8") ++ vir)
  pure ()

/-- PreProcess.py:1148-1149 -/
def PreProcess.siddhamUnicode : Gen Unit := do
  pure ()

end Verif
