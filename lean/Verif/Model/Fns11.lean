import Verif.Model.Crunch
import Verif.Model.Fns10

/-!
# Text functions of ConvertFix.py, PreProcess.py and PostProcess.py, part 11

Generated by tools/genfuncs.py, in dependency order, one definition per Python function and one
line per statement.
-/

set_option maxRecDepth 20000
set_option linter.unusedVariables false

namespace Verif

/-- PostProcess.py:1965-1968 -/
def PostProcess.MalayalamRomanLoCFix : Gen Unit := do
  replace (u! "ṟṟ") (u! "ṯṯ")
  replace (u! "ŭ") (u! "ȧ")
  pure ()

/-- PostProcess.py:1970-1972 -/
def PostProcess.MalayalamNTA : Gen Unit := do
  replace (u! "nṟ") (u! "nṯ")
  pure ()

/-- PostProcess.py:1974-1977 -/
def PostProcess.MalayalamTTNTA : Gen Unit := do
  replace (u! "ṟṟ") (u! "ṯṯ")
  replace (u! "nṟ") (u! "nṯ")
  pure ()

/-- PostProcess.py:1979-1988 -/
def PostProcess.SinhalaSannakaNasalization : Gen Unit := do
  reSub (u! "(n̆)(k|g)") ((u! "ṅ") ++ (u! "\\2"))
  reSub (u! "(n̆)(c|j)") ((u! "ñ") ++ (u! "\\2"))
  reSub (u! "(n̆)(ṭ|ḍ)") ((u! "ṇ") ++ (u! "\\2"))
  reSub (u! "(n̆)(t|d)") ((u! "n") ++ (u! "\\2"))
  reSub (u! "(m̆)(p|b)") ((u! "m") ++ (u! "\\2"))
  pure ()

/-- PostProcess.py:1990-1999 -/
def PostProcess.RomanLoCChandrabindu : Gen Unit := do
  reSub (u! "(m̐)(k|g)") ((u! "n̐") ++ (u! "\\2"))
  reSub (u! "(m̐)(c|j)") ((u! "n̐") ++ (u! "\\2"))
  reSub (u! "(m̐)(ṭ|ḍ)") ((u! "n̐") ++ (u! "\\2"))
  reSub (u! "(m̐)(t|d)") ((u! "n̐") ++ (u! "\\2"))
  reSub (u! "(m̐)(p|b)") ((u! "n̐") ++ (u! "\\2"))
  pure ()

/-- PostProcess.py:2013-2025 -/
def PostProcess.removeDiacritics : Gen Unit := do
  let diacritics := [(u! "̱"), (u! "̆"), (u! "̣"), (u! "͟"), (u! "̤"), (u! "͟"), (u! "̇"), (u! "́"), (u! "̃"), (u! "̐"), (u! "̆"), (u! "̂"), (u! "̄")]
  forEach diacritics fun dia => do
    replace dia (u! "")
  let vowelDia := [(u! "а̄"), (u! "ӣ"), (u! "ӯ"), (u! "ӗ")]
  let vowel := [(u! "а"), (u! "и"), (u! "у"), (u! "э")]
  forEach (pyZip vowelDia vowel) fun (x, y) => do
    replace x y
  pure ()

/-- PostProcess.py:2027-2029 -/
def PostProcess.ranjanalantsa : Gen Unit := do
  replace (u! "་") (u! " ")
  pure ()

/-- PostProcess.py:2031-2033 -/
def PostProcess.ranjanawartu : Gen Unit := do
  replace (u! "་") (u! "࿎ ")
  pure ()

/-- PostProcess.py:2035-2036 -/
def PostProcess.TaiKuen : Gen Unit := do
  pure ()

/-- PostProcess.py:2038-2039 -/
def PostProcess.TaiThamLao : Gen Unit := do
  pure ()

/-- PostProcess.py:2041-2042 -/
def PostProcess.egrantamil : Gen Unit := do
  pure ()

/-- PostProcess.py:2044-2045 -/
def PostProcess.tibetandbumed : Gen Unit := do
  pure ()

/-- PostProcess.py:2047-2048 -/
def PostProcess.oldtamilortho : Gen Unit := do
  pure ()

/-- PostProcess.py:2050-2051 -/
def PostProcess.nepaldevafont : Gen Unit := do
  pure ()

/-- PostProcess.py:2053-2054 -/
def PostProcess.granthaserif : Gen Unit := do
  pure ()

/-- PostProcess.py:2056-2079 -/
def PostProcess.ChakmaPali : Gen Unit := do
  let t1 ← crunchSymbols GM.Consonants (u! "Chakma")
  let listC := (((u! "(") ++ (pyJoin (u! "|") (sortByLenDesc (t1 ++ (pySlice (modAttr (u! "Chakma") .VowelMap) none (some 1)))))) ++ (u! ")"))
  let t2 ← crunchSymbols GM.VowelSigns (u! "Chakma")
  let listV := (((u! "(") ++ (pyJoin (u! "|") (sortByLenDesc ((t2 ++ (modAttr (u! "Chakma") .ViramaMap)) ++ [(u! "𑄳")])))) ++ (u! ")"))
  PostProcess.ChakmaGemination (reverse := true)
  replace (u! "𑄤") (u! "𑅇")
  replace (u! "𑄡") (u! "𑄠")
  replace (u! "𑄧") (u! "ʾ")
  reSub (((((((u! "(") ++ listC) ++ (u! ")")) ++ (u! "(?!")) ++ listV) ++ (u! "|ʾ")) ++ (u! ")")) (u! "\\1𑄧")
  replace (u! "ʾ") (u! "")
  replace (u! "𑄧") (u! "𑄂")
  replace (u! "𑄳") (u! "𑄴")
  pure ()

/-- PostProcess.py:3320-3369 -/
def PostProcess.ThaiSajjhayaOrthography (Script : PyStr := (u! "Thai")) : Gen Unit := do
  ConvertFix.ThaiReverseVowelSigns true
  ConvertFix.ThaiDigraphConjuncts true
  ConvertFix.ThaiReverseVowelSigns
  branch (pyEq Script (u! "Thai"))
    (do
      replace (u! "ฺ") (u! "์")
      pure ())
    (do
      pure ())
  branch (pyEq Script (u! "LaoPali"))
    (do
      replace (u! "຺") (u! "์")
      pure ())
    (do
      pure ())
  let t1 ← crunchSymbols GM.Consonants Script
  let t2 ← crunchList .VowelMap Script
  let cons := (pyJoin (u! "|") (t1 ++ (pySlice t2 (some 0) (some 1))))
  let t3 ← crunchList .VowelSignMap Script
  let t4 ← crunchList .SinhalaVowelSignMap Script
  let EAIO := (pyJoin (u! "") ((pySlice t3 (some 9) (some 12)) ++ (pySlice t4 none none)))
  reSub ((((((((((u! "(?<![") ++ EAIO) ++ (u! "])")) ++ (u! "(")) ++ cons) ++ (u! ")")) ++ (u! "(")) ++ cons) ++ (u! ")")) ++ (u! "(์)")) (((u! "\\1") ++ (u! "ั")) ++ (u! "\\2\\3"))
  let cons_others ← branch (pyEq Script (u! "Thai"))
    (do
      let cons_others := (u! "([ยรลวศษสหฬ])")
      pure cons_others)
    (do
      pure [])
  let cons_others ← branch (pyEq Script (u! "LaoPali"))
    (do
      let cons_others := (u! "([ຍຣລວຨຩສຫຬ])")
      pure cons_others)
    (branch (pyEq Script (u! "Thai")) (pure cons_others) (fail .nameError /- unbound local -/))
  reSub ((((((((((u! "(?<![") ++ EAIO) ++ (u! "])")) ++ (u! "(")) ++ cons) ++ (u! ")")) ++ (u! "(")) ++ cons) ++ (u! ")")) ++ (u! "(์)")) (((u! "\\1") ++ (u! "ั")) ++ (u! "\\2\\3"))
  reSub ((((((((u! "(") ++ cons) ++ (u! ")")) ++ (u! "(์)")) ++ (u! "([")) ++ EAIO) ++ (u! "]?)")) ++ cons_others) (((u! "\\1") ++ (u! "๎")) ++ (u! "\\3\\4"))
  reSub (((((((cons_others ++ (u! "(์)")) ++ (u! "([")) ++ EAIO) ++ (u! "]?)")) ++ (u! "(")) ++ cons) ++ (u! ")")) (((u! "\\1") ++ (u! "๎")) ++ (u! "\\3\\4"))
  reSub (((((cons_others ++ (u! "(๎)")) ++ (u! "([")) ++ EAIO) ++ (u! "]?)")) ++ (u! "\\1")) (((u! "\\1") ++ (u! "์")) ++ (u! "\\3\\1"))
  reSub ((((((((((u! "(") ++ cons) ++ (u! ")")) ++ (u! "(๎)")) ++ (u! "([")) ++ EAIO) ++ (u! "])")) ++ (u! "(")) ++ cons) ++ (u! ")")) (u! "\\3\\1\\2\\4")
  branch (pyEq Script (u! "Thai"))
    (do
      replace (u! "ง์") (u! "ง")
      reSub (u! "(ั)(.)(๎)") (u! "\\2\\3")
      pure ())
    (do
      pure ())
  branch (pyEq Script (u! "LaoPali"))
    (do
      replace (u! "ั") (u! "ັ")
      replace (u! "ງ์") (u! "ງ")
      replace (u! "์") (u! "໌")
      reSub (u! "(ັ)(.)(๎)") (u! "\\2\\3")
      replace (u! "๎") (u! "໎")
      pure ())
    (do
      pure ())
  pure ()

/-- PostProcess.py:2081-2094 -/
def PostProcess.ThaiSajjhayawithA : Gen Unit := do
  PostProcess.ThaiSajjhayaOrthography
  replace (u! "ัง") (u! "ังฺ")
  PostProcess.ThaiTranscription (anusvaraChange := true)
  replace (u! "ะํ") (u! "ํ")
  replace (u! "ะั") (u! "ั")
  replace (u! "ะ๎") (u! "๎")
  reSub (u! "([เโไ])(.๎)([ยรลวศษสหฬ])ะ") (u! "\\1\\2\\3")
  replace (u! "าํ") (u! "ำ")
  replace (u! "ิํ") (u! "ึ")
  pure ()

/-- PostProcess.py:2096-2101 -/
def PostProcess.LaoSajjhaya : Gen Unit := do
  PostProcess.ThaiSajjhayaOrthography (Script := (u! "LaoPali"))
  reSub (u! "([ເໂໄ])(.)(໎)") (u! "\\2\\3\\1")
  pure ()

/-- PostProcess.py:2103-2126 -/
def PostProcess.LaoSajjhayawithA : Gen Unit := do
  PostProcess.LaoSajjhaya
  replace (u! "໎") (u! "๎")
  replace (u! "ັງ") (u! "ັງ຺")
  ConvertFix.LaoPaliTranscribe (anusvaraChange := true)
  replace (u! "ະໍ") (u! "ໍ")
  replace (u! "ະັ") (u! "ັ")
  replace (u! "ະ๎") (u! "๎")
  replace (u! "ະ໌") (u! "໌")
  replace (u! "ະົ") (u! "ົ")
  reSub (u! "([ເໂໄ])(.๎)([ຍຣລວຨຩສຫຬ])ະ") (u! "\\1\\2\\3")
  replace (u! "າໍ") (u! "ຳ")
  replace (u! "๎") (u! "໎")
  pure ()

/-- PostProcess.py:2128-2131 -/
def PostProcess.UseAlternateVSU : Gen Unit := do
  replace (u! "𑖲") (u! "𑗜")
  pure ()

/-- PostProcess.py:2133-2136 -/
def PostProcess.UseAlternateVSUU : Gen Unit := do
  replace (u! "𑖳") (u! "𑗝")
  pure ()

/-- PostProcess.py:2138-2141 -/
def PostProcess.UseAlternateU : Gen Unit := do
  replace (u! "𑖄") (u! "𑗛")
  pure ()

/-- PostProcess.py:2143-2146 -/
def PostProcess.UseAlternateI1 : Gen Unit := do
  replace (u! "𑖂") (u! "𑗘")
  pure ()

/-- PostProcess.py:2148-2151 -/
def PostProcess.UseAlternateI2 : Gen Unit := do
  replace (u! "𑖂") (u! "𑗙")
  pure ()

/-- PostProcess.py:2153-2156 -/
def PostProcess.UseAlternateII : Gen Unit := do
  replace (u! "𑖃") (u! "𑗚")
  pure ()

/-- PostProcess.py:2158-2161 -/
def PostProcess.GranthaOldau : Gen Unit := do
  replace (u! "𑍗") (u! "𑍌")
  pure ()

/-- PostProcess.py:2163-2166 -/
def PostProcess.DevanagariACandra : Gen Unit := do
  replace (u! "ऍ") (u! "ॲ")
  pure ()

/-- PostProcess.py:2168-2174 -/
def PostProcess.WarangCitiModernOrthogaphy : Gen Unit := do
  reSub (u! "([𑣔𑣕𑣌𑣋𑣏𑣎𑣒𑣑𑣕𑣔𑣘𑣗𑣛])(\u200d)(𑣙)") (u! "\\1")
  replace (u! "𑣝") (u! "𑣞")
  replace (u! "\u200d") (u! "")
  pure ()

/-- PostProcess.py:2176-2182 -/
def PostProcess.ChakmaEnableAllConjuncts : Gen Unit := do
  let t1 ← crunchSymbols GM.Consonants (u! "Chakma")
  let listC := (((u! "(") ++ (pyJoin (u! "|") (sortByLenDesc (t1 ++ (pySlice (modAttr (u! "Chakma") .VowelMap) none (some 1)))))) ++ (u! ")"))
  reSub ((((u! "𑄴") ++ (u! "(")) ++ listC) ++ (u! ")")) ((u! "𑄳") ++ (u! "\\1"))
  PostProcess.ChakmaGemination
  pure ()

/-- PostProcess.py:2207-2214 -/
def PostProcess.ChakmaVowelsIndependent : Gen Unit := do
  let vowelDepA := [(u! "𑄃𑄨"), (u! "𑄃𑄪"), (u! "𑄃𑄬")]
  let vowelIndep := [(u! "𑄄"), (u! "𑄅"), (u! "𑄆")]
  forEach (pyZip vowelDepA vowelIndep) fun (x, y) => do
    replace x y
  pure ()

/-- PostProcess.py:2216-2226 -/
def PostProcess.MultaniAbjad : Gen Unit := do
  let t1 ← crunchSymbols GM.Characters (u! "Multani")
  let ListAll := (((u! "(") ++ (pyJoin (u! "|") (t1 ++ [(u! "𑊓"), (u! "𑊍")]))) ++ (u! ")"))
  let t2 ← crunchSymbols GM.Consonants (u! "Multani")
  let ListC := (((u! "(") ++ (pyJoin (u! "|") (t2 ++ [(u! "𑊓"), (u! "𑊍")]))) ++ (u! ")"))
  let t3 ← crunchSymbols GM.Vowels (u! "Multani")
  let ListV := (((u! "(") ++ (pyJoin (u! "|") (t3 ++ [(u! "𑊓"), (u! "𑊍")]))) ++ (u! ")"))
  reSub ((ListC ++ ListV) ++ ListC) (u! "\\1\\3")
  reSub ((((u! "(") ++ ListC) ++ (u! "{2,})")) ++ ListV) (u! "\\1")
  reSub ((ListV ++ ListC) ++ ListV) (u! "\\1\\2")
  pure ()

/-- PostProcess.py:2228-2238 -/
def PostProcess.LaoNative : Gen Unit := do
  reSub (u! "ຕ([ເແໂໄ]?)ຕ") (((u! "ດ") ++ (u! "\\1")) ++ (u! "ຕ"))
  reSub (u! "ຕ([ເແໂໄ]?)ຖ") (((u! "ດ") ++ (u! "\\1")) ++ (u! "ຖ"))
  reSub (u! "ທ([ເແໂໄ]?)ທ") (((u! "ດ") ++ (u! "\\1")) ++ (u! "ທ"))
  reSub (u! "ສ([ເແໂໄ]?)ສ") (((u! "ດ") ++ (u! "\\1")) ++ (u! "ສ"))
  reSub (u! "ປ([ເແໂໄ]?)ປ") (((u! "ບ") ++ (u! "\\1")) ++ (u! "ປ"))
  reSub (u! "ພ([ເແໂໄ]?)ພ") (((u! "ບ") ++ (u! "\\1")) ++ (u! "ພ"))
  pure ()

/-- PostProcess.py:2259-2269 -/
def PostProcess.LimbuSpellingSaI : Gen Unit := do
  let t1 ← index (modAttr (u! "Limbu") .ViramaMap) 0
  let vir := t1
  let t3 ← pmap [0, 4, 15, 19, 20, 24, 26, 27] fun x => (do let t2 ← index (modAttr (u! "Limbu") .ConsonantMap) x; pure t2)
  let FCons := (t3.map fun x => (x ++ vir))
  let FinalCons := [(u! "ᤰ"), (u! "ᤱ"), (u! "ᤳ"), (u! "ᤴ"), (u! "ᤵ"), (u! "ᤶ"), (u! "ᤷ"), (u! "ᤸ")]
  forEach (pyZip FCons FinalCons) fun (x, y) => do
    replace ((u! "᤺") ++ y) x
    replace ((u! "᤺ᤢ") ++ y) ((u! "ᤢ") ++ x)
  pure ()

/-- PostProcess.py:2271-2272 -/
def PostProcess.siddhammukta : Gen Unit := do
  pure ()

/-- PostProcess.py:2274-2275 -/
def PostProcess.tradOrtho : Gen Unit := do
  pure ()

/-- PostProcess.py:2277-2278 -/
def PostProcess.siddhamap : Gen Unit := do
  pure ()

/-- PostProcess.py:2280-2283 -/
def PostProcess.KhojkiRetainSpace : Gen Unit := do
  replace (u! "𑈺") (u! " ")
  pure ()

/-- PostProcess.py:2285-2288 -/
def PostProcess.BhaiksukiRetainSpace : Gen Unit := do
  replace (u! "𑱃") (u! " ")
  pure ()

/-- PostProcess.py:2290-2293 -/
def PostProcess.KaithiRetainSpace : Gen Unit := do
  replace (u! "⸱") (u! " ")
  pure ()

end Verif
