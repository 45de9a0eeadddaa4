import Verif.Model.Crunch
import Verif.Model.Fns11

/-!
# Text functions of ConvertFix.py, PreProcess.py and PostProcess.py, part 12

Generated by tools/genfuncs.py, in dependency order, one definition per Python function and one
line per statement.
-/

set_option maxRecDepth 20000
set_option linter.unusedVariables false

namespace Verif

/-- PostProcess.py:2295-2302 -/
def PostProcess.MedievalTamilOrthography : Gen Unit := do
  let OldEO := [(u! "எ்"), (u! "ெ்"), (u! "ஒ்"), (u! "ெ்ா"), (u! "எ"), (u! "ெ"), (u! "ஒ"), (u! "ொ")]
  let NewEO := [(u! "எ"), (u! "ெ"), (u! "ஒ"), (u! "ொ"), (u! "ஏ"), (u! "ே"), (u! "ஓ"), (u! "ோ")]
  forEach (pyZip NewEO OldEO) fun (x, y) => do
    replace x y
  pure ()

/-- PostProcess.py:2304-2306 -/
def PostProcess.AmbigousTamilOrthography : Gen Unit := do
  pure ()

/-- PostProcess.py:2308-2315 -/
def PostProcess.NewaMurmurConsonants : Gen Unit := do
  let murmur := [(u! "𑐓"), (u! "𑐙"), (u! "𑐤"), (u! "𑐪"), (u! "𑐭"), (u! "𑐯")]
  let connsh := [(u! "𑐴𑑂𑐒"), (u! "𑐴𑑂𑐘"), (u! "𑐴𑑂𑐣"), (u! "𑐴𑑂𑐩"), (u! "𑐴𑑂𑐬"), (u! "𑐴𑑂𑐮")]
  forEach (pyZip murmur connsh) fun (x, y) => do
    replace y x
  pure ()

/-- PostProcess.py:2317-2333 -/
def PostProcess.ModiRemoveLong : Gen Unit := do
  replace (u! "𑘂") (u! "𑘃")
  replace (u! "𑘅") (u! "𑘄")
  replace (u! "𑘱") (u! "𑘲")
  replace (u! "𑘴") (u! "𑘳")
  replace (u! "𑘆") (u! "𑘨𑘲")
  replace (u! "𑘇") (u! "𑘨𑘲")
  replace (u! "𑘈") (u! "𑘩𑘲")
  replace (u! "𑘉") (u! "𑘩𑘲")
  replace (u! "𑘵") (u! "𑘿𑘨𑘲")
  replace (u! "𑘶") (u! "𑘿𑘨𑘲")
  replace (u! "𑘷") (u! "𑘿𑘩𑘲")
  replace (u! "𑘸") (u! "𑘿𑘩𑘲")
  pure ()

/-- PostProcess.py:2335-2342 -/
def PostProcess.LimbuDevanagariConvention : Gen Unit := do
  replace (u! "ऎ") (u! "ए़")
  replace (u! "ऒ") (u! "ओ़")
  replace (u! "ॆ") (u! "े़")
  replace (u! "ॊ") (u! "ो़")
  replace (u! "꞉") (u! "ः")
  pure ()

/-- PostProcess.py:2373-2374 -/
def PostProcess.ThaanaRemoveHistorical : Gen Unit := do
  replace (u! "ޱ") (u! "ނ")
  pure ()

/-- PostProcess.py:2376-2377 -/
def PostProcess.OriyaVaAlt : Gen Unit := do
  replace (u! "ୱ") (u! "ଵ")
  pure ()

/-- PostProcess.py:2387-2393 -/
def PostProcess.dotReph : Gen Unit := do
  let t1 ← crunchSymbols GM.Consonants (u! "Malayalam")
  let ListC := (((u! "(") ++ (pyJoin (u! "|") (sortStr t1))) ++ (u! ")"))
  reSub (((u! "(?<!്)") ++ (u! "ർ")) ++ ListC) ((u! "ൎ") ++ (u! "\\1"))
  reSub (((u! "(?<!്)") ++ (u! "ര്")) ++ ListC) ((u! "ൎ") ++ (u! "\\1"))
  pure ()

/-- PostProcess.py:2395-2398 -/
def PostProcess.TamilGranthaVisarga : Gen Unit := do
  replace (u! "꞉") (u! "𑌃")
  pure ()

/-- PostProcess.py:2400-2404 -/
def PostProcess.archaicAIAU : Gen Unit := do
  replace (u! "ൗ") (u! "ൌ")
  replace (u! "ഈ") (u! "ൟ")
  pure ()

/-- PostProcess.py:2406-2410 -/
def PostProcess.MalayalamremoveHistorical : Gen Unit := do
  replace (u! "ഩ") (u! "ന")
  replace (u! "ന\u200d്") (u! "ൻ")
  pure ()

/-- PostProcess.py:2412-2418 -/
def PostProcess.LimburemoveHistorical : Gen Unit := do
  let removePairs := [((u! "ᤉ"), (u! "ᤈ")), ((u! "ᤊ"), (u! "ᤏ")), ((u! "ᤚ"), (u! "ᤙ")), ((u! "ᤲ"), (u! "ᤱ"))]
  forEach removePairs fun (x, y) => do
    replace x y
  pure ()

/-- PostProcess.py:2420-2425 -/
def PostProcess.MalayalamPrakrit : Gen Unit := do
  replace (u! "ം") (u! "ഀ")
  PostProcess.InsertGeminationSign (u! "Malayalam")
  pure ()

/-- PostProcess.py:2427-2440 (rewrites its own matches: not modelled) -/
def PostProcess.GranthaPrakrit : Gen Unit := host .granthaPrakrit

/-- PostProcess.py:2442-2449 -/
def PostProcess.MeeteiMayekremoveHistorical : Gen Unit := do
  let removePairs := [((u! "ꫢ"), (u! "ꯆ")), ((u! "ꫣ"), (u! "ꯅ")), ((u! "ꫤ"), (u! "ꯇ")), ((u! "ꫥ"), (u! "ꯊ")), ((u! "ꫦ"), (u! "ꯗ")), ((u! "ꫧ"), (u! "ꯙ")), ((u! "ꫨ"), (u! "ꯅ")), ((u! "ꫩ"), (u! "ꯁ")), ((u! "ꫪ"), (u! "ꯁ")), ((u! "ꫵ"), (u! "ꯍ꯭")), ((u! "ꯑꫫ"), (u! "ꯏ")), ((u! "ꯑꫬ"), (u! "ꯎ")), ((u! "ꫫ"), (u! "ꯤ")), ((u! "ꫬ"), (u! "ꯨ"))]
  forEach removePairs fun (x, y) => do
    replace x y
  pure ()

/-- PostProcess.py:2451-2452 -/
def PostProcess.TamilOmDisable : Gen Unit := do
  replace (u! "ௐ") (u! "ஓம்")
  pure ()

/-- PostProcess.py:2454-2455 -/
def PostProcess.TamilSHADisable : Gen Unit := do
  replace (u! "ஶ") (u! "ஸ²")
  pure ()

/-- PostProcess.py:2457-2479 -/
def PostProcess.TamilNaToNNa : Gen Unit := do
  let t1 ← index (modAttr (u! "Tamil") .ConsonantMap) 19
  let na := t1
  let t2 ← index (modAttr (u! "Tamil") .SouthConsonantMap) 3
  let nna := t2
  let t3 ← index (modAttr (u! "Tamil") .ViramaMap) 0
  let vir := t3
  let t4 ← index (modAttr (u! "Tamil") .ConsonantMap) 15
  let ta := t4
  let t5 ← crunchSymbols ((GM.Vowels ++ GM.VowelSigns) ++ GM.Consonants) (u! "Tamil")
  let t6 ← index (modAttr (u! "Tamil") .SignMap) 0
  let ListV := (pyJoin (u! "|") (t5 ++ [(pyReplace (pyReplace t6 (u! "(") (u! "\\(")) (u! ")") (u! "\\)"))]))
  reSub (((((((((((u! "(") ++ ListV) ++ (u! ")")) ++ GM.VedicSvaras) ++ (u! "(")) ++ na) ++ (u! ")")) ++ (u! "(?!")) ++ vir) ++ ta) ++ (u! ")")) ((u! "\\1\\2") ++ nna)
  reSub (((((((((((u! "(") ++ ListV) ++ (u! ")")) ++ GM.VedicSvaras) ++ (u! "(")) ++ na) ++ (u! ")")) ++ (u! "(?!")) ++ vir) ++ ta) ++ (u! ")")) ((u! "\\1\\2") ++ nna)
  reSub (((((((((u! "(²|³|⁴)") ++ GM.VedicSvaras) ++ (u! "(")) ++ na) ++ (u! ")")) ++ (u! "(?!")) ++ vir) ++ ta) ++ (u! ")")) ((u! "\\1\\2") ++ nna)
  reSub (((((((((u! "(²|³|⁴)") ++ GM.VedicSvaras) ++ (u! "(")) ++ na) ++ (u! ")")) ++ (u! "(?!")) ++ vir) ++ ta) ++ (u! ")")) ((u! "\\1\\2") ++ nna)
  reSub (((u! "(?<=ஶ்ரீ)(ன)(?!") ++ vir) ++ (u! ")")) (u! "ந")
  pure ()

/-- PostProcess.py:2528-2539 -/
def PostProcess.historicChillu : Gen Unit := do
  let chilluArch := [(u! "ൔ"), (u! "ൕ"), (u! "ൖ"), (u! "ൿ")]
  let chilluArchhVir := [(u! "മ്"), (u! "യ്"), (u! "ഴ്"), (u! "ക്")]
  let t1 ← crunchSymbols GM.CharactersNV (u! "Malayalam")
  let ListC := (((u! "(") ++ (pyJoin (u! "|") (t1 ++ [(u! "ഽ")]))) ++ (u! ")"))
  let t2 ← index (modAttr (u! "Malayalam") .ViramaMap) 0
  let vir := t2
  forEach (pyZip chilluArch chilluArchhVir) fun (ch, chvir) => do
    reSub (((((((u! "(?<!") ++ vir) ++ (u! ")")) ++ chvir) ++ (u! "(?!")) ++ ListC) ++ (u! ")")) ch
  pure ()

/-- PostProcess.py:2541-2546 -/
def PostProcess.MalayalamLineVirama : Gen Unit := do
  replace (u! "്") (u! "഻")
  pure ()

/-- PostProcess.py:2548-2551 -/
def PostProcess.MalayalamCircVirama : Gen Unit := do
  replace (u! "്") (u! "഼")
  pure ()

/-- PostProcess.py:2553-2566 -/
def PostProcess.RemoveSchwa (Target : PyStr) : Gen Unit := do
  let t1 ← crunchSymbols GM.VowelSigns Target
  let t2 ← index t1 0
  let t3 ← crunchSymbols GM.VowelSigns Target
  let t4 ← index t3 0
  let vir := (t2 ++ t4)
  let t5 ← crunchSymbols GM.Consonants Target
  let ListC := (pyJoin (u! "|") t5)
  let t6 ← crunchSymbols GM.Vowels Target
  let ListV := (pyJoin (u! "|") t6)
  let t7 ← crunchSymbols GM.VowelSignsNV Target
  let ListVS := (pyJoin (u! "|") t7)
  let t8 ← crunchSymbols (((GM.Vowels ++ GM.VowelSigns) ++ GM.Consonants) ++ GM.CombiningSigns) Target
  let ListAll := (pyJoin (u! "|") t8)
  reSub (((((((((u! "(") ++ ListAll) ++ (u! ")")) ++ (u! "(")) ++ ListC) ++ (u! ")")) ++ (u! "(?!")) ++ ListAll) ++ (u! ")")) ((u! "\\1\\2") ++ vir)
  reSub (((((((((((((((u! "(") ++ ListAll) ++ (u! ")")) ++ (u! "(?<!")) ++ vir) ++ (u! ")")) ++ (u! "(")) ++ ListC) ++ (u! ")")) ++ (u! "(")) ++ ListC) ++ (u! ")")) ++ (u! "(")) ++ ListVS) ++ (u! ")")) (((u! "\\1\\2") ++ vir) ++ (u! "\\3\\4"))
  pure ()

/-- PostProcess.py:2601-2615 -/
def PostProcess.GurmukhiTippiBindu : Gen Unit := do
  let t1 ← index (modAttr (u! "Gurmukhi") .AyogavahaMap) 1
  let Bindi := t1
  let Tippi := (u! "ੰ")
  let t2 ← crunchSymbols GM.Consonants (u! "Gurmukhi")
  let t4 ← pmap [0, 2, 4] fun x => (do let t3 ← index (modAttr (u! "Gurmukhi") .VowelMap) x; pure t3)
  let t5 ← index (modAttr (u! "Gurmukhi") .VowelSignMap) 1
  let t6 ← index (modAttr (u! "Gurmukhi") .VowelSignMap) 3
  let t7 ← index (modAttr (u! "Gurmukhi") .VowelSignMap) 4
  let ListTippi := (pyJoin (u! "|") ((((t2 ++ t4) ++ [t5]) ++ [t6]) ++ [t7]))
  let t8 ← crunchSymbols GM.Consonants (u! "Gurmukhi")
  let t9 ← crunchSymbols GM.Vowels (u! "Gurmukhi")
  let Char := (pyJoin (u! "|") (t8 ++ t9))
  let t10 ← index (modAttr (u! "Gurmukhi") .VowelSignMap) 4
  reSub (((((((u! "(") ++ t10) ++ (u! ")")) ++ Bindi) ++ (u! "(?!")) ++ Char) ++ (u! ")")) ((u! "\\1") ++ Tippi)
  reSub ((((((u! "(") ++ ListTippi) ++ (u! ")")) ++ (u! "(")) ++ Bindi) ++ (u! ")")) ((u! "\\1") ++ Tippi)
  pure ()

/-- PostProcess.py:2617-2631 -/
def PostProcess.GurmukhiTippiGemination : Gen Unit := do
  let t1 ← index (modAttr (u! "Gurmukhi") .ConsonantMap) 19
  let n := t1
  let t2 ← index (modAttr (u! "Gurmukhi") .ConsonantMap) 24
  let m := t2
  let t3 ← index (modAttr (u! "Gurmukhi") .ViramaMap) 0
  let vir := t3
  let Addak := (u! "ੱ")
  let Tippi := (u! "ੰ")
  replace (Addak ++ m) (Tippi ++ m)
  replace (Addak ++ n) (Tippi ++ n)
  pure ()

/-- PostProcess.py:2640-2644 -/
def PostProcess.khandatabatova : Gen Unit := do
  replace (u! "ৎব") (u! "ত্ব")
  replace (u! "ৎ\u200cব") (u! "ত্ব")
  pure ()

/-- PostProcess.py:2633-2638 -/
def PostProcess.BengaliConjunctVB : Gen Unit := do
  replace (u! "্\u200cব") (u! "্ব")
  PostProcess.khandatabatova
  pure ()

/-- PostProcess.py:2646-2659 -/
def PostProcess.BengaliRaBa : Gen Unit := do
  replace (u! "ৰু") (u! "ৰ\u200cু")
  replace (u! "ৰূ") (u! "ৰ\u200cূ")
  replace (u! "্ৰ") (u! "্\u200cৰ")
  reSub (u! "(ৰ)(্)([রয])") (((u! "\\1") ++ (u! "\u200d")) ++ (u! "\\2\\3"))
  reSub (u! "(ৰ)(্)") ((u! "\\1\\2") ++ (u! "\u200c"))
  replace (u! "র্\u200cৰ") (u! "ৰ্ৰ")
  pure ()

/-- PostProcess.py:2661-2671 -/
def PostProcess.BengaliIntervocalicDDA : Gen Unit := do
  let Target := (u! "Bengali")
  let t1 ← crunchSymbols GM.Characters Target
  let t2 ← crunchList .SignMap Target
  let t3 ← index t2 0
  let ListC := (pyJoin (u! "|") ((t1 ++ [t3]) ++ [(u! "ৰ")]))
  let replacements := [((u! "ড"), (u! "ড়")), ((u! "ঢ"), (u! "ঢ়"))]
  forEach replacements fun (x, y) => do
    reSub (((((u! "(") ++ ListC) ++ (u! ")")) ++ GM.VedicSvaras) ++ x) ((u! "\\1\\2") ++ y)
  pure ()

/-- PostProcess.py:2735-2764 -/
def PostProcess.MalayalamAnusvaraNasal : Gen Unit := do
  let t1 ← crunchSymbols GM.Characters (u! "Malayalam")
  let ListCAll := (((u! "(") ++ (pyJoin (u! "|") t1)) ++ (u! ")"))
  let t3 ← pmap [4, 9, 14, 19, 24] fun x => (do let t2 ← index (modAttr (u! "Malayalam") .ConsonantMap) x; pure t2)
  let ListNNasal := t3
  let ListCNasal := [(pyJoin (u! "|") (pySlice (modAttr (u! "Malayalam") .ConsonantMap) (some 0) (some 1))), (pyJoin (u! "|") (pySlice (modAttr (u! "Malayalam") .ConsonantMap) (some 5) (some 8))), (pyJoin (u! "|") (pySlice (modAttr (u! "Malayalam") .ConsonantMap) (some 10) (some 14))), (pyJoin (u! "|") (pySlice (modAttr (u! "Malayalam") .ConsonantMap) (some 15) (some 19))), (pyJoin (u! "|") (pySlice (modAttr (u! "Malayalam") .ConsonantMap) (some 20) (some 21)))]
  let t5 ← pmap [4, 24] fun x => (do let t4 ← index (modAttr (u! "Malayalam") .ConsonantMap) x; pure t4)
  let ListNAnu := t5
  let ListCAnu := [(pyJoin (u! "|") (pySlice (modAttr (u! "Malayalam") .ConsonantMap) (some 1) (some 4))), (pyJoin (u! "|") (pySlice (modAttr (u! "Malayalam") .ConsonantMap) (some 21) (some 24)))]
  let t6 ← index (modAttr (u! "Malayalam") .ViramaMap) 0
  let vir := t6
  let t7 ← index (modAttr (u! "Malayalam") .AyogavahaMap) 1
  let Anu := t7
  let Chillus := [(u! "ൺ"), (u! "ൻ"), (u! "ർ"), (u! "ൽ"), (u! "ൾ"), (u! "ഩ\u200d്")]
  forEach (List.range (ListNNasal).length) fun i => do
    let t8 ← index ListCNasal i
    let t9 ← index ListNNasal i
    reSub ((((((u! "(") ++ Anu) ++ (u! ")")) ++ (u! "(")) ++ t8) ++ (u! ")")) ((t9 ++ vir) ++ (u! "\\2"))
  forEach (List.range (ListNAnu).length) fun i => do
    let t10 ← index ListNAnu i
    let t11 ← index ListCAnu i
    reSub ((((((((((((((((((ListCAll ++ GM.VedicSvaras) ++ (u! "(?<!")) ++ vir) ++ (u! ")")) ++ (u! "(?<![")) ++ (pyJoin (u! ".") Chillus)) ++ (u! "])(?<!")) ++ vir) ++ (u! ")")) ++ (u! "(")) ++ t10) ++ (u! ")")) ++ (u! "(")) ++ vir) ++ (u! ")")) ++ (u! "(")) ++ t11) ++ (u! ")")) (((u! "\\1\\2") ++ Anu) ++ (u! "\\5"))
  pure ()

/-- PostProcess.py:2767-2785 -/
def PostProcess.MToAnusvara (Target : PyStr) : Gen Unit := do
  let t1 ← crunchList .ConsonantMap Target
  let t2 ← index t1 24
  let t3 ← crunchList .ViramaMap Target
  let t4 ← index t3 0
  let M := (t2 ++ t4)
  let t5 ← crunchList .ViramaMap Target
  let t6 ← index t5 0
  let vir := t6
  let t7 ← crunchList .AyogavahaMap Target
  let t8 ← index t7 1
  let Anusvara := t8
  let t9 ← crunchSymbols GM.Characters Target
  let ListC := (pyJoin (u! "|") t9)
  let Chillus := (pyJoin (u! "|") [vir, (u! "ൺ"), (u! "ൻ"), (u! "ർ"), (u! "ൽ"), (u! "ൾ")])
  let t10 ← crunchSymbols GM.Characters Target
  let ListCAll := (((u! "(") ++ (pyJoin (u! "|") t10)) ++ (u! ")"))
  reSub ((((((((((ListCAll ++ GM.VedicSvaras) ++ (u! "(?<!")) ++ vir) ++ (u! ")")) ++ (u! "(")) ++ M) ++ (u! ")")) ++ (u! "(?!")) ++ ListC) ++ (u! ")")) ((u! "\\1\\2") ++ Anusvara)
  forEach GM.VedicSvarasList fun svara => do
    replace (svara ++ Anusvara) (Anusvara ++ svara)
  pure ()

/-- PostProcess.py:2793-2799 -/
def PostProcess.YYAEverywhere (Target : PyStr) : Gen Unit := do
  let t1 ← crunchList .ConsonantMap Target
  let t2 ← index t1 25
  let Ya := t2
  let t3 ← crunchList .NuktaConsonantMap Target
  let t4 ← index t3 7
  let YYa := t4
  replace Ya YYa
  pure ()

/-- PostProcess.py:2787-2788 -/
def PostProcess.OriyaYYA : Gen Unit := do
  PostProcess.YYAEverywhere (u! "Oriya")
  pure ()

/-- PostProcess.py:2790-2791 -/
def PostProcess.BengaliYYA : Gen Unit := do
  PostProcess.YYAEverywhere (u! "Bengali")
  pure ()

/-- PostProcess.py:2801-2834 -/
def PostProcess.YaToYYa (Target : PyStr) : Gen Unit := do
  let t1 ← crunchList .NuktaConsonantMap Target
  let t2 ← index t1 7
  let YYa := t2
  let t3 ← crunchSymbols GM.Characters Target
  let t4 ← crunchList .SignMap Target
  let t5 ← index t4 0
  let ListC := (pyJoin (u! "|") ((t3 ++ [t5]) ++ [(u! "ৰ")]))
  let t6 ← crunchSymbols GM.VowelSignsNV Target
  let ListS := (((u! "(") ++ (pyJoin (u! "|") t6)) ++ (u! ")"))
  let t7 ← crunchList .ConsonantMap Target
  let t8 ← index t7 25
  let Ya := t8
  let t9 ← crunchSymbols GM.VowelSigns Target
  let t10 ← index t9 0
  let vir := t10
  let t11 ← crunchList .ConsonantMap Target
  let ListVarga := (pyJoin (u! "|") (pySlice t11 (some 0) (some 25)))
  branch (pyIn Target [(u! "Assamese"), (u! "Bengali"), (u! "Oriya"), (u! "Chakma")])
    (do
      reSub (((((u! "(") ++ ListC) ++ (u! ")")) ++ GM.VedicSvaras) ++ Ya) ((u! "\\1\\2") ++ YYa)
      branch (pyIn Target [(u! "Assamese"), (u! "Bengali")])
        (do
          replace (vir ++ YYa) (vir ++ Ya)
          pure ())
        (do
          pure ())
      branch (pyEq Target (u! "Chakma"))
        (do
          replace (u! "𑄠𑄡") (u! "𑄠𑄠")
          replace (vir ++ YYa) ((u! "𑄳") ++ YYa)
          pure ())
        (do
          pure ())
      pure ())
    (do
      pure ())
  pure ()

/-- PostProcess.py:2869-2880 -/
def PostProcess.VaToBa (Target : PyStr) : Gen Unit := do
  let t1 ← crunchSymbols GM.Consonants Target
  let t2 ← index t1 28
  let va := t2
  let t3 ← crunchSymbols GM.Consonants Target
  let t4 ← index t3 22
  let ba := t4
  replace va ba
  pure ()

/-- PostProcess.py:2882-2886 -/
def PostProcess.tbadiff (Target : PyStr) : Gen Unit := do
  replace (u! "ৎব") (u! "ত্ব")
  pure ()

/-- PostProcess.py:2913-2924 -/
def PostProcess.RetainRomanNumerals (Target : PyStr) (reverse : Bool := false) : Gen Unit := do
  let t1 ← crunchList .NumeralMap Target
  let NativeNumerals := t1
  let t2 ← crunchList .NumeralMap (u! "ISO")
  let ArabicNumerals := t2
  branch (!reverse)
    (do
      forEach (pyZip ArabicNumerals NativeNumerals) fun (y, x) => do
        reSub ((u! "(?<!h)") ++ x) y
      pure ())
    (do
      forEach (pyZip NativeNumerals ArabicNumerals) fun (y, x) => do
        replace x y
      pure ())
  pure ()

/-- PostProcess.py:2926-2927 -/
def PostProcess.indicNumerals : Gen Unit := do
  pure ()

/-- PostProcess.py:2929-2930 -/
def PostProcess.romanFullStop : Gen Unit := do
  pure ()

/-- PostProcess.py:2932-2933 -/
def PostProcess.indicDandas : Gen Unit := do
  pure ()

end Verif
