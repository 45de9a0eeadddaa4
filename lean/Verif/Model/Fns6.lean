import Verif.Model.Crunch
import Verif.Model.Fns5

/-!
# Text functions of ConvertFix.py, PreProcess.py and PostProcess.py, part 6

Generated by tools/genfuncs.py, in dependency order, one definition per Python function and one
line per statement.
-/

set_option maxRecDepth 20000
set_option linter.unusedVariables false

namespace Verif

/-- PreProcess.py:1151-1154 -/
def PreProcess.ThaiOrthography : Gen Unit := do
  append (u! "ʻʻ")
  pure ()

/-- PreProcess.py:1156-1159 -/
def PreProcess.LaoTranscription : Gen Unit := do
  append (u! "ʻʻ")
  pure ()

/-- PreProcess.py:1161-1168 -/
def PreProcess.LimbuDevanagariConvention : Gen Unit := do
  replace (u! "ए़") (u! "ऎ")
  replace (u! "ओ़") (u! "ऒ")
  replace (u! "े़") (u! "ॆ")
  replace (u! "ो़") (u! "ॊ")
  replace (u! "ः") (u! "꞉")
  pure ()

/-- PreProcess.py:1170-1179 -/
def PreProcess.LimbuSpellingSaI : Gen Unit := do
  let t1 ← index (modAttr (u! "Limbu") .ViramaMap) 0
  let vir := t1
  let t3 ← pmap [0, 4, 15, 19, 20, 24, 26, 27] fun x => (do let t2 ← index (modAttr (u! "Limbu") .ConsonantMap) x; pure t2)
  let FCons := (t3.map fun x => (x ++ vir))
  let FinalCons := [(u! "ᤰ"), (u! "ᤱ"), (u! "ᤳ"), (u! "ᤴ"), (u! "ᤵ"), (u! "ᤶ"), (u! "ᤷ"), (u! "ᤸ")]
  forEach (pyZip FCons FinalCons) fun (x, y) => do
    replace x ((u! "᤺") ++ y)
  pure ()

/-- PreProcess.py:1182-1197 -/
def PreProcess.removeChillus : Gen Unit := do
  let Chillus := [(u! "ൺ"), (u! "ൻ"), (u! "ർ"), (u! "ൽ"), (u! "ൾ")]
  let t1 ← index (modAttr (u! "Malayalam") .ViramaMap) 0
  let vir := t1
  let t2 ← index (modAttr (u! "Malayalam") .ConsonantMap) 14
  let t3 ← index (modAttr (u! "Malayalam") .ConsonantMap) 19
  let t4 ← index (modAttr (u! "Malayalam") .ConsonantMap) 26
  let t5 ← index (modAttr (u! "Malayalam") .ConsonantMap) 27
  let t6 ← index (modAttr (u! "Malayalam") .SouthConsonantMap) 0
  let ConVir := [(t2 ++ vir), (t3 ++ vir), (t4 ++ vir), (t5 ++ vir), (t6 ++ vir)]
  forEach (pyZip Chillus ConVir) fun (x, y) => do
    replace x y
  pure ()

/-- PostProcess.py:3080-3090 -/
def PostProcess.SinhalaPali (reverse : Bool := false) : Gen Unit := do
  let EOLong := ((((pySlice (modAttr (u! "Sinhala") .VowelMap) (some 10) (some 11)) ++ (pySlice (modAttr (u! "Sinhala") .VowelMap) (some 12) (some 13))) ++ (pySlice (modAttr (u! "Sinhala") .VowelSignMap) (some 9) (some 10))) ++ (pySlice (modAttr (u! "Sinhala") .VowelSignMap) (some 11) (some 12)))
  let EOShort := ((modAttr (u! "Sinhala") .SouthVowelMap) ++ (modAttr (u! "Sinhala") .SouthVowelSignMap))
  forEach (pyZip EOLong EOShort) fun (x, y) => do
    branch (!reverse)
      (do
        replace x y
        pure ())
      (do
        replace y x
        pure ())
  pure ()

/-- PreProcess.py:1199-1202 -/
def PreProcess.SinhalaPali : Gen Unit := do
  PostProcess.SinhalaPali (reverse := true)
  pure ()

/-- PreProcess.py:1204-1207 -/
def PreProcess.IASTPali : Gen Unit := do
  replace (u! "ḷ") (u! "l̤")
  pure ()

/-- PreProcess.py:1209-1212 -/
def PreProcess.CyrillicPali : Gen Unit := do
  replace (u! "л̣") (u! "л̤")
  pure ()

/-- PreProcess.py:1214-1219 -/
def PreProcess.MalayalamPrakrit : Gen Unit := do
  PostProcess.ReverseGeminationSign (u! "Malayalam")
  replace (u! "ഀ") (u! "ം")
  pure ()

/-- PreProcess.py:1221-1227 -/
def PreProcess.GranthaPrakrit : Gen Unit := do
  PostProcess.ReverseGeminationSign (u! "Grantha")
  replace (u! "𑌀") (u! "𑌂")
  pure ()

/-- PreProcess.py:1229-1255 -/
def PreProcess.RomanPreFix (Source : PyStr) : Gen Unit := do
  let DepV := (u! "ṿ")
  let Asp := (u! "ʰ")
  let t1 ← crunchList .ViramaMap Source
  let t2 ← index t1 0
  let Vir := t2
  let t3 ← crunchList .NuktaMap Source
  let t4 ← index t3 0
  let Nuk := t4
  let t5 ← crunchSymbols [.VowelMap] Source
  let t6 ← index t5 0
  let VowelA := t6
  let t7 ← crunchSymbols GM.VowelSigns Source
  let ListV := (pyJoin (u! "|") t7)
  let t8 ← crunchSymbols GM.Consonants Source
  let ListC := (pyJoin (u! "|") t8)
  reSub ((((((((u! "(") ++ ListC) ++ (u! ")")) ++ (u! "(?!")) ++ ListV) ++ (u! "|")) ++ VowelA) ++ (u! ")")) (((u! "\\1") ++ DepV) ++ Vir)
  reSub ((((((((u! "(") ++ ListC) ++ (u! "|")) ++ Nuk) ++ (u! ")")) ++ (u! "(")) ++ ListV) ++ (u! ")")) (((u! "\\1") ++ DepV) ++ (u! "\\2"))
  reSub ((((((u! "(?<=") ++ ListC) ++ (u! ")")) ++ (u! "(")) ++ VowelA) ++ (u! ")")) (u! "")
  replace (((DepV ++ Vir) ++ Nuk) ++ VowelA) Nuk
  reSub (((((DepV ++ Vir) ++ Nuk) ++ (u! "(?=[")) ++ DepV) ++ (u! "])")) Nuk
  replace ((DepV ++ Vir) ++ Nuk) ((Nuk ++ DepV) ++ Vir)
  pure ()

/-- PreProcess.py:1257-1264 -/
def PreProcess.joinVowelCons (script : PyStr) : Gen Unit := do
  let t1 ← crunchSymbols GM.Consonants script
  let consonantsAll := (((u! "(") ++ (pyJoin (u! "|") (sortByLenDesc t1))) ++ (u! ")"))
  let t2 ← crunchSymbols GM.Vowels script
  let vowelsAll := (((u! "(") ++ (pyJoin (u! "|") (sortByLenDesc t2))) ++ (u! ")"))
  reSub ((consonantsAll ++ (u! " ")) ++ vowelsAll) (u! "\\1\\2")
  reSub ((consonantsAll ++ (u! " ")) ++ consonantsAll) (u! "\\1\\2")
  pure ()

/-- PreProcess.py:1266-1267 -/
def PreProcess.joinVowelConsIAST : Gen Unit := do
  PreProcess.joinVowelCons (u! "IAST")
  pure ()

/-- PreProcess.py:1269-1270 -/
def PreProcess.joinVowelConsISO : Gen Unit := do
  PreProcess.joinVowelCons (u! "ISO")
  pure ()

/-- PreProcess.py:1495-1666 -/
def PreProcess.normalize (Source : PyStr) : Gen Unit := do
  let nuktaDecom := [(u! "क़"), (u! "ख़"), (u! "ग़"), (u! "ज़"), (u! "ड़"), (u! "ढ़"), (u! "फ़"), (u! "य़"), (u! "ਲ਼"), (u! "ਸ਼"), (u! "ਖ਼"), (u! "ਗ਼"), (u! "ਜ਼"), (u! "ਫ਼"), (u! "ড়"), (u! "ঢ়"), (u! "য়"), (u! "ଡ଼"), (u! "ଢ଼")]
  let nuktaPrecom := [(u! "क़"), (u! "ख़"), (u! "ग़"), (u! "ज़"), (u! "ड़"), (u! "ढ़"), (u! "फ़"), (u! "य़"), (u! "ਲ਼"), (u! "ਸ਼"), (u! "ਖ਼"), (u! "ਗ਼"), (u! "ਜ਼"), (u! "ਫ਼"), (u! "ড়"), (u! "ঢ়"), (u! "য়"), (u! "ଡ଼"), (u! "ଢ଼")]
  branch (!(pyIn Source [(u! "Grantha"), (u! "TamilGrantha")]))
    (do
      forEach (pyZip nuktaDecom nuktaPrecom) fun (x, y) => do
        replace x y
      pure ())
    (do
      pure ())
  branch (pyIn Source [(u! "IAST"), (u! "ISO"), (u! "ISOPali"), (u! "Titus"), (u! "IASTPali")])
    (do
      replace (u! "ü") (u! "uʼ")
      replace (u! "ǖ") (u! "ūʼ")
      replace (u! "ö") (u! "aʼ")
      replace (u! "ȫ") (u! "āʼ")
      pure ())
    (do
      pure ())
  branch ((pyIn Source [(u! "IAST"), (u! "ISO"), (u! "ISOPali"), (u! "IASTPali"), (u! "Titus")]) || (pyIn (u! "RomanLoC") Source))
    (do
      host .nfc
      replace (u! "ẗ") (u! "ẗ")
      replace (u! "ÿ") (u! "ÿ")
      replace (u! "ḧ") (u! "ḧ")
      branch (pyIn (u! "RomanLoC") Source)
        (do
          replace (u! "˙") (u! "˚")
          pure ())
        (do
          pure ())
      pure ())
    (do
      pure ())
  branch ((pyEq Source (u! "Arab-Ur")) || (pyEq Source (u! "Arab-Pa")))
    (do
      replace (u! "ك") (u! "ک")
      replace (u! "ي") (u! "ی")
      pure ())
    (do
      pure ())
  branch (pyEq Source (u! "Hebr"))
    (do
      let vowels := [(u! "ְ"), (u! "ֱ"), (u! "ֲ"), (u! "ֳ"), (u! "ִ"), (u! "ֵ"), (u! "ֶ"), (u! "ַ"), (u! "ָ"), (u! "ֹ"), (u! "ֺ"), (u! "ֻ"), (u! "ׇ")]
      let vowelsR := (((u! "(") ++ (pyJoin (u! "|") (vowels ++ [(u! "וֹ"), (u! "וּ")]))) ++ (u! ")"))
      reSub (vowelsR ++ (u! "([ּׁׂ])")) (u! "\\2\\1")
      replace (u! "ְּׁ") (u! "ְּׁ")
      pure ())
    (do
      pure ())
  let chilluZwj := [(u! "ണ്\u200d"), (u! "ന്\u200d"), (u! "ര്\u200d"), (u! "ല്\u200d"), (u! "ള്\u200d"), (u! "ക്\u200d")]
  let chilluAtom := [(u! "ൺ"), (u! "ൻ"), (u! "ർ"), (u! "ൽ"), (u! "ൾ"), (u! "ൿ")]
  forEach (pyZip chilluZwj chilluAtom) fun (x, y) => do
    replace x y
  replace (u! "ൌ") (u! "ൗ")
  replace (u! "ൟ") (u! "ഈ")
  replace (u! "ൎ") (u! "ര്")
  replace (u! "ൻ്റ") (u! "ന്റ")
  replace (u! "ೝ") (u! "ನ್")
  replace (u! "ౝ") (u! "న్")
  let tamAlt := [(u! "ஸ்ரீ"), (u! "க்\u200cஷ"), (u! "ர\u200cி"), (u! "ர\u200cீ")]
  let tamNorm := [(u! "ஶ்ரீ"), (u! "க்ஷ"), (u! "ரி"), (u! "ரீ")]
  replace (u! "ဿ") (u! "သ္သ")
  let subNum := [(u! "¹"), (u! "₁"), (u! "₂"), (u! "₃"), (u! "₄")]
  let supNum := [(u! ""), (u! ""), (u! "²"), (u! "³"), (u! "⁴")]
  forEach (pyZip (tamAlt ++ subNum) (tamNorm ++ supNum)) fun (x, y) => do
    replace x y
  let oldVow := [(u! "ྲྀ"), (u! "ཷ"), (u! "ླྀ"), (u! "ཹ"), (u! "ཱི"), (u! "ཱུ"), (u! "ཀྵ"), (u! "ྐྵ")]
  let newVow := [(u! "ྲྀ"), (u! "ྲཱྀ"), (u! "ླྀ"), (u! "ླཱྀ"), (u! "ཱི"), (u! "ཱུ"), (u! "ཀྵ"), (u! "ྐྵ")]
  forEach (pyZip oldVow newVow) fun (x, y) => do
    replace x y
  let latinDecom := [(u! "ā"), (u! "ī"), (u! "ū"), (u! "ē"), (u! "ō"), (u! "ṃ"), (u! "ṁ"), (u! "ḥ"), (u! "ś"), (u! "ṣ"), (u! "ṇ"), (u! "ṛ"), (u! "ṝ"), (u! "ḷ"), (u! "ḹ"), (u! "ḻ"), (u! "ṉ"), (u! "ṟ")]
  let latinPrecom := [(u! "ā"), (u! "ī"), (u! "ū"), (u! "ē"), (u! "ō"), (u! "ṃ"), (u! "ṁ"), (u! "ḥ"), (u! "ś"), (u! "ṣ"), (u! "ṇ"), (u! "ṛ"), (u! "ṝ"), (u! "ḷ"), (u! "ḹ"), (u! "ḻ"), (u! "ṉ"), (u! "ṟ")]
  forEach (pyZip latinDecom latinPrecom) fun (x, y) => do
    replace x y
  replace (u! "ํา") (u! "ำ")
  replace (u! "ໍາ") (u! "ຳ")
  replace (u! "।।") (u! "॥")
  replace (u! "ᤠ᤺ᤣ") (u! "ᤠᤣ᤺")
  replace (u! "᤺ᤣ") (u! "ᤣ᤺")
  replace (u! "ᤠᤣ") (u! "ᤥ")
  replace (u! "ฎ") (u! "ฏ")
  replace (u! "𑍌") (u! "𑍗")
  replace (u! "ྂ") (u! "ྃ")
  replace (u! "ॲ") (u! "ऍ")
  replace (u! "ো") (u! "ো")
  replace (u! "াে") (u! "ো")
  replace (u! "ৌ") (u! "ৌ")
  replace (u! "ৗে") (u! "ৌ")
  replace (u! "ொ") (u! "ொ")
  replace (u! "ாெ") (u! "ொ")
  replace (u! "ோ") (u! "ோ")
  replace (u! "ாே") (u! "ோ")
  replace (u! "ௌ") (u! "ௌ")
  replace (u! "ௗெ") (u! "ௌ")
  replace (u! "ൊ") (u! "ൊ")
  replace (u! "ാെ") (u! "ൊ")
  replace (u! "ോ") (u! "ോ")
  replace (u! "ാേ") (u! "ോ")
  replace (u! "𑍋") (u! "𑍋")
  replace (u! "𑌾𑍇") (u! "𑍋")
  pure ()

/-- PreProcess.py:1272-1402 -/
def PreProcess.PreProcess (Source : PyStr) (Target : PyStr) (postoptions : List PyStr) (preoptions : List PyStr) : Gen Unit := do
  branch ((pyIn Source GM.RomanDiacritic) || (pyEq Source (u! "Latn")))
    (do
      host .lower
      pure ())
    (do
      pure ())
  branch (pyIn Source GM.pipeScripts)
    (do
      whenDyn (.has (u! "|"))
        (do
          replace (u! ".") (u! "●")
          replace (u! "।") (u! "|")
          replace (u! "॥") (u! "||")
          replace (u! "|") (u! ".")
          replace (u! "||") (u! "..")
          pure ())
        (do
          pure ())
      branch (pyEq Source (u! "Itrans"))
        (do
          reSub (u! "●([acCDN])") ((u! ".") ++ (u! "\\1"))
          pure ())
        (do
          branch (pyEq Source (u! "Velthuis"))
            (do
              reSub (u! "●([rRlLmhtdnTDsyg])") ((u! ".") ++ (u! "\\1"))
              reSub (u! "●●([lr])") ((u! ".") ++ (u! "\\1"))
              pure ())
            (do
              pure ())
          pure ())
      pure ())
    (do
      pure ())
  branch (pyIn (u! "Arab") Source)
    (do
      reSub (u! "([وي])(?=[ًٌٍَُِّ])") ((u! "˞") ++ (u! "\\1"))
      pure ())
    (do
      pure ())
  branch (pyIn Source [(u! "Syrj"), (u! "Syrn")])
    (do
      replace (u! "̣") (u! "݂")
      pure ())
    (do
      pure ())
  branch (pyEq Source (u! "Itrans"))
    (do
      let sOm := (u! "OM")
      let tOm := (u! "oM")
      let t1 ← crunchSymbols GM.Signs Source
      let punc := (((u! "(") ++ (pyJoin (u! "|") ((((pyList string_punctuation).map fun x => ((u! "\\") ++ x)) ++ [(u! "\\s")]) ++ ((pySlice t1 (some 1) (some 3)).map fun x => (pyReplace x (u! ".") (u! "\\.")))))) ++ (u! ")"))
      reSub ((punc ++ sOm) ++ punc) (((u! "\\1") ++ tOm) ++ (u! "\\2"))
      reSub (((u! "^") ++ sOm) ++ punc) (tOm ++ (u! "\\1"))
      reSub ((punc ++ sOm) ++ (u! "$")) ((u! "\\1") ++ tOm)
      reSub (((u! "^") ++ sOm) ++ (u! "$")) tOm
      let punc := (u! "(\\s)")
      reSub ((punc ++ sOm) ++ punc) (((u! "\\1") ++ tOm) ++ (u! "\\2"))
      reSub (((u! "^") ++ sOm) ++ punc) (tOm ++ (u! "\\1"))
      reSub ((punc ++ sOm) ++ (u! "$")) ((u! "\\1") ++ tOm)
      reSub (((u! "^") ++ sOm) ++ (u! "$")) tOm
      reSub (u! "([aAiuUeoEO])([R]){2}([iI])") (((((u! "\\1") ++ (u! "\\2")) ++ (u! "_")) ++ (u! "\\2")) ++ (u! "\\3"))
      reSub (u! "([aAiuUeoEO])([L]){2}([iI])") (((((u! "\\1") ++ (u! "\\2")) ++ (u! "_")) ++ (u! "\\2")) ++ (u! "\\3"))
      let AltForm := [(u! "O"), (u! "aa"), (u! "ii"), (u! "uu"), (u! "RRi"), (u! "RRI"), (u! "LLi"), (u! "LLI"), (u! "N^"), (u! "JN"), (u! "chh"), (u! "shh"), (u! "x"), (u! "GY"), (u! ".n"), (u! ".m"), (u! ".h"), (u! "AUM"), (u! "E"), (u! "J"), (u! "c.o"), (u! "c.e")]
      let NormForm := [(u! "^o"), (u! "A"), (u! "I"), (u! "U"), (u! "R^i"), (u! "R^I"), (u! "L^i"), (u! "L^I"), (u! "~N"), (u! "~n"), (u! "Ch"), (u! "Sh"), (u! "kSh"), (u! "j~n"), (u! "M"), (u! "M"), (u! ""), (u! "oM"), (u! "^e"), (u! "z"), (u! "A.c"), (u! "e.c")]
      forEach (pyZip AltForm NormForm) fun (x, y) => do
        replace x y
      let AltForms := [((u! "ee"), (u! "I")), ((u! "dny"), (u! "j~n")), ((u! "oo"), (u! "U")), ((u! "kS"), (u! "kSh")), ((u! "w"), (u! "v")), ((u! "|"), (u! ".")), ((u! "kShh"), (u! "kSh"))]
      forEach AltForms fun (x, y) => do
        replace x y
      replace (u! "OM") (u! "oM")
      pure ())
    (do
      pure ())
  branch ((pyEq Source (u! "BarahaNorth")) || (pyEq Source (u! "BarahaSouth")))
    (do
      let alt_baraha := [((u! "A"), (u! "aa")), ((u! "I"), (u! "ee")), ((u! "U"), (u! "oo")), ((u! "~loo"), (u! "~lU")), ((u! "Roo"), (u! "RU")), ((u! "ou"), (u! "au")), ((u! "K"), (u! "kh")), ((u! "G"), (u! "gh")), ((u! "ch"), (u! "c")), ((u! "Ch"), (u! "C")), ((u! "J"), (u! "jh")), ((u! "P"), (u! "ph")), ((u! "B"), (u! "bh")), ((u! "w"), (u! "v")), ((u! "sh"), (u! "S")), ((u! "~h"), (u! "_h")), ((u! "Y"), (u! "yx")), ((u! "^^"), (u! "{}")), ((u! "^"), (u! "()")), ((u! "tx"), (u! "rx")), ((u! "zh"), (u! "Lx")), ((u! "~e"), (u! "~a")), ((u! "q"), (u! "\\_")), ((u! "#"), (u! "\\'")), ((u! "$"), (u! "\\\""))]
      forEach alt_baraha fun (alt, norm) => do
        replace alt norm
      branch (pyEq Target (u! "Tamil"))
        (do
          replace (u! "n") (u! "nx")
          replace (u! "~nx") (u! "n")
          pure ())
        (do
          pure ())
      pure ())
    (do
      pure ())
  branch (pyIn (u! "IAST") Source)
    (do
      replace (u! "aï") (u! "a_i")
      replace (u! "aü") (u! "a_u")
      replace (u! "̃") (u! "ṃ")
      pure ())
    (do
      pure ())
  branch (pyIn (u! "ISO") Source)
    (do
      replace (u! "a:i") (u! "a_i")
      replace (u! "a:u") (u! "a_u")
      replace (u! "̃") (u! "ṁ")
      replace (u! "ṃ") (u! "ṁ")
      pure ())
    (do
      pure ())
  branch ((pyEq Source (u! "ISO")) || (pyEq Source (u! "IAST")) || (pyEq Source (u! "Titus")) || true /- `or "RussianCyrillic"` is truthy -/)
    (do
      ConvertFix.VedicSvarasNonDiacritic
      pure ())
    (do
      pure ())
  branch ((pyEq Source (u! "Latn")) && (pyIn (u! "Syr") Target))
    (do
      replace (u! "ḇ") (u! "v")
      replace (u! "ḡ") (u! "ḡ")
      replace (u! "ḵ") (u! "ḫ")
      replace (u! "p̄") (u! "f")
      pure ())
    (do
      pure ())
  whenDyn (.and (.or (.has (u! "↓")) (.has (u! "↑"))) (.static (pyIn Target GM.IndicScripts)))
    (do
      replace (u! "↓") (u! "॒")
      replace (u! "↑↑") (u! "᳚")
      replace (u! "↑") (u! "॑")
      pure ())
    (do
      pure ())
  whenDyn (.and (.or (.has (u! "↓")) (.has (u! "↑"))) (.static (pyIn Target GM.LatinScripts)))
    (do
      replace (u! "↓") (u! "\\_")
      replace (u! "↑↑") (u! "\\\"")
      replace (u! "↑") (u! "\\'")
      pure ())
    (do
      pure ())
  branch (pyEq Source (u! "WarangCiti"))
    (do
      replace (u! "\u200d") (u! "×")
      pure ())
    (do
      pure ())
  branch (pyEq Source (u! "Hebr-Ar"))
    (do
      let dot_var := [((u! "עׄ"), (u! "ג")), ((u! "תׄ"), (u! "ת֒")), ((u! "ת"), (u! "ת̈")), ((u! "ק"), (u! "ק̈"))]
      forEach dot_var fun (char, char_var) => do
        replace char_var char
      pure ())
    (do
      pure ())
  PreProcess.normalize Source
  branch ((pyIn Source GM.IndicScripts) && (pyIn Target GM.Transliteration))
    (do
      let udatta := (u! "॑")
      let t2 ← crunchList .SignMap Source
      let t3 ← index t2 0
      let avagrahaSrc := t3
      let t4 ← crunchList .SignMap Target
      let t5 ← index t4 0
      let avagrahaTgt := t5
      branch (pyEq avagrahaTgt (u! "'"))
        (do
          replace (udatta ++ avagrahaSrc) ((udatta ++ (u! "\u200b")) ++ avagrahaSrc)
          pure ())
        (do
          pure ())
      pure ())
    (do
      pure ())
  pure ()

/-- PreProcess.py:1404-1407 -/
def PreProcess.ISO259Target : Gen Unit := do
  replace (u! "א") (u! "ʾ")
  replace (u! "׳") (u! "’")
  pure ()

/-- PreProcess.py:1409-1415 -/
def PreProcess.ISO233Target : Gen Unit := do
  let replacements := [((u! "أ"), (u! "ˈʾ")), ((u! "ء"), (u! "¦")), ((u! "إ"), (u! "ˌʾ"))]
  forEach replacements fun (x, y) => do
    replace x y
  pure ()

/-- PreProcess.py:1417-1423 -/
def PreProcess.PersianDMGTarget : Gen Unit := do
  let replacements := [((u! "ا"), (u! "ʾ"))]
  forEach replacements fun (x, y) => do
    replace x y
  pure ()

/-- PreProcess.py:1425-1437 -/
def PreProcess.ISO233Source : Gen Unit := do
  let replacements := [((u! "أ"), (u! "ˈʾ")), ((u! "ء"), (u! "¦")), ((u! "إ"), (u! "ˌʾ"))]
  forEach replacements fun (x, y) => do
    replace y x
  let replacements := [((u! "j"), (u! "ǧ")), ((u! "g"), (u! "ǧ")), ((u! "ḧ"), (u! "ẗ")), ((u! "ḫ"), (u! "ẖ")), ((u! "a̮"), (u! "ỳ")), ((u! "aⁿ"), (u! "á")), ((u! "iⁿ"), (u! "í")), ((u! "uⁿ"), (u! "ú")), ((u! "ā̂"), (u! "ʾâ")), ((u! "ˀ"), (u! "ˈ"))]
  forEach replacements fun (x, y) => do
    replace y x
  pure ()

/-- PreProcess.py:1439-1442 -/
def PreProcess.HebrewSBLTarget : Gen Unit := do
  replace (u! "א") (u! "ʾ")
  replace (u! "׳") (u! "’")
  pure ()

/-- PreProcess.py:1444-1458 -/
def PreProcess.HebrewSBLSource : Gen Unit := do
  replace (u! "ʾ") (u! "א")
  replace (u! "’") (u! "׳")
  replace (u! "̇°") (u! "°̇")
  let replacements := [((u! "v"), (u! "ḇ")), ((u! "f"), (u! "p̄")), ((u! "d꞉"), (u! "d")), ((u! "d"), (u! "ḏ")), ((u! "g꞉"), (u! "g")), ((u! "g"), (u! "ḡ")), ((u! "t꞉"), (u! "t")), ((u! "t"), (u! "ṯ")), ((u! "š̮"), (u! "š")), ((u! "š̪"), (u! "ś")), ((u! "o"), (u! "ō")), ((u! "ō"), (u! "ô")), ((u! "ū"), (u! "û")), ((u! "̽"), (u! "ĕ"))]
  forEach replacements fun (x, y) => do
    replace y x
  pure ()

/-- PreProcess.py:1460-1476 -/
def PreProcess.ISO259Source : Gen Unit := do
  replace (u! "ʾ") (u! "א")
  replace (u! "’") (u! "׳")
  replace (u! "̇°") (u! "°̇")
  let replacements := [((u! "ḵ"), (u! "k")), ((u! "v"), (u! "b")), ((u! "f"), (u! "p")), ((u! "b"), (u! "ḃ")), ((u! "p"), (u! "ṗ")), ((u! "k"), (u! "k̇")), ((u! "꞉"), (u! "̇")), ((u! "š̮"), (u! "š")), ((u! "š"), (u! "s̀")), ((u! "š̪"), (u! "ś")), ((u! "ā"), (u! "å")), ((u! "e"), (u! "ȩ")), ((u! "ō"), (u! "ŵ")), ((u! "ū"), (u! "ẇ")), ((u! "̽"), (u! "°")), ((u! "ĕ"), (u! "ḝ"))]
  forEach replacements fun (x, y) => do
    replace y x
  host .nfd
  replace (u! "̇") (u! "꞉")
  host .nfc
  pure ()

/-- PreProcess.py:1478-1480 -/
def PreProcess.UnSupThaana : Gen Unit := do
  pure ()

/-- PreProcess.py:1482-1486 -/
def PreProcess.RemoveJoiners : Gen Unit := do
  replace (u! "\u200d") (u! "")
  replace (u! "\u200c") (u! "")
  pure ()

/-- PreProcess.py:1488-1491 -/
def PreProcess.ArabicGimelJa : Gen Unit := do
  replace (u! "ج") (u! "ڨ")
  pure ()

/-- PreProcess.py:1669-1672: `str.replace` with one argument raises `TypeError`. -/
def PreProcess.removeZW : Gen Unit := fail .typeError

/-- PreProcess.py:1674-1693 -/
def PreProcess.PhagsPaArrange (Source : PyStr) : Gen Unit := do
  branch (pyIn Source GM.IndicScripts)
    (do
      let t1 ← crunchSymbols GM.Consonants Source
      let ListC := (pyJoin (u! "|") (sortByLenDesc t1))
      let t2 ← crunchSymbols GM.Vowels Source
      let ListV := (pyJoin (u! "|") (sortByLenDesc t2))
      let t3 ← crunchSymbols GM.VowelSignsNV Source
      let ListVS := (pyJoin (u! "|") (sortByLenDesc t3))
      let t4 ← crunchSymbols GM.CombiningSigns Source
      let ListCS := (pyJoin (u! "|") (sortByLenDesc t4))
      let t5 ← crunchSymbols GM.VowelSigns Source
      let t6 ← index t5 0
      let vir := t6
      let t9 ← pmap [25, 26, 28] fun i => (do let t7 ← crunchSymbols GM.Consonants Source; let t8 ← index t7 i; pure t8)
      let yrv := (pyJoin (u! "|") t9)
      reSub (((((((((((((((((u! "(") ++ ListC) ++ (u! ")")) ++ (u! "(")) ++ vir) ++ (u! ")")) ++ (u! "(")) ++ yrv) ++ (u! ")")) ++ (u! "(")) ++ (u! "(")) ++ ListVS) ++ (u! ")?")) ++ (u! "(")) ++ ListCS) ++ (u! ")?")) ++ (u! ")")) (u! " \\1\\2\\3\\4")
      reSub (((((((((((((((((((u! "(") ++ ListC) ++ ListV) ++ (u! ")")) ++ (u! "(")) ++ (u! "(")) ++ ListVS) ++ (u! ")?")) ++ (u! "(")) ++ ListCS) ++ (u! ")?")) ++ (u! ")")) ++ (u! "(")) ++ ListC) ++ (u! ")")) ++ (u! "(")) ++ vir) ++ (u! ")")) ++ (u! "(?!\\s)")) (u! "\\1\\2\\5\\6 ")
      reSub ((((((((((((((((((u! "(") ++ ListC) ++ ListV) ++ (u! ")")) ++ (u! "(")) ++ (u! "(")) ++ ListVS) ++ (u! ")?")) ++ (u! "(")) ++ ListCS) ++ (u! ")?")) ++ (u! ")")) ++ (u! "(")) ++ ListC) ++ (u! ")")) ++ (u! "(?!")) ++ vir) ++ (u! ")")) (u! "\\1\\2 \\5")
      reSub ((((((((((((((((((u! "(") ++ ListC) ++ ListV) ++ (u! ")")) ++ (u! "(")) ++ (u! "(")) ++ ListVS) ++ (u! ")?")) ++ (u! "(")) ++ ListCS) ++ (u! ")?")) ++ (u! ")")) ++ (u! "(")) ++ ListC) ++ (u! ")")) ++ (u! "(?!")) ++ vir) ++ (u! ")")) (u! "\\1\\2 \\5")
      pure ())
    (do
      pure ())
  pure ()

/-- PreProcess.py:1695-1778 -/
def PreProcess.TamilTranscribeCommon (c : Int := 31) : Gen Unit := do
  let script := (u! "Tamil")
  let t1 ← crunchList .ConsonantMap script
  let ListC := t1
  let t2 ← crunchList .SouthConsonantMap script
  let ListSC := t2
  let t3 ← crunchSymbols GM.VowelSigns script
  let t4 ← index t3 0
  let vir := t4
  let t6 ← pmap [0, 5, 10, 15, 20] fun x => (do let t5 ← index ListC x; pure t5)
  let ConUnVoiced := t6
  let t8 ← pmap [2, 7, 12, 17, 22] fun x => (do let t7 ← index ListC x; pure t7)
  let ConVoicedJ := t8
  let t10 ← pmap [2, 31, 12, 17, 22] fun x => (do let t9 ← index ListC x; pure t9)
  let ConVoicedS := t10
  let t12 ← pmap [4, 9, 14, 19, 24] fun x => (do let t11 ← index ListC x; pure t11)
  let ConNasalsAll := (pyJoin (u! "|") t12)
  let t14 ← pmap [9] fun x => (do let t13 ← index ListC x; pure t13)
  let conNasalCa := (pyJoin (u! "|") t14)
  let ConNasalsGroup := [ConNasalsAll, conNasalCa, ConNasalsAll, ConNasalsAll, ConNasalsAll]
  let ConMedials := (pyJoin (u! "|") (((pySlice ListC (some 25) (some 28)) ++ (pySlice ListSC (some 0) (some 2))) ++ (pySlice ListSC (some 3) (some 4))))
  let t15 ← crunchSymbols (GM.Vowels ++ GM.VowelSignsNV) script
  let Vowels := (pyJoin (u! "|") t15)
  let t16 ← crunchList .Aytham script
  let t17 ← index t16 0
  let Aytham := t17
  let t18 ← crunchSymbols GM.Consonants script
  let Consonants := (pyJoin (u! "|") t18)
  let t19 ← index ListSC 3
  let t20 ← index ListSC 2
  let NRA := ((t19 ++ vir) ++ t20)
  let t21 ← index ListC 14
  let t22 ← index ListC 12
  let t23 ← index ListC 26
  let NDRA := ((((t21 ++ vir) ++ t22) ++ vir) ++ t23)
  forEach (List.range (ConUnVoiced).length) fun i => do
    let t24 ← index ConUnVoiced i
    let t25 ← index ConVoicedS i
    reSub (((((((((((u! "(") ++ Vowels) ++ (u! "|")) ++ Consonants) ++ (u! "|")) ++ Aytham) ++ (u! ")")) ++ t24) ++ (u! "(?!")) ++ vir) ++ (u! ")")) ((u! "\\1") ++ t25)
    let t26 ← index ConUnVoiced i
    let t27 ← index ConVoicedS i
    reSub (((((u! "([³])") ++ t26) ++ (u! "(?!")) ++ vir) ++ (u! ")")) ((u! "\\1") ++ t27)
    reSub (u! "³+") (u! "³")
    let t28 ← index ConNasalsGroup i
    let t29 ← index ConUnVoiced i
    let t30 ← index ConVoicedJ i
    reSub (((((((u! "(") ++ t28) ++ (u! ")")) ++ (u! "(")) ++ vir) ++ (u! ")")) ++ t29) ((u! "\\1\\2") ++ t30)
    let t31 ← index ConUnVoiced i
    let t32 ← index ConVoicedS i
    reSub ((((((((((u! "(") ++ ConMedials) ++ (u! ")")) ++ (u! "(")) ++ vir) ++ (u! ")")) ++ t31) ++ (u! "(?!")) ++ vir) ++ (u! ")")) ((u! "\\1\\2") ++ t32)
  replace NRA NDRA
  let t33 ← index ListC 5
  let t34 ← index ListSC 2
  let t35 ← index ListC 5
  let t36 ← index ListC c
  reSub ((((((((((((((u! "(?<!") ++ (u! "(")) ++ t33) ++ (u! "|")) ++ t34) ++ (u! "|")) ++ (u! "ட")) ++ (u! ")")) ++ vir) ++ (u! ")")) ++ t35) ++ (u! "(?!")) ++ vir) ++ (u! ")")) t36
  let punct := ((pyJoin (u! "|") ((pyList (pyReplace (pyReplace string_punctuation (u! ".") (u! "")) (u! "?") (u! ""))).map fun x => ((u! "\\") ++ x))) ++ (u! "|\\s"))
  let t37 ← index ListC 5
  let t38 ← index ListC c
  let t39 ← index ListC 5
  reSub ((((((((((u! "(") ++ t37) ++ vir) ++ (u! ")")) ++ (u! "((")) ++ punct) ++ (u! ")+)")) ++ (u! "(")) ++ t38) ++ (u! ")")) ((u! "\\1\\2") ++ t39)
  let t40 ← index ListC 9
  let t41 ← index ListC c
  let t42 ← index ListC 7
  reSub ((((((((((u! "(") ++ t40) ++ vir) ++ (u! ")")) ++ (u! "((")) ++ punct) ++ (u! ")+)")) ++ (u! "(")) ++ t41) ++ (u! ")")) ((u! "\\1\\2") ++ t42)
  let t43 ← index ListC 4
  let t44 ← index ListC 0
  let t45 ← index ListC 2
  reSub ((((((((((u! "(") ++ t43) ++ vir) ++ (u! ")")) ++ (u! "((")) ++ punct) ++ (u! ")+)")) ++ (u! "(")) ++ t44) ++ (u! ")")) ((u! "\\1\\2") ++ t45)
  let t46 ← index ListC 14
  let t47 ← index ListC 10
  let t48 ← index ListC 12
  reSub ((((((((((u! "(") ++ t46) ++ vir) ++ (u! ")")) ++ (u! "((")) ++ punct) ++ (u! ")+)")) ++ (u! "(")) ++ t47) ++ (u! ")")) ((u! "\\1\\2") ++ t48)
  let t49 ← index ListC 19
  let t50 ← index ListC 15
  let t51 ← index ListC 17
  reSub ((((((((((u! "(") ++ t49) ++ vir) ++ (u! ")")) ++ (u! "((")) ++ punct) ++ (u! ")+)")) ++ (u! "(")) ++ t50) ++ (u! ")")) ((u! "\\1\\2") ++ t51)
  let t52 ← index (modAttr (u! "Tamil") .Aytham) 0
  let t53 ← index ListC 0
  let t54 ← index ListC 32
  let t55 ← index ListC 32
  replace (t52 ++ t53) ((t54 ++ vir) ++ t55)
  let t56 ← index (modAttr (u! "Tamil") .Aytham) 0
  let t57 ← index ListC 32
  replace t56 (t57 ++ vir)
  let t58 ← index ListSC 2
  let t59 ← index ListSC 2
  let t60 ← index ListC 10
  let t61 ← index ListC 26
  reSub ((t58 ++ vir) ++ t59) ((t60 ++ vir) ++ t61)
  let t62 ← index ListC 10
  let t63 ← index ListSC 2
  let t64 ← index ListC c
  let t65 ← index ListC 5
  reSub (((((((((((u! "(") ++ (u! "[")) ++ t62) ++ t63) ++ (u! "]")) ++ vir) ++ (u! ")")) ++ (u! "(\\s)")) ++ (u! "(")) ++ t64) ++ (u! ")")) ((u! "\\1\\2") ++ t65)
  let t66 ← index ListSC 3
  let t67 ← index ListC 19
  replace t66 t67
  pure ()

/-- PreProcess.py:1780-1783 -/
def PreProcess.TamilTranscribe : Gen Unit := do
  PreProcess.TamilTranscribeCommon
  pure ()

/-- PreProcess.py:1785-1788 -/
def PreProcess.TamilTranscribeDialect : Gen Unit := do
  PreProcess.TamilTranscribeCommon (c := 29)
  pure ()

/-- PreProcess.py:1790-1794: returns `None`, so the next operation on the text raises
`AttributeError` (simplification: raised here). -/
def PreProcess.IPAIndic : Gen Unit := fail .attributeError

/-- PostProcess.py:20-24 -/
def PostProcess.default (langage : PyStr := (u! "")) : Gen Unit := do
  replace (u! "") (u! "")
  replace (u! "׌") (u! "")
  replace (u! "ʻʻ") (u! "")
  replace (u! "׍") (u! "")
  replace (u! "˂") (u! "")
  pure ()

/-- PostProcess.py:28-47 -/
def PostProcess.defaultPost (src : PyStr) (tgt : PyStr) (nativize : Bool) (preoptions : List PyStr) (postoptions : List PyStr) : Gen Unit := do
  replace (u! "\u034f") (u! "")
  branch (pyIn (u! "romanNumerals") postoptions)
    (do
      PostProcess.RetainIndicNumerals tgt (reverse := true)
      pure ())
    (do
      pure ())
  branch (pyIn (u! "indicNumerals") postoptions)
    (do
      PostProcess.RetainIndicNumerals tgt (reverse := false)
      pure ())
    (do
      pure ())
  branch (pyIn (u! "romanFullStop") postoptions)
    (do
      PostProcess.RetainDandasIndic tgt (reverse := true)
      pure ())
    (do
      pure ())
  branch (!(pyIn tgt GM.Transliteration))
    (do
      replace (u! "│") (u! "।")
      replace (u! "┃") (u! "॥")
      pure ())
    (do
      replace (u! "│") (u! "|")
      replace (u! "┃") (u! "||")
      pure ())
  replace (u! "●") (u! ".")
  pure ()

/-- PostProcess.py:57-61 -/
def PostProcess.KhojkiRRI : Gen Unit := do
  replace (u! "𑉁") (u! "𑈵𑈦𑈭")
  replace (u! "𑉀") (u! "𑈂")
  pure ()

/-- PostProcess.py:63-66 -/
def PostProcess.KhojkiQa : Gen Unit := do
  replace (u! "𑈈𑈶") (u! "𑈿")
  pure ()

/-- PostProcess.py:68-75 -/
def PostProcess.removePaliAhom : Gen Unit := do
  let pali := (pySplit (u! "𑝁 𑝂 𑝃 𑝄 𑝅 𑝆") (u! " "))
  let nonPali := (pySplit (u! "𑜄 𑜌 𑜓 𑜔 𑜃 𑜎") (u! " "))
  forEach (pyZip pali nonPali) fun (p, np) => do
    replace p np
  pure ()

/-- PostProcess.py:77-80 -/
def PostProcess.SinhalaChandrbinduAnusvara : Gen Unit := do
  replace (u! "ඁ") (u! "ං")
  pure ()

/-- PostProcess.py:82-86 -/
def PostProcess.LoCMarc8 : Gen Unit := do
  host .nfd
  replace (u! "˚") (u! "˙")
  pure ()

end Verif
