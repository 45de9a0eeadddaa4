import Verif.Model.Crunch
import Verif.Model.Fns3

/-!
# Text functions of ConvertFix.py, PreProcess.py and PostProcess.py, part 4

Generated by tools/genfuncs.py, in dependency order, one definition per Python function and one
line per statement.
-/

set_option maxRecDepth 20000
set_option linter.unusedVariables false

namespace Verif

/-- PreProcess.py:161-163 -/
def PreProcess.RetainDevangariDanda : Gen Unit := do
  replace (u! "।") (u! "│")
  replace (u! "॥") (u! "┃")
  pure ()

/-- PreProcess.py:165-170 -/
def PreProcess.RetainPipeDanda (src : PyStr) : Gen Unit := do
  replace (u! "।") (u! "|")
  replace (u! "॥") (u! "||")
  replace (u! ".") (u! "●")
  replace (u! "||") (u! "┃")
  replace (u! "|") (u! "│")
  pure ()

/-- PreProcess.py:173-200 -/
def PreProcess.ThamLoCRomanLoCTarget : Gen Unit := do
  let t1 ← crunchSymbols GM.Consonants (u! "ThamLoC")
  let ListC := (pyJoin (u! "|") t1)
  replace (u! "ᩮᩣ") (u! "ᩰ")
  reSub (u! "ᩴ᩠ᨿ") (u! "ᩴ᩿ᨿ")
  reSub (u! "ᩱ᩠ᨿ") (u! "ᩱ᩿ᨿ")
  reSub (u! "᩠ᩅᩭ") (u! "᩿ᩅᩭ")
  reSub (u! "᩠ᩅᩫ") (u! "᩿ᩅᩫ")
  reSub (((u! "(᩠)(ᨿ|ᩅ)(?=(") ++ ListC) ++ (u! "))")) ((u! "᩿") ++ (u! "\\2"))
  replace (u! "᩼") (u! "᩺")
  replace (u! "᩺") (u! "᩺ʻ")
  pure ()

/-- PreProcess.py:202-211 -/
def PreProcess.ThamLoCRomanLoCSource : Gen Unit := do
  let t1 ← crunchSymbols GM.Consonants (u! "ThamLoCRomanLoC")
  let ListC := (pyJoin (u! "|") t1)
  let t2 ← crunchSymbols GM.Vowels (u! "ThamLoCRomanLoC")
  let ListV := (pyJoin (u! "|") t2)
  reSub (((u! "(a|ǫḥ|ǫ|œ|ò)(?=(") ++ ListC) ++ (u! "))")) (u! "\\1ʽ")
  replace (u! "ʻ") (u! "a᩺")
  pure ()

/-- PreProcess.py:213-222 (third-party word splitter: not modelled) -/
def PreProcess.KhmerWordSplit : Gen Unit := host .khmerSplit

/-- PreProcess.py:224-251 -/
def PreProcess.KhmerLoCRomanLoCTarget : Gen Unit := do
  let t1 ← crunchSymbols GM.Consonants (u! "Khmer")
  let ListC := (pyJoin (u! "|") t1)
  let t2 ← crunchSymbols GM.VowelSigns (u! "Khmer")
  let ListV := (pyJoin (u! "|") t2)
  let t3 ← crunchSymbols GM.CombiningSigns (u! "Khmer")
  let ListA := (pyJoin (u! "|") t3)
  let t4 ← index (modAttr (u! "Khmer") .ViramaMap) 0
  let vir := t4
  replace (u! "ឹ") (u! "ិំʽ")
  reSub (u! "(.)(.(្.)*)(់)") (u! "\\1\\4\\2")
  reSub (u! "([ងញមបយរវ])(ុ)([ិឹីឺ])") (u! "\\1៉\\3")
  reSub (u! "([សហអ])(ុ)([ិឹីឺ])") (u! "\\1៊\\3")
  reSub ((((((((u! "(") ++ ListC) ++ (u! ")")) ++ (u! "([៎៏])(")) ++ ListV) ++ (u! ")(")) ++ ListA) ++ (u! ")?")) (u! "\\1\\3\\4\\2")
  reSub ((((((((u! "(") ++ ListC) ++ (u! ")")) ++ (u! "(")) ++ ListV) ++ (u! ")([៎៏៊៉])(")) ++ ListA) ++ (u! ")?")) (u! "\\1\\2\\4\\3")
  replace (u! "ឲ្យ") (u! "ឱ្យ")
  replace (u! "ឱ្យ") ((u! "ឱ្យ") ++ vir)
  reSub (u! "[៙៚]") (u! "")
  pure ()

/-- PreProcess.py:253-262 -/
def PreProcess.KhmerLoCRomanLoCSource : Gen Unit := do
  let listdenormalize := [(u! "å"), (u! "ẙ"), (u! "à"), (u! "á"), (u! "é"), (u! "í"), (u! "ó"), (u! "ú"), (u! "à"), (u! "è"), (u! "ì"), (u! "ò"), (u! "ù"), (u! "ă")]
  forEach listdenormalize fun let' => do
    replace let' (nfdLetter let')
  reSub (u! "‛(?!ʹ)") (u! "‛ʹ")
  reSub (u! "oaḥ") (u! "oḥ")
  pure ()

/-- PreProcess.py:265-299 -/
def PreProcess.ShanLoCRomanLoCTarget : Gen Unit := do
  replace (u! "ႂ်") (u! "ͮ")
  replace (u! "ၢ") (u! "ႃ")
  replace (u! "ါ") (u! "ႃ")
  replace (u! "ႃႆ") (u! "ၢႆ")
  replace (u! "ႆၢ") (u! "ၢႆ")
  replace (u! "ႆႃ") (u! "ၢႆ")
  replace (u! "်္") (u! "္")
  let yrv := ((pySlice (modAttr (u! "Burmese") .ConsonantMap) (some 25) (some 27)) ++ (pySlice (modAttr (u! "Burmese") .ConsonantMap) (some 28) (some 29)))
  let yrvsub := [(u! "ျ"), (u! "ြ"), (u! "ႂ")]
  let t1 ← index (modAttr (u! "Burmese") .ViramaMap) 0
  let vir := t1
  forEach (pyZip yrv yrvsub) fun (x, y) => do
    replace y ((vir ++ vir) ++ x)
  let aThat := (u! "်")
  reSub ((u! "(?<!ႃ)") ++ aThat) (aThat ++ (u! "ʻ"))
  replace (u! "ဢ") (u! "’ဢ")
  replace (u! "္") (u! "်")
  pure ()

/-- PreProcess.py:301-308 -/
def PreProcess.KhuenRaHaamKaren : Gen Unit := do
  replace (u! "᩺") (u! "ᩁ᩠")
  replace (u! "᩼") (u! "᩺")
  pure ()

/-- PreProcess.py:310-312 -/
def PreProcess.ShanLoCRomanLoCSource : Gen Unit := do
  pure ()

/-- PreProcess.py:314-350 -/
def PreProcess.BurmeseRomanLoCSource : Gen Unit := do
  let chars_misc := [((u! "e*"), (u! "၏")), ((u! "n*"), (u! "၌")), ((u! "r*"), (u! "၍")), ((u! "l*"), (u! "၎"))]
  forEach chars_misc fun (lat, bur) => do
    replace lat bur
  replace (u! "ṁ") (u! "ṃ")
  replace (u! ",") (u! "၊")
  replace (u! ".") (u! "။")
  replace (u! "˝") (u! "ʺ")
  replace (u! "ʺ") (u! "ḥ")
  replace (u! "´") (u! "ʹ")
  replace (u! "ʹ") (u! "˳")
  let t1 ← crunchSymbols GM.VowelSignsNV (u! "IAST")
  let vowelSigns := (pyJoin (u! "|") t1)
  reSub (((u! "(ʼ)(a|") ++ vowelSigns) ++ (u! ")")) ((u! "’") ++ (u! "\\2"))
  let t2 ← crunchSymbols GM.Consonants (u! "IAST")
  let consonants := (pyJoin (u! "|") t2)
  reSub (((u! "(") ++ consonants) ++ (u! ")(‘)")) ((u! "\\1") ++ (u! "ʻ"))
  replace (u! "o‘") (u! "oʻ")
  replace (u! "oʻ") (u! "au")
  pure ()

/-- PreProcess.py:352-354 -/
def PreProcess.paliTham : Gen Unit := do
  pure ()

/-- PreProcess.py:356-369 -/
def PreProcess.segmentThamSyllabes : Gen Unit := do
  let myConsonant := (u! "ᨠ-ᩌ")
  let otherChar := (u! "ᩍ-ᩔ!-/:-@[-`{-~\\s")
  let ssSymbol := (u! "᩠")
  let aThat := (u! "᩺")
  let BreakPattern := (((((((((((u! "((?<!") ++ ssSymbol) ++ (u! ")[")) ++ myConsonant) ++ (u! "](?![")) ++ aThat) ++ ssSymbol) ++ (u! "])")) ++ (u! "|[")) ++ otherChar) ++ (u! "])"))
  reSub BreakPattern ((u! " ") ++ (u! "\\1"))
  pure ()

/-- PreProcess.py:371-384 -/
def PreProcess.segmentBurmeseSyllables : Gen Unit := do
  let myConsonant := (u! "က-အ")
  let otherChar := (u! "ဣဤဥဦဧဩဪဿ၌၍၏၀-၉၊။!-/:-@[-`{-~\\s")
  let ssSymbol := (u! "္")
  let aThat := (u! "်")
  let BreakPattern := (((((((((((u! "((?<!") ++ ssSymbol) ++ (u! ")[")) ++ myConsonant) ++ (u! "](?![")) ++ aThat) ++ ssSymbol) ++ (u! "])")) ++ (u! "|[")) ++ otherChar) ++ (u! "])"))
  replace (u! "့်") (u! "့်")
  reSub BreakPattern ((u! " ") ++ (u! "\\1"))
  pure ()

/-- PreProcess.py:386-399 -/
def PreProcess.segmentShanSyllables : Gen Unit := do
  let myConsonant := (u! "ၵၶၷꧠငၸꧡꩡꧢၺꩦꩧꩨꩩꧣတထၻꩪၼပၽၿꧤမယရလဝသႁꩮၹၾႀဢ")
  let otherChar := (u! "႞႟႐-႙၊။!-/:-@[-`{-~\\s")
  let ssSymbol := (u! "္")
  let aThat := (u! "်")
  let BreakPattern := (((((((((((u! "((?<!") ++ ssSymbol) ++ (u! ")[")) ++ myConsonant) ++ (u! "](?![")) ++ aThat) ++ ssSymbol) ++ (u! "])")) ++ (u! "|[")) ++ otherChar) ++ (u! "])"))
  replace (u! "့်") (u! "့်")
  reSub BreakPattern ((u! " ") ++ (u! "\\1"))
  pure ()

/-- PreProcess.py:401-442 -/
def PreProcess.BurmeseRomanLoCTarget : Gen Unit := do
  replace (u! "်္") (u! "္")
  replace (u! "ို") (u! "ုိ")
  replace (u! "ဪ") (u! "ဩʻ")
  let yrvh := (((pySlice (modAttr (u! "Burmese") .ConsonantMap) (some 25) (some 27)) ++ (pySlice (modAttr (u! "Burmese") .ConsonantMap) (some 28) (some 29))) ++ (pySlice (modAttr (u! "Burmese") .ConsonantMap) (some 32) (some 33)))
  let yrvhsub := [(u! "ျ"), (u! "ြ"), (u! "ွ"), (u! "ှ")]
  let t1 ← index (modAttr (u! "Burmese") .ViramaMap) 0
  let vir := t1
  forEach (pyZip yrvh yrvhsub) fun (x, y) => do
    replace y ((vir ++ vir) ++ x)
  replace (u! "့်") (u! "့်")
  let aThat := (u! "်")
  replace aThat (aThat ++ (u! "ʻ"))
  replace (u! "အ") (u! "’အ")
  let vowDep := (pySplit (u! "အော် အော အိ အီ အု အူ အေ") (u! " "))
  let vowIndep := (pySplit (u! "ဪ ဩ ဣ ဤ ဥ ဦ ဧ") (u! " "))
  forEach (pyZip vowDep vowIndep) fun (x, y) => do
    replace x y
  replace (u! "၊") (u! ",")
  replace (u! "။") (u! ".")
  pure ()

/-- PreProcess.py:444-446 -/
def PreProcess.insertViramaSyriac : Gen Unit := do
  append (u! "")
  pure ()

/-- PreProcess.py:448-453 -/
def PreProcess.BengaliSwitchYaYYa : Gen Unit := do
  reSub (u! "(?<!্)য") (u! "@#$")
  reSub (u! "য়") (u! "য")
  replace (u! "@#$") (u! "য়")
  pure ()

/-- PreProcess.py:456-469 -/
def PreProcess.removeFinalSchwaArab : Gen Unit := do
  let diacrtics := [(u! "ْ"), (u! "َ"), (u! "ِ"), (u! "ُ")]
  reSub (u! "([ب-ه])(?![ًٌٍَُِّْى])(?=(\\W|$))") ((u! "\\1") ++ (u! "ْ"))
  reSub (u! "([ب-ه]ّ)(?![ًٌٍَُِْى])(?=(\\W|$))") ((u! "\\1") ++ (u! "ْ"))
  reSub (u! "(?<!ِ)([ي])(?![ًٌٍَُِّْى])(?=(\\W|$))") ((u! "\\1") ++ (u! "ْ"))
  reSub (u! "(?<!ِ)([ي]ّ)(?![ًٌٍَُِْى])(?=(\\W|$))") ((u! "\\1") ++ (u! "ْ"))
  reSub (u! "(?<!ُ)([و])(?![ًٌٍَُِّْى])(?=(\\W|$))") ((u! "\\1") ++ (u! "ْ"))
  reSub (u! "(?<!ُ)([و]ّ)(?![ًٌٍَُِْى])(?=(\\W|$))") ((u! "\\1") ++ (u! "ْ"))
  pure ()

/-- PreProcess.py:471-474 -/
def PreProcess.AlephMaterLectionis (target : PyStr := (u! "semitic")) : Gen Unit := do
  append (u! "׍")
  pure ()

/-- PostProcess.py:298-304 -/
def PostProcess.AlephMaterLectionis (target : PyStr := (u! "semitic")) : Gen Unit := do
  let cons := (((u! "(") ++ (pyJoin (u! "|") GM.SemiticConsonants)) ++ (u! ")"))
  reSub (cons ++ (u! "(ʾ)")) ((u! "\\1") ++ (u! "ā"))
  pure ()

/-- PostProcess.py:407-418 -/
def PostProcess.LatnInitialVowels (initLetter : PyStr := (u! "")) : Gen Unit := do
  let initVow := (pySplit (u! "â ā̂ î ī̂ û ū̂ ê ē̂ âŷ ô ō̂ âŵ") (u! " "))
  let nonInitVow := (pySplit (u! "a ā i ī u ū e ē aŷ o ō aŵ") (u! " "))
  forEach (pyZip initVow nonInitVow) fun (x, y) => do
    replace x (initLetter ++ y)
  replace (u! "̂") (u! "")
  reSub (u! "̽") (u! "")
  pure ()

/-- PostProcess.py:244-286 -/
def PostProcess.arabizeLatn (target : PyStr := (u! "semitic")) : Gen Unit := do
  let cons := (((u! "(") ++ (pyJoin (u! "|") GM.SemiticConsonants)) ++ (u! ")"))
  reSub (cons ++ (u! "(ʾ)")) ((u! "\\1") ++ (u! "ā"))
  branch (pyEq target (u! "indic"))
    (do
      replace (u! "ʾā") (u! "ā̂")
      pure ())
    (do
      pure ())
  branch (!(pyEq target (u! "indic")))
    (do
      reSub (u! "ʾ") (u! "a")
      pure ())
    (do
      reSub (u! "ʾ") (u! "â")
      pure ())
  reSub (u! "(a̮|ā̮)") (u! "ā")
  reSub (u! "ˀ?ā̮̂") (u! "ʼā")
  branch (!(pyEq target (u! "indic")))
    (do
      reSub (u! "[ˀʔ]") (u! "ʼ")
      pure ())
    (do
      reSub (u! "[ˀ]") (u! "")
      pure ())
  branch (!(pyEq target (u! "indic")))
    (do
      PostProcess.LatnInitialVowels (u! "ʾ")
      pure ())
    (do
      pure ())
  branch (!(pyEq target (u! "indic")))
    (do
      reSub (u! "ʼʾ") (u! "ʼ")
      pure ())
    (do
      pure ())
  branch (!(pyEq target (u! "indic")))
    (do
      reSub (u! "̽") (u! "")
      pure ())
    (do
      pure ())
  reSub (u! "(ā)([iau])(ⁿ)") (u! "\\2\\3")
  pure ()

/-- PostProcess.py:351-356 -/
def PostProcess.hebraizeLatn (target : PyStr := (u! "semitic")) : Gen Unit := do
  branch (!(pyEq target (u! "indic")))
    (do
      PostProcess.LatnInitialVowels (u! "ʾ")
      pure ())
    (do
      pure ())
  pure ()

/-- PostProcess.py:390-394 -/
def PostProcess.removeSemiticLetters : Gen Unit := do
  replace (u! "ṭ") (u! "t")
  replace (u! "ḥ") (u! "h")
  replace (u! "ḍ") (u! "z")
  replace (u! "ḏ") (u! "z")
  replace (u! "ẓ") (u! "z")
  replace (u! "w") (u! "v")
  replace (u! "ʿ") (u! "ʾ")
  replace (u! "ṣ") (u! "s")
  pure ()

/-- PostProcess.py:335-348 -/
def PostProcess.syricizeLatn (target : PyStr := (u! "semitic")) : Gen Unit := do
  let cons := (((u! "(") ++ (pyJoin (u! "|") GM.SemiticConsonants)) ++ (u! ")"))
  branch (!(pyEq target (u! "indic")))
    (do
      reSub (u! "â") (u! "ʾa")
      reSub (u! "ā̂") (u! "ʾā")
      reSub (u! "ê") (u! "ʾe")
      reSub (u! "ē̂") (u! "ʾē")
      pure ())
    (do
      pure ())
  branch (!(pyEq target (u! "indic")))
    (do
      PostProcess.LatnInitialVowels
      pure ())
    (do
      pure ())
  pure ()

/-- PostProcess.py:307-332 -/
def PostProcess.urduizeLatn (target : PyStr := (u! "semitic")) : Gen Unit := do
  let cons := (((u! "(") ++ (pyJoin (u! "|") GM.SemiticConsonants)) ++ (u! ")"))
  reSub (cons ++ (u! "(ʾ)")) ((u! "\\1") ++ (u! "ā"))
  branch (pyEq target (u! "indic"))
    (do
      replace (u! "ʾā") (u! "ā̂")
      pure ())
    (do
      pure ())
  reSub (u! "ʾ") (u! "â")
  reSub (u! "[ˀʔ]") (u! "ʾ")
  reSub (u! "(a̮|ā̮)") (u! "ā")
  reSub (u! "ˀ?ā̮̂") (u! "ʼā")
  branch (!(pyEq target (u! "indic")))
    (do
      reSub (u! "̽") (u! "")
      pure ())
    (do
      pure ())
  branch (!(pyEq target (u! "indic")))
    (do
      PostProcess.LatnInitialVowels
      pure ())
    (do
      pure ())
  reSub (u! "(ā)([iau])(ⁿ)") (u! "\\2\\3")
  pure ()

/-- PreProcess.py:477-588 -/
def PreProcess.FixSemiticRoman (Source : PyStr) : Gen Unit := do
  let vir := (u! "̽")
  whenDyn (.has (u! "׍"))
    (do
      PostProcess.AlephMaterLectionis
      pure ())
    (do
      pure ())
  whenDyn (.has (u! "׌"))
    (do
      PostProcess.removeSemiticLetters
      let AyinAlephInitial := [((u! "ʾa"), (u! "ʾ")), ((u! "ʾā"), (u! "ā̂")), ((u! "ʾi"), (u! "î")), ((u! "ʾī"), (u! "ī̂")), ((u! "ʾu"), (u! "û")), ((u! "ʾū"), (u! "ū̂")), ((u! "ʾe"), (u! "ê")), ((u! "ʾē"), (u! "ē̂")), ((u! "ʾo"), (u! "ô")), ((u! "ʾō"), (u! "ō̂"))]
      forEach AyinAlephInitial fun (x, y) => do
        replace x y
      branch (pyEq Source (u! "Arab"))
        (do
          PostProcess.arabizeLatn (target := (u! "indic"))
          pure ())
        (do
          branch ((pyEq Source (u! "Arab-Ur")) || (pyEq Source (u! "Arab-Pa")) || (pyEq Source (u! "Arab-Fa")))
            (do
              PostProcess.urduizeLatn (target := (u! "indic"))
              pure ())
            (do
              branch (pyEq Source (u! "Syrn"))
                (do
                  PostProcess.syricizeLatn (target := (u! "indic"))
                  pure ())
                (do
                  branch ((pyEq Source (u! "Syrj")) || (pyEq Source (u! "Hebr")))
                    (do
                      PostProcess.hebraizeLatn (target := (u! "indic"))
                      pure ())
                    (do
                      pure ())
                  pure ())
              pure ())
          pure ())
      pure ())
    (do
      pure ())
  replace (u! "̪") (u! "")
  replace (u! "̮") (u! "")
  reSub (u! "([ʰ])(꞉)") (u! "\\2\\1")
  reSub (u! "([aiuāīū])(꞉)") (u! "\\2\\1")
  reSub (u! "(.)(꞉)") (((u! "\\1") ++ vir) ++ (u! "\\1"))
  replace ((u! "ʿ") ++ vir) (((u! "ʿ") ++ vir) ++ (u! "\u200b"))
  let cons_prev := (pyJoin (u! "|") GM.SemiticConsonants)
  branch (pyIn (u! "Syr") Source)
    (do
      let consSyrc := (pyJoin (u! "|") [(u! "ʾ"), (u! "b"), (u! "v"), (u! "g"), (u! "ġ"), (u! "d"), (u! "ḏ"), (u! "h"), (u! "w"), (u! "z"), (u! "ḥ"), (u! "ṭ"), (u! "y"), (u! "k"), (u! "ḫ"), (u! "l"), (u! "m"), (u! "n"), (u! "s"), (u! "ʿ"), (u! "p"), (u! "f"), (u! "ṣ"), (u! "q"), (u! "r"), (u! "š"), (u! "t"), (u! "ṯ"), (u! "č"), (u! "ž"), (u! "j")])
      let vowelSyrc := [(u! "a"), (u! "ā"), (u! "e"), (u! "ē"), (u! "ū"), (u! "ō"), (u! "ī"), (u! "â"), (u! "ā̂"), (u! "ê"), (u! "ē̂")]
      let vowelsDepSyrc := (pyJoin (u! "|") [(u! "a"), (u! "ā"), (u! "e"), (u! "ē"), (u! "u"), (u! "i"), (u! "o")])
      let vowelsInDepSyrc1 := [(u! "i"), (u! "u"), (u! "o")]
      let vowelsInDepSyrc2 := [(u! "ī̂"), (u! "û"), (u! "ô")]
      whenDyn (.hasAny vowelSyrc)
        (do
          replace (u! "ī") (u! "i")
          replace (u! "ū") (u! "u")
          replace (u! "ō") (u! "o")
          forEach (pyZip vowelsInDepSyrc1 vowelsInDepSyrc2) fun (vow1, vow2) => do
            reSub ((u! "(?<!\\w)") ++ vow1) vow2
          replace (u! "̂̂") (u! "̂")
          replace (u! "ô̂") (u! "ô")
          whenDyn (.has (u! ""))
            (do
              reSub ((((((u! "(") ++ consSyrc) ++ (u! ")")) ++ (u! "(?!")) ++ vowelsDepSyrc) ++ (u! ")")) ((u! "\\1") ++ vir)
              pure ())
            (do
              pure ())
          reSub ((((u! "(?<=") ++ cons_prev) ++ (u! ")")) ++ (u! "a(?!̄)")) (u! "")
          pure ())
        (do
          pure ())
      replace (u! "") (u! "")
      pure ())
    (do
      pure ())
  branch ((pyIn (u! "Arab") Source) || (pyEq Source (u! "Latn")) || (pyEq Source (u! "Hebr")) || (pyEq Source (u! "Thaa")) || (pyEq Source (u! "Type")))
    (do
      let basic_vowels := (((u! "(") ++ (pyJoin (u! "|") [(u! "a"), (u! "ā"), (u! "i"), (u! "ī"), (u! "u"), (u! "ū"), (u! "ē"), (u! "ō"), (u! "e"), (u! "o"), (u! "#"), vir])) ++ (u! ")"))
      reSub (((u! "(ŵ)(?=") ++ basic_vowels) ++ (u! ")")) (u! "w")
      reSub (((u! "(ŷ)(?=") ++ basic_vowels) ++ (u! ")")) (u! "y")
      reSub ((((u! "(?<=") ++ cons_prev) ++ (u! ")")) ++ (u! "a(?!(ŵ|ŷ|̄|̮))")) (u! "")
      reSub ((u! "(?<=ḧ)") ++ (u! "a(?!(ŵ|ŷ|̄|̮))")) (u! "")
      branch (pyIn (u! "Arab") Source)
        (do
          let simp_vow := (pySplit (u! "a ā i ī u ū") (u! " "))
          let init_vow := (pySplit (u! "â ā̂ î ī̂ û ū̂") (u! " "))
          forEach (pyZip simp_vow init_vow) fun (x, y) => do
            reSub ((u! "ʔ") ++ x) y
          whenDyn (.has (u! "׌"))
            (do
              replace (u! "ʔ") (u! "")
              pure ())
            (do
              pure ())
          pure ())
        (do
          pure ())
      pure ())
    (do
      pure ())
  let SemiticIndic := [((u! "ṣ"), (u! "sQ")), ((u! "ʿ"), (u! "ʾQ")), ((u! "ṭ"), (u! "tQ")), ((u! "ḥ"), (u! "hQ")), ((u! "ḍ"), (u! "dQ")), ((u! "p̣"), (u! "pQ")), ((u! "ž"), (u! "šQ")), ((u! "ẓ"), (u! "jʰQ")), ((u! "ḏ"), (u! "dʰQ")), ((u! "ṯ"), (u! "tʰQ")), ((u! "w"), (u! "vQ")), ((u! "ḵ"), (u! "k")), ((u! "̪"), (u! "")), ((u! "̮"), (u! "")), ((u! "a̮"), (u! "ā")), ((u! "̈"), (u! "")), ((u! "ĕ̂"), (u! "ê")), ((u! "ă̂"), (u! "â")), ((u! "ŏ̂"), (u! "ô")), ((u! "ĕ"), (u! "e")), ((u! "ă"), (u! "")), ((u! "ŏ"), (u! "o")), ((u! "ḵ"), (u! "k")), ((u! "ʾQā"), (u! "ā̂Q")), ((u! "ʾQi"), (u! "îQ")), ((u! "ʾQī"), (u! "ī̂Q")), ((u! "ʾQu"), (u! "ûQ")), ((u! "ʾQū"), (u! "ū̂Q")), ((u! "ʾQe"), (u! "êQ")), ((u! "ʾQē"), (u! "ē̂Q")), ((u! "ʾQo"), (u! "ôQ")), ((u! "ʾQō"), (u! "ō̂Q")), ((u! "ⁿ"), (u! "n̽")), ((u! "ʾā"), (u! "ā̂"))]
  forEach SemiticIndic fun (s, i) => do
    replace s i
  branch (pyIn (u! "Arab") Source)
    (do
      reSub (u! "(̽)([iuā])") (u! "\\2")
      reSub (u! "(̽)([a])") (u! "")
      pure ())
    (do
      pure ())
  replace (u! "ʾ") (u! "â")
  pure ()

/-- PreProcess.py:590-597 -/
def PreProcess.perisanizeArab : Gen Unit := do
  let arabKafYe := (pySplit (u! "ك ي") (u! " "))
  let persKafYe := (pySplit (u! "ک ی") (u! " "))
  forEach (pyZip arabKafYe persKafYe) fun (x, y) => do
    replace x y
  pure ()

/-- PreProcess.py:599-607 -/
def PreProcess.ArabizePersian : Gen Unit := do
  let arabKafYe := (pySplit (u! "ك ي") (u! " "))
  let persKafYe := (pySplit (u! "ک ی") (u! " "))
  forEach (pyZip arabKafYe persKafYe) fun (x, y) => do
    replace y x
  pure ()

/-- PreProcess.py:609-619 -/
def PreProcess.semiticizeUrdu : Gen Unit := do
  let urduSpecific := (pySplit (u! "ے ڈ ٹ ہ") (u! " "))
  let semitic := (pySplit (u! "ي د ت ه") (u! " "))
  forEach (pyZip urduSpecific semitic) fun (x, y) => do
    replace x y
  replace (u! "ھ") (u! "")
  pure ()

/-- PreProcess.py:621-623 -/
def PreProcess.ShowChillus : Gen Unit := do
  PostProcess.MalayalamChillu true true
  pure ()

/-- PreProcess.py:625-628 -/
def PreProcess.ShowKhandaTa : Gen Unit := do
  replace (u! "ৎ") (u! "ত্ˍ")
  pure ()

/-- PreProcess.py:630-632 -/
def PreProcess.eiaudipthongs : Gen Unit := do
  pure ()

/-- PreProcess.py:634-636 -/
def PreProcess.wasvnukta : Gen Unit := do
  pure ()

/-- PreProcess.py:638-640 -/
def PreProcess.default : Gen Unit := do
  pure ()

/-- PreProcess.py:642-645 -/
def PreProcess.SogdReshAyin : Gen Unit := do
  replace (u! "𐽀") (u! "[-]")
  pure ()

/-- PreProcess.py:647-650 -/
def PreProcess.SogoReshAyinDaleth : Gen Unit := do
  replace (u! "𐼘") (u! "[--]")
  pure ()

/-- PreProcess.py:652-655 -/
def PreProcess.PhlpMemQoph : Gen Unit := do
  replace (u! "𐮋") (u! "[-]")
  pure ()

/-- PreProcess.py:657-660 -/
def PreProcess.PhlpWawAyinResh : Gen Unit := do
  replace (u! "𐮅") (u! "[--]")
  pure ()

end Verif
