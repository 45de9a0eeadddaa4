import Verif.Model.Crunch

/-!
# Text functions of ConvertFix.py, PreProcess.py and PostProcess.py, part 0

Generated by tools/genfuncs.py, in dependency order, one definition per Python function and one
line per statement.
-/

set_option maxRecDepth 20000
set_option linter.unusedVariables false

namespace Verif

/-- ConvertFix.py:20-24 -/
def ConvertFix.OriyaIPAFixPre : Gen Unit := do
  replace (u! "ଂ") (u! "ଙ୍")
  replace (u! "ଃ") (u! "ହ୍")
  pure ()

/-- ConvertFix.py:26-39 -/
def ConvertFix.SinhalaIPAFix : Gen Unit := do
  let t1 ← crunchSymbols GM.Consonants (u! "IPA")
  let consonants := (((u! "(") ++ (pyJoin (u! "|") t1)) ++ (u! ")"))
  reSub (((u! "^") ++ consonants) ++ (u! "(ə)")) (u! "\\1ʌ")
  reSub (((u! "(\\s)") ++ consonants) ++ (u! "(ə)")) (u! "\\1\\2ʌ")
  reSub ((((u! "^") ++ consonants) ++ consonants) ++ (u! "(ə)")) (u! "\\1ʌ")
  reSub ((((u! "(\\s)") ++ consonants) ++ consonants) ++ (u! "(ə)")) (u! "\\1\\2ʌ")
  reSub (((((u! "^") ++ consonants) ++ consonants) ++ consonants) ++ (u! "(ə)")) (u! "\\1ʌ")
  reSub (((((u! "(\\s)") ++ consonants) ++ consonants) ++ consonants) ++ (u! "(ə)")) (u! "\\1\\2ʌ")
  pure ()

/-- ConvertFix.py:41-62 -/
def ConvertFix.OriyaIPAFix : Gen Unit := do
  replace (u! "ə") (u! "ɔ")
  replace (u! "j") (u! "d͡ʒ")
  replace (u! "ẏ") (u! "j")
  replace (u! "kʂ") (u! "kʰ")
  replace (u! "ʂ") (u! "s̪")
  replace (u! "ʃ") (u! "s̪")
  replace (u! "ʋ") (u! "u̯")
  replace (u! "t͡s") (u! "t͡ʃ")
  replace (u! "ɪ") (u! "i")
  replace (u! "iː") (u! "i")
  replace (u! "uː") (u! "u")
  replace (u! "eː") (u! "e")
  replace (u! "oː") (u! "o")
  replace (u! "ɾɨ") (u! "ɾu")
  replace (u! "ɾɨː") (u! "ɾu")
  replace (u! "lɨ") (u! "lu")
  replace (u! "lɨː") (u! "lu")
  pure ()

/-- ConvertFix.py:64-87 -/
def ConvertFix.VedicSvarasLatinIndic (Source : PyStr) : Gen Unit := do
  replace (u! "{\\m+}") (u! "ꣳ")
  replace (u! "\\m++") (u! "ꣴ")
  replace (u! "\\m+") (u! "ꣳ")
  replace (u! "\\`") (u! "\\_")
  replace (u! "\\''") (u! "\\\"")
  let t1 ← crunchList .AyogavahaMap Source
  let Ayogavaha := t1
  let Svaras := [(u! "\\_"), (u! "\\\""), (u! "\\'")]
  forEach Ayogavaha fun x => do
    forEach Svaras fun y => do
      replace (y ++ x) (x ++ y)
  replace (u! "\\\"") (u! "᳚")
  replace (u! "\\'") (u! "॑")
  replace (u! "\\_") (u! "॒")
  pure ()

/-- ConvertFix.py:89-96 -/
def ConvertFix.VedicSvarsIndicLatin : Gen Unit := do
  replace (u! "᳚") (u! "\\\"")
  replace (u! "॑") (u! "\\'")
  replace (u! "॒") (u! "\\_")
  replace (u! "ꣳ") (u! "\\m+")
  replace (u! "ꣴ") (u! "\\m++")
  pure ()

/-- ConvertFix.py:98-106 -/
def ConvertFix.VedicSvarasOthers (Target : PyStr) : Gen Unit := do
  replace (u! "\\\"") (u! "↑↑")
  replace (u! "\\_") (u! "↓")
  replace (u! "\\'") (u! "↑")
  let t1 ← crunchList .AyogavahaMap Target
  let t2 ← index t1 1
  let anu := t2
  replace (u! "\\m++") (u! "ꣴ")
  replace (u! "\\m+") (u! "ꣳ")
  let t3 ← crunchList .AyogavahaMap Target
  let Ayogavaha := t3
  pure ()

/-- ConvertFix.py:108-129 -/
def ConvertFix.VedicSvarasDiacrtics (Target : PyStr) : Gen Unit := do
  replace (u! "\\'") (u! "̍")
  replace (u! "\\\"") (u! "̎")
  replace (u! "\\_") (u! "̱")
  replace (u! "\\m++") (u! "gͫ̄")
  replace (u! "\\m+") (u! "gͫ")
  branch ((pyEq Target (u! "ISO")) || (pyEq Target (u! "ISOPali")))
    (do
      replace (u! "\\’’") (u! "̎")
      replace (u! "\\’") (u! "̍")
      pure ())
    (do
      pure ())
  let t1 ← crunchList .AyogavahaMap Target
  let Ayogavaha := t1
  let Svaras := [(u! "̍"), (u! "̎"), (u! "̱")]
  forEach Ayogavaha fun x => do
    forEach Svaras fun y => do
      replace (x ++ y) (y ++ x)
  pure ()

/-- ConvertFix.py:131-148 -/
def ConvertFix.VedicSvarasCyrillic (Target : PyStr) : Gen Unit := do
  replace (u! "\\'") (u! "̍")
  replace (u! "\\\"") (u! "̎")
  replace (u! "\\_") (u! "̱")
  replace (u! "\\м++") (u! "г͡м")
  replace (u! "\\м+") (u! "г͜м")
  replace (u! "\\m++") (u! "г͡м")
  replace (u! "\\m+") (u! "г͜м")
  let t1 ← crunchList .AyogavahaMap Target
  let Ayogavaha := t1
  let Svaras := [(u! "̍"), (u! "̎"), (u! "̱")]
  forEach Ayogavaha fun x => do
    forEach Svaras fun y => do
      replace (x ++ y) (y ++ x)
  pure ()

/-- ConvertFix.py:150-161 -/
def ConvertFix.VedicSvarasNonDiacritic : Gen Unit := do
  replace (u! "̍") (u! "\\'")
  replace (u! "̎") (u! "\\\"")
  replace (u! "̱") (u! "\\_")
  replace (u! "gͫ̄") (u! "\\m++")
  replace (u! "gͫ") (u! "\\m+")
  replace (u! "г͡м") (u! "\\m++")
  replace (u! "г͜м") (u! "\\m+")
  pure ()

/-- ConvertFix.py:163-227 -/
def ConvertFix.FixRomanOutput (Target : PyStr) : Gen Unit := do
  let Schwa := (u! "")
  let DepV := (u! "ṿ")
  let t1 ← crunchSymbols GM.VowelSigns Target
  let VowelSignList := (pyReplace (pyReplace (pyJoin (u! "|") t1) (u! "^") (u! "\\^")) (u! ".") (u! "\\."))
  let t2 ← crunchSymbols GM.Vowels Target
  let VowelList := (pyReplace (pyReplace (pyJoin (u! "|") t2) (u! "^") (u! "\\^")) (u! ".") (u! "\\."))
  let t3 ← crunchSymbols [.ViramaMap] Target
  let Virama := (pyJoin (u! "") t3)
  let t4 ← crunchSymbols [.NuktaMap] Target
  let Nukta := (pyJoin (u! "") t4)
  let t5 ← crunchSymbols [.VowelMap] Target
  let t6 ← index t5 0
  let VowelA := t6
  let t7 ← crunchSymbols [.VowelMap] Target
  let t8 ← index t7 2
  let t9 ← crunchSymbols [.VowelMap] Target
  let t10 ← index t9 4
  let VowelIU := (pyJoin (u! "|") (pyChars (t8 ++ t10)))
  let t11 ← crunchSymbols [.ConsonantMap] Target
  let TargetCons := t11
  let t12 ← index TargetCons 32
  let ConsH := t12
  let t14 ← pmap [0, 2, 5, 7, 10, 12, 15, 17, 20, 22] fun i => (do let t13 ← index TargetCons i; pure t13)
  let UnAspCons := (pyReplace (pyReplace (pyJoin (u! "|") t14) (u! "^") (u! "\\^")) (u! ".") (u! "\\."))
  branch (pyIn Target [(u! "IAST"), (u! "ISO"), (u! "ISOPali"), (u! "Titus")])
    (do
      replace ((u! "u") ++ Virama) (Virama ++ (u! "ŭ"))
      pure ())
    (do
      pure ())
  reSub (((((((u! "(?<=") ++ Schwa) ++ DepV) ++ (u! ")")) ++ (u! "(")) ++ VowelIU) ++ (u! ")")) (u! "_\\1")
  reSub ((((((u! "(?<=ṿ") ++ VowelA) ++ (u! "ṿ)")) ++ (u! "(")) ++ VowelIU) ++ (u! ")")) (u! "_\\1")
  reSub ((((((((u! "(") ++ UnAspCons) ++ (u! ")(")) ++ Schwa) ++ Virama) ++ (u! ")(")) ++ ConsH) ++ (u! ")")) (u! "\\1_\\3")
  reSub (((((((u! "(") ++ Schwa) ++ (u! ")(")) ++ Virama) ++ (u! ")(?=")) ++ VowelList) ++ (u! ")")) (u! "_\\2")
  reSub (((((u! "(") ++ Schwa) ++ (u! ")(")) ++ Nukta) ++ (u! ")")) (u! "\\2\\1")
  reSub (((((u! "(") ++ Schwa) ++ (u! ")(?=")) ++ VowelSignList) ++ (u! ")")) (u! "")
  replace Schwa VowelA
  replace DepV (u! "")
  replace Virama (u! "")
  pure ()

/-- ConvertFix.py:229-263 -/
def ConvertFix.FixVedic (Target : PyStr) : Gen Unit := do
  replace (u! "{\\m+}") (u! "\\m+")
  replace (u! "\\`") (u! "\\_")
  replace (u! "\\''") (u! "\\\"")
  replace (u! "\\\\м") (u! "\\м")
  replace (u! "\\\\m") (u! "\\m")
  replace (u! "\\\\'") (u! "\\'")
  replace (u! "\\\\\"") (u! "\\\"")
  replace (u! "\\\\_") (u! "\\_")
  let vedicDiacRoman := [(u! "IAST"), (u! "IASTPali"), (u! "ISO"), (u! "Titus"), (u! "ISOPali")]
  let vedicnonDiacRoman := [(u! "HK"), (u! "Itrans"), (u! "Velthuis"), (u! "SLP1"), (u! "WX")]
  branch (pyIn Target vedicDiacRoman)
    (do
      ConvertFix.VedicSvarasDiacrtics Target
      pure ())
    (do
      branch (pyEq Target (u! "IPA"))
        (do
          replace (u! "\\\"") (u! "↑↑")
          replace (u! "\\_") (u! "↓")
          replace (u! "\\'") (u! "↑")
          replace (u! "\\m++") (u! "gͫ̄")
          replace (u! "\\m+") (u! "gͫ")
          pure ())
        (do
          branch ((pyEq Target (u! "RomanReadable")) || (pyEq Target (u! "RomanColloquial")))
            (do
              replace (u! "\\\"") (u! "")
              replace (u! "\\_") (u! "")
              replace (u! "\\'") (u! "")
              replace (u! "\\m++") (u! "ggum")
              replace (u! "\\m+") (u! "gum")
              pure ())
            (do
              branch (pyIn Target vedicnonDiacRoman)
                (do
                  pure ())
                (do
                  branch (pyEq Target (u! "RussianCyrillic"))
                    (do
                      ConvertFix.VedicSvarasCyrillic Target
                      pure ())
                    (do
                      ConvertFix.VedicSvarasOthers Target
                      pure ())
                  pure ())
              pure ())
          pure ())
      pure ())
  pure ()

/-- ConvertFix.py:2078-2127 -/
def ConvertFix.FixAvestan (reverse : Bool := false) : Gen Unit := do
  let extraCons := [(u! "𐬳"), (u! "𐬲"), (u! "𐬝"), (u! "𐬒"), (u! "𐬣"), (u! "𐬝")]
  let t1 ← crunchSymbols GM.Consonants (u! "Avestan")
  let ListC := (pyJoin (u! "|") (t1 ++ extraCons))
  let t2 ← crunchSymbols GM.Vowels (u! "Avestan")
  let ListV := (pyJoin (u! "|") t2)
  let t3 ← index (modAttr (u! "Avestan") .ConsonantMap) 25
  let ya := t3
  let t4 ← index (modAttr (u! "Avestan") .ConsonantMap) 28
  let va := t4
  let t5 ← index (modAttr (u! "Avestan") .VowelMap) 2
  let ii := (pyMul t5 2)
  let t6 ← index (modAttr (u! "Avestan") .VowelMap) 4
  let uu := (pyMul t6 2)
  branch (!reverse)
    (do
      replace (u! "𐬀𐬩") (u! "𐬄")
      replace (u! "𐬁𐬩") (u! "𐬅")
      reSub ((((((((((u! "((") ++ ListV) ++ (u! ")")) ++ (u! "|")) ++ (u! "(")) ++ ListC) ++ (u! "))")) ++ (u! "(")) ++ ya) ++ (u! ")")) ((u! "\\1") ++ ii)
      reSub ((((((((((u! "((") ++ ListV) ++ (u! ")")) ++ (u! "|")) ++ (u! "(")) ++ ListC) ++ (u! "))")) ++ (u! "(")) ++ va) ++ (u! ")")) ((u! "\\1") ++ uu)
      let t7 ← index (modAttr (u! "Avestan") .ConsonantMap) 15
      replace (t7 ++ (u! "ʿ")) (u! "𐬝")
      replace (va ++ (u! "ʿ")) (u! "𐬡")
      replace (u! "𐬰ʿ") (u! "𐬲")
      replace (u! "𐬱ʿ") (u! "𐬲")
      replace (u! "𐬢ʿ") (u! "𐬤")
      replace (u! "𐬁_𐬋") (u! "𐬃")
      replace (u! "ʿ") (u! "")
      pure ())
    (do
      replace (u! "𐬄") (u! "𐬀𐬩")
      replace (u! "𐬅") (u! "𐬁𐬩")
      replace ii ya
      replace uu va
      let t8 ← index (modAttr (u! "Avestan") .ConsonantMap) 15
      replace (u! "𐬝") (t8 ++ (u! "ʿ"))
      let t9 ← index (modAttr (u! "Avestan") .ConsonantMap) 4
      replace (u! "𐬣") t9
      let t10 ← index (modAttr (u! "Avestan") .ConsonantMap) 1
      replace (u! "𐬒") t10
      let t11 ← index (modAttr (u! "Avestan") .ConsonantMap) 29
      replace (u! "𐬳") t11
      replace (u! "𐬡") (va ++ (u! "ʿ"))
      replace (u! "𐬲") (u! "𐬰ʿ")
      replace (u! "𐬤") (u! "𐬢ʿ")
      replace (u! "𐬃") (u! "𐬁_𐬋")
      pure ())
  pure ()

/-- ConvertFix.py:630-683 -/
def ConvertFix.FixHanifiRohingya (reverse : Bool := false) : Gen Unit := do
  let t1 ← crunchSymbols GM.Consonants (u! "HanifiRohingya")
  let consList := (((u! "(") ++ (pyJoin (u! "|") (t1 ++ [(u! "𐴗"), (u! "𐴙")]))) ++ (u! ")"))
  let t2 ← crunchSymbols GM.Vowels (u! "HanifiRohingya")
  let vowList := (((u! "(") ++ (pyJoin (u! "|") t2)) ++ (u! ")"))
  let t3 ← crunchSymbols GM.Vowels (u! "HanifiRohingya")
  let vowListNotA := (((u! "(") ++ (pyJoin (u! "|") (pySlice t3 (some 1) none))) ++ (u! ")"))
  let t4 ← crunchSymbols GM.Consonants (u! "HanifiRohingya")
  let consListLookBehind := (pyJoin (u! "") (t4.map fun x => (((u! "(?<!") ++ x) ++ (u! ")"))))
  branch (!reverse)
    (do
      reSub (consListLookBehind ++ vowList) ((u! "𐴀") ++ (u! "\\1"))
      reSub (consList ++ (u! "\\1")) ((u! "\\1") ++ (u! "𐴧"))
      reSub (vowListNotA ++ (u! "𐴀𐴟")) ((u! "\\1") ++ (u! "𐴗"))
      reSub (vowListNotA ++ (u! "𐴀𐴞")) ((u! "\\1") ++ (u! "𐴙"))
      replace (u! "𐴤\\") (u! "𐴥")
      replace (u! "𐴤/") (u! "𐴦")
      replace (u! "_") (u! "𐴢")
      pure ())
    (do
      let tones := (u! "([𐴤𐴥𐴦])")
      reSub (((u! "(𐴀)") ++ tones) ++ vowList) (u! "\\1\\3\\2")
      reSub ((consList ++ tones) ++ vowList) (u! "\\1\\3\\2")
      reSub ((pyReplace vowListNotA (u! "𐴀") (u! "")) ++ (u! "𐴗")) ((u! "\\1") ++ (u! "𐴀𐴟"))
      reSub ((pyReplace vowListNotA (u! "𐴀") (u! "")) ++ (u! "𐴙")) ((u! "\\1") ++ (u! "𐴀𐴞"))
      replace (u! "𐴀") (u! "")
      reSub ((u! "(.)") ++ (u! "𐴧")) (u! "\\1\\1")
      replace (u! "𐴥") (u! "𐴤\\")
      replace (u! "𐴦") (u! "𐴤/")
      reSub (consList ++ (u! "𐴗")) ((u! "\\1") ++ (u! "𐴖ʾ"))
      reSub (consList ++ (u! "𐴙")) ((u! "\\1") ++ (u! "𐴘ʾ"))
      replace (u! "𐴢") (u! "_")
      replace (u! "𐴜") (u! "𐴖")
      pure ())
  branch (!reverse)
    (do
      forEach (pyZip [(u! ","), (u! "?"), (u! ";")] [(u! "،"), (u! "؟"), (u! "؛")]) fun (x, y) => do
        replace x y
      pure ())
    (do
      forEach (pyZip [(u! ","), (u! "?"), (u! ";")] [(u! "،"), (u! "؟"), (u! "؛")]) fun (x, y) => do
        replace y x
      pure ())
  pure ()

/-- ConvertFix.py:2873-2890 -/
def ConvertFix.FixIPA (reverse : Bool := false) : Gen Unit := do
  let colon_tilde := (u! "ː̃")
  let tilde_colon := (u! "̃ː")
  branch (!reverse)
    (do
      replace colon_tilde tilde_colon
      reSub (u! "(.)(ː?)(h)") ((u! "\\1\\2\\3\\1") ++ (u! "̆"))
      replace (u! "ə̸ə̸") (u! "ɑ̷ː")
      pure ())
    (do
      replace (u! "ɑ̷ː") (u! "ə̸ə̸")
      replace tilde_colon colon_tilde
      reSub (((u! "(.)(ː?)(h)") ++ (u! "\\1")) ++ (u! "̆")) (u! "\\1\\2\\3")
      pure ())
  pure ()

/-- ConvertFix.py:607-628 -/
def ConvertFix.FixMongolian (reverse : Bool := false) : Gen Unit := do
  let t1 ← crunchSymbols GM.Vowels (u! "Mongolian")
  let vowels := (((u! "(") ++ (pyJoin (u! "|") t1)) ++ (u! ")"))
  let t2 ← crunchSymbols GM.Consonants (u! "Mongolian")
  let consonants := (((u! "(") ++ (pyJoin (u! "|") t2)) ++ (u! ")"))
  branch (!reverse)
    (do
      reSub ((u! "(᠋)") ++ consonants) (u! "\\2")
      reSub ((u! "(᠋)") ++ vowels) (u! "\\2")
      reSub ((((consonants ++ consonants) ++ consonants) ++ vowels) ++ (u! "(ᢀ)")) (u! "\\5\\1\\2\\3\\4")
      reSub (((consonants ++ consonants) ++ vowels) ++ (u! "(ᢀ)")) (u! "\\4\\1\\2\\3")
      reSub (((consonants ++ (u! "?")) ++ vowels) ++ (u! "(ᢀ)")) (u! "\\3\\1\\2")
      replace (u! " ʼ") (u! "\u200b")
      replace (u! "ʼ") (u! "\u200b")
      pure ())
    (do
      reSub (u! "(ᠠ)(?!᠋)") ((u! "\\1") ++ (u! "᠋"))
      pure ())
  pure ()

/-- ConvertFix.py:804-817 -/
def ConvertFix.FixMro (reverse : Bool := false) : Gen Unit := do
  let extracons := [(u! "𖩎"), (u! "𖩙"), (u! "𖩚"), (u! "𖩛"), (u! "𖩜"), (u! "𖩞")]
  let consnormaldig := [(u! "𖩃𖩢"), (u! "𖩌𖩢"), (u! "𖩍𖩢"), (u! "𖩍𖩣"), (u! "𖩉𖩢"), (u! "𖩀𖩢")]
  let consnormal := [(u! "𖩃"), (u! "𖩌"), (u! "𖩍"), (u! "𖩍"), (u! "𖩉"), (u! "𖩀")]
  branch (!reverse)
    (do
      forEach (pyZip consnormaldig extracons) fun (x, y) => do
        replace x y
      pure ())
    (do
      forEach (pyZip extracons consnormal) fun (x, y) => do
        replace x y
      pure ())
  pure ()

/-- ConvertFix.py:2447-2480 -/
def ConvertFix.FixRomanColloquial (reverse : Bool := false) : Gen Unit := do
  branch (!reverse)
    (do
      replace (u! "\\n") (u! "")
      reSub (u! "([aiueo])nj([aeiou])") (((u! "\\1") ++ (u! "ny")) ++ (u! "\\2"))
      reSub (u! "(\\W)nj([aeiou])") (((u! "\\1") ++ (u! "ny")) ++ (u! "\\2"))
      reSub (u! "^nj([aeiou])") ((u! "ny") ++ (u! "\\1"))
      replace (u! "njnj") (u! "nny")
      replace (u! "Mk") (u! "ngk")
      replace (u! "Mg") (u! "ngg")
      replace (u! "Mc") (u! "njc")
      replace (u! "Mj") (u! "njj")
      replace (u! "Md") (u! "nd")
      replace (u! "Mt") (u! "nt")
      replace (u! "Mb") (u! "mb")
      replace (u! "Mp") (u! "mp")
      replace (u! "M") (u! "m\u034f")
      replace (u! "ngk") (u! "nk")
      replace (u! "ngg") (u! "ng")
      replace (u! "njc") (u! "nc")
      replace (u! "njj") (u! "nj")
      replace (u! "jnj") (u! "jny")
      replace (u! "") (u! "\\n")
      replace (u! "'") (u! "")
      replace (u! "_") (u! "")
      pure ())
    (do
      pure ())
  pure ()

/-- ConvertFix.py:2414-2445 -/
def ConvertFix.FixRomanReadable (reverse : Bool := false) : Gen Unit := do
  branch (!reverse)
    (do
      replace (u! "\\n") (u! "")
      reSub (u! "([aiueo])nj([aeiou])") (((u! "\\1") ++ (u! "ny")) ++ (u! "\\2"))
      reSub (u! "(\\W)nj([aeiou])") (((u! "\\1") ++ (u! "ny")) ++ (u! "\\2"))
      reSub (u! "^nj([aeiou])") ((u! "ny") ++ (u! "\\1"))
      replace (u! "njnj") (u! "nny")
      replace (u! "Mk") (u! "ngk")
      replace (u! "Mg") (u! "ngg")
      replace (u! "Mc") (u! "njc")
      replace (u! "Mj") (u! "njj")
      replace (u! "Md") (u! "nd")
      replace (u! "Mt") (u! "nt")
      replace (u! "Mb") (u! "mb")
      replace (u! "Mp") (u! "mp")
      replace (u! "M") (u! "m\u034f'")
      replace (u! "ngk") (u! "nk")
      replace (u! "ngg") (u! "ng")
      replace (u! "njc") (u! "nc")
      replace (u! "njj") (u! "nj")
      replace (u! "jnj") (u! "jny")
      replace (u! "") (u! "\\n")
      pure ())
    (do
      pure ())
  pure ()

/-- ConvertFix.py:2385-2394 -/
def ConvertFix.FixSantali (reverse : Bool := false) : Gen Unit := do
  branch (!reverse)
    (do
      replace (u! "ᱹᱸ") (u! "ᱺ")
      replace (u! "ᱻᱸ") (u! "ᱸᱻ")
      pure ())
    (do
      replace (u! "ᱺ") (u! "ᱹᱸ")
      replace (u! "ᱽ") (u! "’")
      replace (u! "ᱸᱻ") (u! "ᱻᱸ")
      pure ())
  pure ()

/-- ConvertFix.py:2396-2411 -/
def ConvertFix.FixSoraSompeng (reverse : Bool := false) : Gen Unit := do
  let t1 ← crunchSymbols GM.Consonants (u! "SoraSompeng")
  let ListC := (((u! "(") ++ (pyJoin (u! "|") t1)) ++ (u! ")"))
  branch (!reverse)
    (do
      reSub (ListC ++ (u! "(ə)")) (u! "\\1")
      replace (u! "ə") (u! "𑃦𑃨")
      pure ())
    (do
      let t2 ← crunchSymbols GM.Vowels (u! "SoraSompeng")
      let ListV := (((u! "(") ++ (pyJoin (u! "|") t2)) ++ (u! ")"))
      reSub (((ListC ++ (u! "(?!")) ++ ListV) ++ (u! ")")) ((u! "\\1") ++ (u! "ə"))
      replace (u! "𑃔ə𑃨") (u! "𑃔𑃨ə")
      replace (u! "𑃦𑃨") (u! "ə")
      replace (u! "ə𑃨") (u! "𑃨")
      pure ())
  pure ()

/-- ConvertFix.py:819-865 -/
def ConvertFix.FixWancho (reverse : Bool := false) : Gen Unit := do
  let tonemarks := [(u! "𞋬"), (u! "𞋭"), (u! "𞋮"), (u! "𞋯")]
  let tonewri := [(u! "\\_"), (u! "\\-"), (u! "\\!"), (u! "\\;")]
  let nasalization := [(u! "𞋦"), (u! "𞋧"), (u! "𞋨"), (u! "𞋪")]
  let nasvowels := [(u! "𞋕"), (u! "𞋛"), (u! "𞋀"), (u! "𞋞")]
  let Anusvaras := [(u! "𞋢"), (u! "𞋣"), (u! "𞋤"), (u! "𞋥")]
  let AnusvaraVowels := [(u! "𞋕"), (u! "𞋀"), (u! "𞋁"), (u! "𞋜")]
  branch (!reverse)
    (do
      forEach (pyZip tonemarks tonewri) fun (x, y) => do
        replace y x
      forEach (pyZip nasvowels nasalization) fun (x, y) => do
        replace (x ++ (u! "ʿ")) y
      replace (u! "ʿ") (u! "𞋉")
      forEach (pyZip AnusvaraVowels Anusvaras) fun (x, y) => do
        replace (x ++ (u! "ʾ")) y
      replace (u! "ʾ") (u! "𞋝")
      replace (u! "𞋋𞋗") (u! "𞋡")
      replace (u! "𞋋𞋎") (u! "𞋠")
      replace (u! "𞋓Ø") (u! "𞋒")
      replace (u! "Ø") (u! "")
      pure ())
    (do
      forEach (pyZip tonemarks tonewri) fun (x, y) => do
        replace x y
      forEach (pyZip nasvowels nasalization) fun (x, y) => do
        replace y (x ++ (u! "ʿ"))
      forEach (pyZip AnusvaraVowels Anusvaras) fun (x, y) => do
        replace y (x ++ (u! "ʾ"))
      replace (u! "𞋡") (u! "𞋋𞋗")
      replace (u! "𞋠") (u! "𞋋𞋎")
      replace (u! "𞋒") (u! "𞋓Ø")
      pure ())
  pure ()

/-- ConvertFix.py:2483-2535 -/
def ConvertFix.FixWarangCiti (reverse : Bool := false) : Gen Unit := do
  let t1 ← crunchSymbols GM.Consonants (u! "WarangCiti")
  let ListC := (((u! "(") ++ (pyJoin (u! "|") t1)) ++ (u! ")"))
  let t2 ← crunchSymbols GM.Vowels (u! "WarangCiti")
  let ListV := (((u! "(") ++ (pyJoin (u! "|") (t2 ++ [(u! "\u200d")]))) ++ (u! ")"))
  branch (!reverse)
    (do
      reSub (ListC ++ ListC) (((u! "\\1") ++ (u! "\u200d")) ++ (u! "\\2"))
      reSub (ListC ++ (u! "(𑣁𑣙ʾ)")) ((u! "\\1") ++ (u! "½"))
      reSub (ListC ++ (u! "(𑣁)")) (u! "\\1")
      reSub (ListV ++ (u! "(𑣀)")) (((u! "\\1") ++ (u! "\u200d")) ++ (u! "\\2"))
      replace (u! "ʾ") (u! "")
      replace (u! "𑣟ʿ") (u! "𑣙𑣗")
      replace (u! "½") (u! "𑣁")
      replace (u! "ʿ") (u! "")
      pure ())
    (do
      host .lower
      replace (u! "𑣙𑣗") (u! "𑣟ʿ")
      replace (u! "×") (u! "\u200d")
      reSub (ListC ++ (u! "(𑣁)")) ((u! "\\1") ++ (u! "½"))
      reSub ((u! "(ʿ)") ++ (u! "(𑣁)")) ((u! "\\1") ++ (u! "𑣁½"))
      reSub (((ListC ++ (u! "(?!")) ++ ListV) ++ (u! ")")) ((u! "\\1") ++ (u! "𑣁"))
      reSub (u! "([𑣔𑣕𑣌𑣋𑣏𑣎𑣒𑣑𑣕𑣔𑣘𑣗𑣛])(\u200d)(𑣙)") (((u! "\\1") ++ (u! "Ö")) ++ (u! "\\3"))
      replace (u! "\u200d") (u! "")
      replace (u! "Ö") (u! "\u200d")
      reSub (((u! "(𑣁)") ++ (u! "(ʿ)")) ++ ListV) (u! "\\2\\3")
      replace ((u! "𑣁") ++ (u! "ʻ")) (u! "")
      replace (u! "𑣁½") (u! "𑣁𑣙ʾ")
      pure ())
  pure ()

/-- ConvertFix.py:266-353 -/
def ConvertFix.PostFixRomanOutput (Source : PyStr) (Target : PyStr) : Gen Unit := do
  replace (u! "ʽ") (u! "")
  ConvertFix.FixVedic Target
  branch (pyIn Target [(u! "IAST"), (u! "ISO"), (u! "ISOPali"), (u! "Titus")])
    (do
      replace (u! "uʼ") (u! "ü")
      replace (u! "ūʼ") (u! "ǖ")
      replace (u! "aʼ") (u! "ö")
      replace (u! "āʼ") (u! "ȫ")
      pure ())
    (do
      pure ())
  branch ((pyEq Source (u! "Sinhala")) && (pyEq Target (u! "IPA")))
    (do
      ConvertFix.SinhalaIPAFix
      pure ())
    (do
      pure ())
  branch (pyEq Target (u! "IPA"))
    (do
      ConvertFix.FixIPA
      pure ())
    (do
      pure ())
  branch (pyEq Target (u! "Santali"))
    (do
      ConvertFix.FixSantali
      pure ())
    (do
      pure ())
  branch (pyEq Target (u! "Avestan"))
    (do
      ConvertFix.FixAvestan
      pure ())
    (do
      pure ())
  branch (pyEq Target (u! "SoraSompeng"))
    (do
      ConvertFix.FixSoraSompeng
      pure ())
    (do
      pure ())
  branch (pyEq Target (u! "WarangCiti"))
    (do
      ConvertFix.FixWarangCiti
      pure ())
    (do
      pure ())
  branch (pyEq Target (u! "Wancho"))
    (do
      ConvertFix.FixWancho
      pure ())
    (do
      pure ())
  branch (pyEq Target (u! "Mro"))
    (do
      ConvertFix.FixMro
      pure ())
    (do
      pure ())
  branch (pyEq Target (u! "RomanReadable"))
    (do
      ConvertFix.FixRomanReadable
      branch (pyEq Source (u! "Tamil"))
        (do
          replace (u! "t") (u! "th")
          replace (u! "d") (u! "dh")
          replace (u! "h'") (u! "")
          pure ())
        (do
          pure ())
      pure ())
    (do
      pure ())
  branch (pyEq Target (u! "RomanColloquial"))
    (do
      branch (pyEq Source (u! "Tamil"))
        (do
          replace (u! "t") (u! "th")
          replace (u! "d") (u! "dh")
          replace (u! "h'") (u! "")
          pure ())
        (do
          pure ())
      branch (pyEq Source (u! "Oriya"))
        (do
          replace (u! "ksh") (u! "x")
          reSub (u! "x(?=[aeiou])") (u! "ksh")
          replace (u! "jny") (u! "gy")
          replace (u! "sh") (u! "s")
          replace (u! "r'") (u! "d")
          pure ())
        (do
          pure ())
      branch (pyEq Source (u! "Bengali"))
        (do
          replace (u! "m'") (u! "ng")
          pure ())
        (do
          pure ())
      ConvertFix.FixRomanColloquial
      pure ())
    (do
      pure ())
  branch ((pyEq Target (u! "IAST")) || (pyEq Target (u! "IASTPali")))
    (do
      replace (u! "a_i") (u! "aï")
      replace (u! "a_u") (u! "aü")
      pure ())
    (do
      pure ())
  branch ((pyEq Target (u! "ISO")) || (pyEq Target (u! "ISOPali")))
    (do
      replace (u! "\\’") (u! "\\'")
      replace (u! "\\’ʽ") (u! "\\'")
      replace (u! "a_i") (u! "a:i")
      replace (u! "a_u") (u! "a:u")
      pure ())
    (do
      pure ())
  branch ((pyEq Target (u! "Velthuis")) || (pyEq Target (u! "Itrans")))
    (do
      replace (u! "\\.a") (u! "\\'")
      pure ())
    (do
      pure ())
  branch (pyEq Target (u! "Aksharaa"))
    (do
      replace (u! "\\a;") (u! "\\'")
      pure ())
    (do
      pure ())
  branch (pyEq Target (u! "HanifiRohingya"))
    (do
      ConvertFix.FixHanifiRohingya
      pure ())
    (do
      pure ())
  branch (pyEq Target (u! "Mongolian"))
    (do
      ConvertFix.FixMongolian
      pure ())
    (do
      pure ())
  branch (pyEq Target (u! "Itrans"))
    (do
      reSub (u! "([aAiIuUeo])(RR)(i|I)") (((u! "\\1") ++ (u! "R_L")) ++ (u! "\\3"))
      reSub (u! "([aAiIuUeo])(LL)(i|I)") (((u! "\\1") ++ (u! "L_L")) ++ (u! "\\3"))
      pure ())
    (do
      pure ())
  branch ((pyIn Source [(u! "IAST"), (u! "ISO")]) && (pyEq Target (u! "Malayalam")))
    (do
      replace (u! "ṯ") (u! "ṟ")
      pure ())
    (do
      pure ())
  pure ()

/-- ConvertFix.py:393-417 -/
def ConvertFix.FixHebr (Source : PyStr) (reverse : Bool := false) : Gen Unit := do
  let t1 ← crunchSymbols GM.VowelSigns (u! "Hebrew")
  let vowelsigns := (((u! "(") ++ (pyJoin (u! "|") (t1 ++ [(u! "ּ")]))) ++ (u! ")"))
  let t2 ← crunchSymbols GM.VowelSigns (u! "Hebrew")
  let vowelsigns2 := (((u! "(") ++ (pyJoin (u! "|") (t2 ++ [(u! "ּ")]))) ++ (u! ")?"))
  branch (!reverse)
    (do
      reSub (((u! "(׳)") ++ vowelsigns) ++ vowelsigns2) (u! "\\3\\2\\1")
      reSub (u! "(וֹ)(׳)") (u! "\\2\\1")
      reSub (u! "(וּ)(׳)") (u! "\\2\\1")
      reSub (u! "(׳)(ַ)") (u! "\\2\\1")
      reSub (u! "(׳)(ַ)") (u! "\\1")
      pure ())
    (do
      let vowels := [(u! "ְ"), (u! "ֱ"), (u! "ֲ"), (u! "ֳ"), (u! "ִ"), (u! "ֵ"), (u! "ֶ"), (u! "ַ"), (u! "ָ"), (u! "ֹ"), (u! "ֺ"), (u! "ֻ"), (u! "ׇ"), (u! "ּ")]
      let vowelsR := (((u! "(") ++ (pyJoin (u! "|") (vowels ++ [(u! "וֹ"), (u! "וּ")]))) ++ (u! ")"))
      reSub (vowelsR ++ (u! "(׳)")) (u! "\\2\\1")
      reSub (vowelsR ++ (u! "(׳)")) (u! "\\2\\1")
      reSub (vowelsR ++ (u! "(׳)")) (u! "\\2\\1")
      reSub (vowelsR ++ (u! "(׳)")) (u! "\\2\\1")
      pure ())
  pure ()

/-- ConvertFix.py:419-604 -/
def ConvertFix.FixHebrew (reverse : Bool := false) : Gen Unit := do
  let t1 ← crunchSymbols GM.VowelSigns (u! "Hebrew")
  let vowelsigns := (((u! "(") ++ (pyJoin (u! "|") t1)) ++ (u! ")"))
  let t2 ← crunchSymbols GM.Consonants (u! "Hebrew")
  let consonants := (((u! "(") ++ (pyJoin (u! "|") (t2 ++ [(u! "צּ"), (u! "גּ")]))) ++ (u! ")"))
  let t3 ← crunchSymbols GM.VowelSigns (u! "Hebrew")
  let vowelsignsA := (((u! "(") ++ (pyJoin (u! "|") (t3 ++ [(u! "ַ")]))) ++ (u! ")"))
  let t4 ← crunchSymbols GM.VowelSigns (u! "Hebrew")
  let vowelsignsAD := (((u! "(") ++ (pyJoin (u! "|") (t4 ++ [(u! "ַ"), (u! "ּ")]))) ++ (u! ")"))
  let t5 ← crunchSymbols GM.VowelSigns (u! "Hebrew")
  let vowelsignsADShin := (((u! "(") ++ (pyJoin (u! "|") (t5 ++ [(u! "ַ"), (u! "ּ"), (u! "ׁ")]))) ++ (u! ")"))
  let t6 ← crunchSymbols GM.VowelSigns (u! "Hebrew")
  let vowelsignsADShinG := (((u! "(") ++ (pyJoin (u! "|") (t6 ++ [(u! "ַ"), (u! "ּ"), (u! "ׁ"), (u! "׳")]))) ++ (u! ")"))
  let finalCons := [(u! "כ"), (u! "מ"), (u! "נ"), (u! "פ"), (u! "צ"), (u! "פּ"), (u! "כּ")]
  let finals := [(u! "ך"), (u! "ם"), (u! "ן"), (u! "ף"), (u! "ץ"), (u! "ףּ"), (u! "ךּ")]
  let otherCons := (pySplit (u! "ב,ח,ע,צ,ש,ת") (u! ","))
  let t7 ← crunchSymbols GM.Consonants (u! "Hebrew")
  let consonantsAll := (((u! "(") ++ (pyJoin (u! "|") (((t7 ++ finals) ++ otherCons) ++ [(u! "׳")]))) ++ (u! ")"))
  branch (!reverse)
    (do
      replace (u! "ʽ") (u! "")
      replace (u! "ʾ") (u! "")
      replace (u! "ג׳ְג׳") (u! "גּ׳")
      replace (u! "צ׳ְצ׳") (u! "צּ׳")
      reSub (((u! "מְ") ++ (u! "ʼ")) ++ (u! "([גדזטכצקת])")) ((u! "נְ") ++ (u! "\\1"))
      reSub ((u! "מְ") ++ (u! "ʼ")) (u! "מְ")
      reSub (((consonants ++ (u! "(?!")) ++ vowelsigns) ++ (u! ")")) (((u! "\\1") ++ (u! "ַ")) ++ (u! "\\2"))
      replace (u! "ַּ") (u! "ַּ")
      replace (u! "ַַ") (u! "ַ")
      replace (u! "ְַּ") (u! "ְּ")
      reSub ((u! "(׳)") ++ vowelsigns) (u! "\\2\\1")
      reSub (u! "(וֹ)(׳)") (u! "\\2\\1")
      reSub (u! "(וּ)(׳)") (u! "\\2\\1")
      reSub (u! "(׳)(ַ)") (u! "\\2\\1")
      reSub (u! "(׳)(ַ)") (u! "\\1")
      reSub ((u! "(ַ)") ++ vowelsigns) (u! "\\2")
      reSub (((u! "(ַ)") ++ (u! "(ּ)")) ++ vowelsigns) (u! "\\2\\3")
      reSub (((((u! "([") ++ (u! "ושרקסנמליזטײ")) ++ (u! "הגדת")) ++ (u! "])(ְ)")) ++ (u! "\\1")) ((u! "\\1") ++ (u! "ּ"))
      reSub ((u! "(שׁ)(ְ)") ++ (u! "\\1")) ((u! "\\1") ++ (u! "ּ"))
      replace (u! "כְּכּ") (u! "קּ")
      replace (u! "פְּפּ") (u! "פּ")
      replace (u! "בְּבּ") (u! "בּ")
      let shortVowels := (((u! "(") ++ (pyJoin (u! "|") [(u! "ַ"), (u! "ָ"), (u! "ִ"), (u! "ֻ"), (u! "ֵ"), (u! "ֶ"), (u! "ֹ"), (u! "ְ")])) ++ (u! ")"))
      let vowelsAll := (((u! "(") ++ (pyJoin (u! "|") ([(u! "ַ"), (u! "ָ"), (u! "ִ"), (u! "ֻ"), (u! "ֵ"), (u! "ֶ"), (u! "ֹ"), (u! "ְ"), (u! "י"), (u! "וֹ"), (u! "וּ")] ++ [(u! "׳")]))) ++ (u! ")"))
      forEach (pyZip finalCons finals) fun (c, f) => do
        reSub ((((((((vowelsAll ++ (u! "(")) ++ c) ++ (u! ")")) ++ shortVowels) ++ (u! "(׳?)")) ++ (u! "(?!")) ++ consonantsAll) ++ (u! "|י|ו)")) ((((u! "\\1") ++ f) ++ (u! "\\3")) ++ (u! "\\4"))
      reSub ((((u! "(?<!ה)(ְ)(׳?)") ++ (u! "(?!")) ++ consonantsAll) ++ (u! "|י|ו)")) (u! "\\2\\3")
      replace ((u! "װ") ++ (u! "ֹ")) (u! "וֺ")
      replace (u! "װ") (u! "ו")
      replace (u! "ײ") (u! "י")
      replace (u! "ʼ") (u! "")
      pure ())
    (do
      let vowels := [(u! "ְ"), (u! "ֱ"), (u! "ֲ"), (u! "ֳ"), (u! "ִ"), (u! "ֵ"), (u! "ֶ"), (u! "ַ"), (u! "ָ"), (u! "ֹ"), (u! "ֺ"), (u! "ֻ"), (u! "ׇ")]
      let vowelsR := (((u! "(") ++ (pyJoin (u! "|") (vowels ++ [(u! "וֹ"), (u! "וּ")]))) ++ (u! ")"))
      forEach (pyZip finals finalCons) fun (f, c) => do
        replace f c
      reSub (vowelsR ++ (u! "([ּׁׂ])")) (u! "\\2\\1")
      replace (u! "אֲ") (u! "אַ")
      replace (u! "עֲ") (u! "אַ")
      replace (u! "ֱ") (u! "ֶ")
      replace (u! "ֳ") (u! "ֹ")
      replace (u! "ֲ") (u! "ַ")
      reSub ((((u! "(?<=[ֵֶַָֹ])([א])") ++ (u! "(?!")) ++ vowelsignsA) ++ (u! ")")) (u! "")
      reSub ((((u! "(?<=[ִֵֶַָֹֻ])([ה])") ++ (u! "(?!")) ++ vowelsignsAD) ++ (u! ")")) (u! "")
      reSub (((((u! "(?<=[ֵֶ])([י])") ++ (u! "(?!")) ++ vowelsR) ++ vowelsigns) ++ (u! ")")) (u! "")
      replace (u! "הּ") (u! "ה")
      reSub (((u! "([") ++ (u! "שרקסנמליזט")) ++ (u! "])(ּ)")) ((((u! "\\1") ++ (u! "ְ")) ++ (u! "ְ")) ++ (u! "\\1"))
      reSub (u! "([דתצה])(ּ)") ((((u! "\\1") ++ (u! "ְ")) ++ (u! "ְ")) ++ (u! "\\1"))
      replace (u! "ת") (u! "ט")
      replace (u! "ח") (u! "כ")
      replace (u! "ע") (u! "א")
      replace (u! "שׂ") (u! "ס")
      reSub (u! "ש(?![ׂׄ])") (u! "שׁ")
      replace (u! "ׁׁ") (u! "ׁ")
      reSub (u! "ב(?!ּ)") (u! "װ")
      reSub (vowelsR ++ (u! "(׳)")) (u! "\\2\\1")
      replace (u! "גּ׳") (u! "ג׳ְג׳")
      replace (u! "צּ׳") (u! "צ׳ְצ׳")
      reSub ((u! "צ") ++ (u! "(?!׳)")) (u! "טְְס")
      reSub ((u! "(\\s|^|\\.|,|א)") ++ (u! "(וֹ|וּ)")) ((u! "א") ++ (u! "\\1\\2"))
      reSub ((u! "(וּ)") ++ vowelsignsA) ((u! "װְװ") ++ (u! "\\2"))
      reSub ((((u! "י") ++ (u! "(?=")) ++ vowelsigns) ++ (u! "|ַ)")) (u! "ײ")
      reSub ((((u! "ו") ++ (u! "(?=")) ++ (u! "[ְִֵֶַָׇֺֻ]")) ++ (u! "|ַ)")) (u! "װ")
      reSub (u! "(?<!ִ)(י)") (u! "ײ")
      reSub (u! "(ו)(?![ֹֺּ])") (u! "װ")
      replace (u! "ֺ") (u! "ֹ")
      reSub (((u! "[א](?!") ++ vowelsR) ++ (u! ")")) (u! "")
      reSub (((consonantsAll ++ (u! "(?!")) ++ vowelsignsADShinG) ++ (u! ")")) (((u! "\\1") ++ (u! "ְ")) ++ (u! "\\2"))
      replace (u! "אְ") (u! "")
      whenDyn (.has (u! "௞"))
        (do
          replace (u! "௞") (u! "")
          replace ((u! "ְ") ++ (u! "ְ")) (u! "ְ")
          pure ())
        (do
          reSub (((u! "(\\s|\\.|,|^)") ++ consonantsAll) ++ (u! "(ְ)")) ((u! "\\1\\2") ++ (u! "ֶ"))
          reSub ((u! "(ּ)") ++ (u! "(ְ)")) ((u! "\\1") ++ (u! "ֶ"))
          reSub ((((((((consonantsAll ++ (u! "(ְ")) ++ (u! "ְ")) ++ (u! ")")) ++ (u! "(")) ++ (u! "\\1")) ++ (u! ")(")) ++ (u! "ְ")) ++ (u! ")")) ((u! "\\1\\2\\3") ++ (u! "ֶ"))
          reSub (((((consonantsAll ++ (u! "(ְ)")) ++ (u! "(")) ++ (u! "\\1")) ++ (u! ")")) ++ (u! "(?!(\\s|\\.|\n|,|$))")) (((u! "\\1") ++ (u! "ֶ")) ++ (u! "\\3"))
          reSub ((((consonantsAll ++ (u! "(ְ)")) ++ consonantsAll) ++ (u! "(ְ)")) ++ (u! "(?!(\\s|\\.|\n|,|$))")) (((u! "\\1\\2") ++ (u! "\\3")) ++ (u! "ֶ"))
          replace ((u! "ְ") ++ (u! "ְ")) (u! "ְ")
          replace ((u! "ֶ") ++ (u! "ְ")) (u! "ְ")
          pure ())
      reSub (u! "(?<![אע])ַ") (u! "")
      pure ())
  replace (u! "௞") (u! "")
  pure ()

/-- ConvertFix.py:685-708 -/
def ConvertFix.FixMasaramGondi (reverse : Bool := false) : Gen Unit := do
  let t1 ← crunchSymbols GM.Consonants (u! "MasaramGondi")
  let consList := (((u! "(") ++ (pyJoin (u! "|") t1)) ++ (u! ")"))
  branch (!reverse)
    (do
      replace (u! "𑴌𑵅𑴪") (u! "𑴮")
      replace (u! "𑴓𑵅𑴕") (u! "𑴯")
      replace (u! "𑴛𑵅𑴦") (u! "𑴰")
      reSub (consList ++ (u! "𑵅𑴦")) ((u! "\\1") ++ (u! "𑵇"))
      reSub ((u! "𑴦𑵅") ++ consList) ((u! "𑵆") ++ (u! "\\1"))
      reSub (((u! "𑵅(?!") ++ consList) ++ (u! ")")) (u! "𑵄")
      pure ())
    (do
      replace (u! "𑴮") (u! "𑴌𑵅𑴪")
      replace (u! "𑴯") (u! "𑴓𑵅𑴕")
      replace (u! "𑴰") (u! "𑴛𑵅𑴦")
      replace (u! "𑵇") (u! "𑵅𑴦")
      replace (u! "𑵆") (u! "𑴦𑵅")
      replace (u! "𑵄") (u! "𑵅")
      pure ())
  pure ()

/-- ConvertFix.py:711-726 -/
def ConvertFix.FixGunjalaGondi (reverse : Bool := false) : Gen Unit := do
  let t1 ← crunchSymbols GM.Consonants (u! "GunjalaGondi")
  let consList := (((u! "(") ++ (pyJoin (u! "|") t1)) ++ (u! ")"))
  branch (!reverse)
    (do
      reSub (u! "(𑵺ʾ)([𑵻𑵼𑶀𑶁])") ((u! "𑶕") ++ (u! "\\1"))
      reSub (u! "(𑵺ʿ)([𑵽𑵾𑶂𑶃])") ((u! "𑶕") ++ (u! "\\1"))
      replace (u! "ʾ") (u! "")
      replace (u! "ʿ") (u! "")
      reSub (((u! "𑶗(?!") ++ consList) ++ (u! ")")) (u! "")
      pure ())
    (do
      pure ())
  pure ()

/-- ConvertFix.py:728-774 -/
def ConvertFix.FixSoyombo (reverse : Bool := false) : Gen Unit := do
  let finVir := [(u! "𑩞𑪙"), (u! "𑩜𑪙"), (u! "𑩠𑪙"), (u! "𑩭𑪙"), (u! "𑩯𑪙"), (u! "𑩲𑪙"), (u! "𑩴𑪙"), (u! "𑩼𑪙"), (u! "𑩽𑪙"), (u! "𑩿𑪙"), (u! "𑪁𑪙")]
  let fin := [(u! "𑪊"), (u! "𑪋"), (u! "𑪌"), (u! "𑪍"), (u! "𑪎"), (u! "𑪏"), (u! "𑪐"), (u! "𑪑"), (u! "𑪒"), (u! "𑪓"), (u! "𑪔")]
  let t1 ← crunchSymbols GM.Consonants (u! "Soyombo")
  let consList := (((u! "(") ++ (pyJoin (u! "|") t1)) ++ (u! ")"))
  branch (!reverse)
    (do
      replace (u! "𑩜𑪙𑪀") (u! "𑪃")
      reSub ((((u! "𑩿𑪙") ++ (u! "(?=")) ++ consList) ++ (u! ")")) (u! "𑪈")
      reSub ((u! "(?<!𑪙)(.)𑪙") ++ (u! "\\1")) ((u! "\\1") ++ (u! "𑪘"))
      whenDyn (.has (u! "ʾ"))
        (do
          forEach (pyZip finVir fin) fun (x, y) => do
            reSub (((x ++ (u! "(?!")) ++ consList) ++ (u! ")")) y
          reSub (((u! "𑪈(?!") ++ consList) ++ (u! ")")) (u! "𑪓")
          replace (u! "ʾ") (u! "")
          pure ())
        (do
          pure ())
      reSub (((u! "𑪙(?!") ++ consList) ++ (u! ")")) (u! "")
      pure ())
    (do
      replace (u! "𑪚") (u! " ")
      replace (u! "𑪃") (u! "𑩜𑪙𑪀")
      reSub (u! "(.)𑪘") (((u! "\\1") ++ (u! "𑪙")) ++ (u! "\\1"))
      let viraCon := [(u! "𑩼𑪙"), (u! "𑩽𑪙"), (u! "𑪁𑪙"), (u! "𑩿𑪙")]
      let initial := [(u! "𑪆"), (u! "𑪇"), (u! "𑪉"), (u! "𑪈")]
      forEach (pyZip viraCon initial) fun (x, y) => do
        replace y x
      let tsaSeries := [(u! "𑩵"), (u! "𑩶"), (u! "𑩷")]
      let caSeries := [(u! "𑩡"), (u! "𑩢"), (u! "𑩣")]
      forEach (pyZip tsaSeries caSeries) fun (x, y) => do
        replace y x
      forEach (pyZip finVir fin) fun (x, y) => do
        replace y x
      pure ())
  pure ()

/-- ConvertFix.py:2283-2309; the forward direction is `Verif.kharoshthiNumerals`. -/
def ConvertFix.KharoshthiNumerals (reverse : Bool := false) : Gen Unit := do
  branch (!reverse)
    (native .kharoshthiNumerals)
    (do
      replace (u! "𐩀") (u! "1#")
      replace (u! "𐩁") (u! "2#")
      replace (u! "𐩂") (u! "3#")
      replace (u! "𐩃") (u! "4#")
      replace (u! "𐩄") (u! "10#")
      replace (u! "𐩅") (u! "20#")
      replace (u! "𐩆") (u! "100#")
      replace (u! "𐩇") (u! "1000#"))

/-- ConvertFix.py:776-779 -/
def ConvertFix.FixKharoshthi (reverse : Bool := false) : Gen Unit := do
  ConvertFix.KharoshthiNumerals reverse
  pure ()

/-- ConvertFix.py:781-802 -/
def ConvertFix.FixMarchen (reverse : Bool := false) : Gen Unit := do
  let subjoinCons := (pySplit (u! "𑱲 𑱳 𑱴 𑱵 𑱶 𑱷 𑱸 𑱹 𑱺 𑱻 𑱼 𑱽 𑱾 𑱿 𑲀 𑲁 𑲂 𑲃 𑲄 𑲅 𑲆 𑲇 𑲉 𑲊 𑲋 𑲌 𑲍 𑲎") (u! " "))
  let subjoined := (pySplit (u! "𑲒 𑲓 𑲔 𑲕 𑲖 𑲗 𑲘 𑲙 𑲚 𑲛 𑲜 𑲝 𑲞 𑲟 𑲠 𑲡 𑲢 𑲣 𑲤 𑲥 𑲦 𑲧 𑲩 𑲪 𑲫 𑲬 𑲭 𑲮") (u! " "))
  branch (!reverse)
    (do
      forEach (pyZip subjoinCons subjoined) fun (x, y) => do
        replace ((u! "ʾ") ++ x) y
      replace (u! "ʾ") (u! "")
      replace (u! "ʿ") (u! "")
      pure ())
    (do
      let tsaSeries := [(u! "𑲂"), (u! "𑲃"), (u! "𑲄")]
      let jaSereis := [(u! "𑱶"), (u! "𑱷"), (u! "𑱸")]
      forEach (pyZip tsaSeries jaSereis) fun (x, y) => do
        replace y x
      forEach (pyZip subjoinCons subjoined) fun (x, y) => do
        replace y ((u! "ʾ") ++ x)
      pure ())
  pure ()

/-- ConvertFix.py:867-879 -/
def ConvertFix.FixSiddham (reverse : Bool := false) : Gen Unit := do
  branch (!reverse)
    (do
      pure ())
    (do
      replace (u! "𑗜") (u! "𑖲")
      replace (u! "𑗝") (u! "𑖳")
      replace (u! "𑗛") (u! "𑖄")
      replace (u! "𑗘") (u! "𑖂")
      replace (u! "𑗙") (u! "𑖂")
      replace (u! "𑗚") (u! "𑖃")
      pure ())
  pure ()

/-- ConvertFix.py:881-887 -/
def ConvertFix.FixBhaiksuki (reverse : Bool := false) : Gen Unit := do
  branch (!reverse)
    (do
      replace (u! " ") (u! "𑱃")
      pure ())
    (do
      replace (u! "𑱃") (u! " ")
      pure ())
  pure ()

/-- ConvertFix.py:889-900 -/
def ConvertFix.FixKhudawadi (reverse : Bool := false) : Gen Unit := do
  let sindhi := [(u! "𑊽"), (u! "𑋃"), (u! "𑋉"), (u! "𑋕")]
  let sindhiapprox := [(u! "ˍ𑊼"), (u! "ˍ𑋂"), (u! "ˍ𑋈"), (u! "ˍ𑋔")]
  branch (!reverse)
    (do
      forEach (pyZip sindhi sindhiapprox) fun (x, y) => do
        replace y x
      pure ())
    (do
      forEach (pyZip sindhi sindhiapprox) fun (x, y) => do
        replace x y
      pure ())
  pure ()

/-- ConvertFix.py:1003-1017 -/
def ConvertFix.CorrectRuLu (Target : PyStr) (reverse : Bool := false) : Gen Unit := do
  let t1 ← crunchList .ConsonantMap Target
  let t2 ← index t1 26
  let ra := t2
  let t3 ← crunchList .ConsonantMap Target
  let t4 ← index t3 27
  let la := t4
  let t5 ← crunchSymbols GM.VowelSigns Target
  let uuu := (pySlice t5 (some 4) (some 6))
  let ap := (u! "ʼ")
  let ruCons := ((uuu.map fun x => ((ra ++ x) ++ ap)) ++ (uuu.map fun x => ((la ++ x) ++ ap)))
  let t6 ← crunchSymbols GM.Vowels Target
  forEach (pyZip ruCons (pySlice t6 (some 6) (some 10))) fun (x, y) => do
    branch (!reverse)
      (do
        replace x y
        pure ())
      (do
        replace y x
        pure ())
  pure ()

/-- PostProcess.py:2888-2898 -/
def PostProcess.RetainDandasIndic (Target : PyStr) (reverse : Bool := false) : Gen Unit := do
  let t1 ← crunchList .SignMap Target
  let Dandas := (pySlice t1 (some 1) (some 3))
  branch (!reverse)
    (do
      let t2 ← index Dandas 1
      replace (u! "..") t2
      let t3 ← index Dandas 0
      replace (u! ".") t3
      pure ())
    (do
      let t4 ← index Dandas 0
      replace t4 (u! ".")
      let t5 ← index Dandas 1
      replace t5 (u! "..")
      pure ())
  pure ()

/-- PostProcess.py:2900-2911 -/
def PostProcess.RetainIndicNumerals (Target : PyStr) (reverse : Bool := false) : Gen Unit := do
  let t1 ← crunchList .NumeralMap Target
  let NativeNumerals := t1
  let t2 ← crunchList .NumeralMap (u! "ISO")
  let ArabicNumerals := t2
  branch (!reverse)
    (do
      forEach (pyZip ArabicNumerals NativeNumerals) fun (x, y) => do
        reSub ((u! "(?<!h)") ++ x) y
      pure ())
    (do
      forEach (pyZip NativeNumerals ArabicNumerals) fun (x, y) => do
        replace x y
      pure ())
  pure ()

/-- ConvertFix.py:903-932 -/
def ConvertFix.FixTamil (reverse : Bool := false) : Gen Unit := do
  ConvertFix.CorrectRuLu (u! "Tamil") reverse
  let t1 ← index (modAttr (u! "Tamil") .SignMap) 0
  let ava := t1
  let avaA := (u! "(ஆ)")
  let VedicSign := [(u! "॑"), (u! "॒"), (u! "᳚")]
  let TamilDiacritic := [(u! "ʼ"), (u! "ˮ"), (u! "꞉")]
  branch (!reverse)
    (do
      replace (ava ++ ava) avaA
      PostProcess.RetainDandasIndic (u! "Tamil") true
      PostProcess.RetainIndicNumerals (u! "Tamil") true
      forEach TamilDiacritic fun x => do
        forEach VedicSign fun y => do
          replace (x ++ y) (y ++ x)
      pure ())
    (do
      PostProcess.RetainDandasIndic (u! "Tamil")
      PostProcess.RetainIndicNumerals (u! "Tamil")
      replace avaA (ava ++ ava)
      replace (u! "ஷ²") (u! "ஶ")
      replace (u! "𑌃") (u! "꞉")
      forEach TamilDiacritic fun x => do
        forEach VedicSign fun y => do
          replace (y ++ x) (x ++ y)
      pure ())
  pure ()

/-- ConvertFix.py:934-940 -/
def ConvertFix.FixOriya (reverse : Bool := false) : Gen Unit := do
  branch (!reverse)
    (do
      pure ())
    (do
      replace (u! "ଵ") (u! "ୱ")
      pure ())
  pure ()

/-- PostProcess.py:2568-2581 -/
def PostProcess.InsertGeminationSign (Target : PyStr) : Gen Unit := do
  let t1 ← crunchSymbols GM.VowelSigns Target
  let t2 ← index t1 0
  let vir := t2
  let t5 ← pmap [0, 2, 5, 7, 10, 12, 15, 17, 20, 22, 4, 9, 14, 19, 24, 25, 26, 27, 28, 29, 30, 31, 32] fun x => (do let t3 ← crunchList .ConsonantMap Target; let t4 ← index t3 x; pure t4)
  let ConUnAsp := t5
  let t6 ← crunchList .SouthConsonantMap Target
  let t7 ← crunchList .NuktaConsonantMap Target
  let ConUnAsp := ((ConUnAsp ++ t6) ++ t7)
  let t10 ← pmap [1, 3, 6, 8, 11, 13, 16, 18, 21, 23] fun x => (do let t8 ← crunchList .ConsonantMap Target; let t9 ← index t8 x; pure t9)
  let ConAsp := t10
  let t13 ← pmap [0, 2, 5, 7, 10, 12, 15, 17, 20, 22, 4, 9, 14, 19, 24] fun x => (do let t11 ← crunchList .ConsonantMap Target; let t12 ← index t11 x; pure t12)
  let ConOthrs := t13
  let t14 ← dictGet GM.Gemination Target
  reSub (((((((u! "(") ++ (pyJoin (u! "|") ConUnAsp)) ++ (u! ")")) ++ (u! "(")) ++ vir) ++ (u! ")")) ++ (u! "\\1")) (t14 ++ (u! "\\1"))
  forEach (List.range (ConAsp).length) fun i => do
    let t15 ← index ConUnAsp i
    let t16 ← index ConAsp i
    let t17 ← dictGet GM.Gemination Target
    reSub (((((((((u! "(") ++ t15) ++ (u! ")")) ++ (u! "(")) ++ vir) ++ (u! ")")) ++ (u! "(")) ++ t16) ++ (u! ")")) (t17 ++ (u! "\\3"))
  pure ()

end Verif
