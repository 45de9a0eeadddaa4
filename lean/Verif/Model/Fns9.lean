import Verif.Model.Crunch
import Verif.Model.Fns8

/-!
# Text functions of ConvertFix.py, PreProcess.py and PostProcess.py, part 9

Generated by tools/genfuncs.py, in dependency order, one definition per Python function and one
line per statement.
-/

set_option maxRecDepth 20000
set_option linter.unusedVariables false

namespace Verif

/-- PostProcess.py:984-986 -/
def PostProcess.devanagarinepali : Gen Unit := do
  pure ()

/-- PostProcess.py:988-990 -/
def PostProcess.devanagaribalbodh : Gen Unit := do
  pure ()

/-- PostProcess.py:992-994 -/
def PostProcess.devanagarijain : Gen Unit := do
  pure ()

/-- PostProcess.py:996-998 -/
def PostProcess.HiraganaaunotDipthong : Gen Unit := do
  pure ()

/-- PostProcess.py:1001-1003 -/
def PostProcess.IASTISONasalTilde : Gen Unit := do
  pure ()

/-- PostProcess.py:1006-1009 -/
def PostProcess.HeberewQoph : Gen Unit := do
  replace (u! "כּ") (u! "ק")
  replace (u! "ךּ") (u! "ק")
  pure ()

/-- PostProcess.py:1012-1015 -/
def PostProcess.HebewShortO : Gen Unit := do
  reSub (u! "(?<!ו)ֹ") (u! "ׇ")
  pure ()

/-- PostProcess.py:1018-1022 -/
def PostProcess.HebrewKatevMalei : Gen Unit := do
  replace (u! "ָ") (u! "א")
  replace (u! "ַ") (u! "א")
  pure ()

/-- PostProcess.py:1025-1054 -/
def PostProcess.HebrewnonFinalShort : Gen Unit := do
  let finals := [(u! "ך"), (u! "ם"), (u! "ן"), (u! "ף"), (u! "ץ"), (u! "ףּ"), (u! "ךּ")]
  let finalCons := [(u! "כ"), (u! "מ"), (u! "נ"), (u! "פ"), (u! "צ"), (u! "פּ"), (u! "כּ")]
  let otherCons := (pySplit (u! "ב,ח,ע,צ,ש,ת") (u! ","))
  let t1 ← crunchSymbols GM.Consonants (u! "Hebrew")
  let consonantsAll := (((u! "(") ++ (pyJoin (u! "|") (((t1 ++ finals) ++ [(u! "׳"), (u! "י"), (u! "ו")]) ++ otherCons))) ++ (u! ")"))
  let shortVowels := [(u! "ַ"), (u! "ָ"), (u! "ִ"), (u! "ֻ"), (u! "ֵ"), (u! "ֶ"), (u! "ֹ"), (u! "ׇ")]
  let shortVowelsR := (((u! "(") ++ (pyJoin (u! "|") ([(u! "ַ"), (u! "ָ"), (u! "ִ"), (u! "ֻ"), (u! "ֵ"), (u! "ֶ"), (u! "ֹ"), (u! "ׇ")] ++ [(u! "׳")]))) ++ (u! ")"))
  forEach shortVowels fun s => do
    reSub (((((((u! "(") ++ s) ++ (u! ")")) ++ (u! "(׳?)")) ++ (u! "(?!")) ++ consonantsAll) ++ (u! ")")) (((u! "\\1\\2") ++ (u! "ה")) ++ (u! "ʾ"))
  forEach (pyZip finals finalCons) fun (f, c) => do
    reSub (((((((u! "(") ++ f) ++ (u! ")")) ++ shortVowelsR) ++ (u! "(׳?)")) ++ (u! "ה")) ++ (u! "ʾ")) ((c ++ (u! "\\2\\3")) ++ (u! "ה"))
  forEach finals fun f => do
    replace (f ++ (u! "ְ")) f
  replace ((((u! "ְ") ++ (u! "׳")) ++ (u! "ה")) ++ (u! "ʾ")) ((u! "ְ") ++ (u! "׳"))
  replace ((u! "וֹה") ++ (u! "ʾ")) (u! "וֹ")
  replace (u! "ʾ") (u! "")
  let uVowels := [(u! "וֹ"), (u! "וּ")]
  pure ()

/-- PostProcess.py:2688-2711 -/
def PostProcess.NasalToAnusvara (Target : PyStr) : Gen Unit := do
  let t3 ← pmap [4, 9, 14, 19, 24] fun x => (do let t1 ← crunchSymbols GM.Consonants Target; let t2 ← index t1 x; pure t2)
  let ListN := t3
  let t4 ← crunchList .ConsonantMap Target
  let t5 ← crunchList .ConsonantMap Target
  let t6 ← crunchList .ConsonantMap Target
  let t7 ← crunchList .ConsonantMap Target
  let t8 ← crunchList .ConsonantMap Target
  let ListC := [(pyJoin (u! "|") (pySlice t4 (some 0) (some 4))), (pyJoin (u! "|") (pySlice t5 (some 5) (some 9))), (pyJoin (u! "|") (pySlice t6 (some 10) (some 14))), (pyJoin (u! "|") (pySlice t7 (some 15) (some 19))), (pyJoin (u! "|") (pySlice t8 (some 20) (some 24)))]
  let t9 ← crunchSymbols GM.Characters Target
  let ListCAll := (((u! "(") ++ (pyJoin (u! "|") t9)) ++ (u! ")"))
  let t10 ← crunchSymbols GM.VowelSigns Target
  let t11 ← index t10 0
  let vir := t11
  let t12 ← crunchSymbols GM.CombiningSigns Target
  let t13 ← index t12 1
  let Anu := t13
  forEach (List.range (ListN).length) fun i => do
    let t14 ← index ListN i
    let t15 ← index ListC i
    reSub (((((((((((((ListCAll ++ GM.VedicSvaras) ++ (u! "(?<!")) ++ vir) ++ (u! ")")) ++ (u! "(")) ++ t14) ++ (u! ")")) ++ (u! "(")) ++ vir) ++ (u! ")")) ++ (u! "(")) ++ t15) ++ (u! ")")) (((u! "\\1\\2") ++ Anu) ++ (u! "\\5"))
    let t16 ← index ListN i
    let t17 ← index ListC i
    reSub (((((((((((((ListCAll ++ GM.VedicSvaras) ++ (u! "(?<!")) ++ vir) ++ (u! ")")) ++ (u! "(")) ++ t16) ++ (u! ")")) ++ (u! "(")) ++ vir) ++ (u! ")")) ++ (u! "(")) ++ t17) ++ (u! ")")) (((u! "\\1\\2") ++ Anu) ++ (u! "\\5"))
  forEach GM.VedicSvarasList fun svara => do
    replace (svara ++ Anu) (Anu ++ svara)
  pure ()

/-- PostProcess.py:1056-1058 -/
def PostProcess.DevanagariAnusvara : Gen Unit := do
  PostProcess.NasalToAnusvara (u! "Devanagari")
  pure ()

/-- PostProcess.py:1060-1063 -/
def PostProcess.jainomDevangari : Gen Unit := do
  replace (u! "ॐ") (u! "ꣽ")
  pure ()

/-- PostProcess.py:1065-1068 -/
def PostProcess.GurmukhiCandrabindu : Gen Unit := do
  replace (u! "ਁ") (u! "ਂ")
  pure ()

/-- PostProcess.py:1071-1074 -/
def PostProcess.mDotAboveToBelow : Gen Unit := do
  replace (u! "ṃ") (u! "ṁ")
  pure ()

/-- PostProcess.py:1077-1080 -/
def PostProcess.mDotBelowToAbove : Gen Unit := do
  replace (u! "ṁ") (u! "ṃ")
  pure ()

/-- PostProcess.py:1084-1087 -/
def PostProcess.noLongEO : Gen Unit := do
  replace (u! "ē") (u! "e")
  replace (u! "ō") (u! "o")
  pure ()

/-- PostProcess.py:1089-1092 -/
def PostProcess.TamilStyleUUCore : Gen Unit := do
  reSub ((u! "([ഖഗഘഛഝഠഡഢഥദധഫബഭ])") ++ (u! "([ുൂ])")) (((u! "\\1") ++ (u! "\u200d")) ++ (u! "\\2"))
  pure ()

/-- PostProcess.py:1094-1100 -/
def PostProcess.TamilStyleUUOther : Gen Unit := do
  reSub ((u! "([ജശഷസഹ])") ++ (u! "([ുൂ])")) (((u! "\\1") ++ (u! "\u200d")) ++ (u! "\\2"))
  reSub ((u! "(ശ്ര)") ++ (u! "([ുൂ])")) (((u! "\\1") ++ (u! "\u200d")) ++ (u! "\\2"))
  reSub ((u! "(ശ്\u200dര)") ++ (u! "([ുൂ])")) (((u! "\\1") ++ (u! "\u200d")) ++ (u! "\\2"))
  pure ()

/-- PostProcess.py:1102-1128 -/
def PostProcess.ContextualLLa : Gen Unit := do
  let t1 ← crunchSymbols GM.VowelSigns (u! "Tamil")
  let ListVS := (pyJoin (u! "|") t1)
  let t2 ← crunchSymbols GM.Consonants (u! "Tamil")
  let ListC := (pyJoin (u! "|") t2)
  reSub ((u! "(ஆவ|ாவ)") ++ (u! "ல")) ((u! "\\1") ++ (u! "ள"))
  reSub ((u! "(்ரவா|்ரவ|ர|பவ|வி|ரா|ஷ்க|த⁴வ)") ++ (u! "ல")) ((u! "\\1") ++ (u! "ள"))
  reSub ((u! "(யா|யாம|கோம)") ++ (u! "ல")) ((u! "\\1") ++ (u! "ள"))
  reSub ((u! "(மௌ)") ++ (u! "ல")) ((u! "\\1") ++ (u! "ள"))
  reSub ((u! "([\\s^])(ந)") ++ (u! "ல")) ((u! "\\1") ++ (u! "ள"))
  replace (u! "கலத்ர") (u! "களத்ர")
  replace (u! "ஶீதல") (u! "ஶீதள")
  replace (u! "ஸுதல") (u! "ஸுதள")
  replace (u! "காலி") (u! "காளி")
  replace (u! "காலீ") (u! "காளீ")
  replace (u! "கலேவர") (u! "களேவர")
  replace (u! "கலேவர") (u! "களேவர")
  replace (u! "ப³ஹுல") (u! "ப³ஹுள")
  replace (u! "கஶ்மல") (u! "கஶ்மள")
  reSub ((((((u! "([கத])") ++ (u! "(")) ++ ListVS) ++ (u! ")?")) ++ (u! "([³⁴])")) ++ (u! "ல")) ((u! "\\1\\2\\3") ++ (u! "ள"))
  reSub ((u! "(ஜு)") ++ (u! "ல")) ((u! "\\1") ++ (u! "ள"))
  reSub ((u! "(து)") ++ (u! "லசி")) ((u! "\\1") ++ (u! "ளசி"))
  reSub ((u! "(ரிம)") ++ (u! "ல")) ((u! "\\1") ++ (u! "ள"))
  replace (u! "ள்ய") (u! "ல்ய")
  pure ()

/-- PostProcess.py:1130-1137 -/
def PostProcess.FinalNNa : Gen Unit := do
  reSub (u! "ன") (u! "ந")
  reSub ((u! "ந்") ++ (u! "([\\.।॥,!-])")) ((u! "ன்") ++ (u! "\\1"))
  reSub ((u! "ந்") ++ (u! "(\\s)")) ((u! "ன்") ++ (u! "\\1"))
  reSub (u! "ந்$") (u! "ன்")
  pure ()

/-- PostProcess.py:1139-1312 -/
def PostProcess.TamilpredictDentaNaExtended : Gen Unit := do
  let listDentalNa := (pySplit (u! "ഩഖ\nഩഗര\nഩകുല\nഩഗ്\u200cഩ\nഩക്ഷത്\u200cര\nഩടരാജ\nഩടീ\nഩദീ\nഩന്\u200cദഩ\nഩപുംസക\nഩഭ**\nഩമ**\nഩമശ്\u200c\nഩമസ്\u200c\nഩമാമ\nഩമാമി\nഩമാമോ\nഩമുചി\nഩമോ\nഩമോനമ\nഩമോനമോ\nഩമോസ്\u200cതു\nഩമോസ്\u200cതുതേ\nഩമഃ\nഩയഩ\nഩര**\nഩരക\nഩര്\u200cതക\nഩര്\u200cതഩ\nഩര്\u200cമദ\nഩല**\nഩലിഩ\nഩവ**\nഩവീഩ\nഩവ്\u200cയ\nഩശ്\u200c**\nഩഷ്\u200cട\nഩാരായണ\nഩാഗ\nഩാടക\nഩാഡീ\nഩാട്\u200cയ\nഩാഡ്\u200cയ\nഩാഥ\nഩാദ\nഩാരത\nഩാഩാ***\nഩാഩ്\u200cയ**\nഩാഩൃത\nഩാഭ\nഩാമ\nഩായക\nഩായികാ\nഩാരദ\nഩാരസിംഹ\nഩാരി\nഩാരീ\nഩാവ***\nഩാശ\nഩാസിക\nഩിഗമ\nഩികട\nഩികര\nഩികാമ\nഩികായ\nഩിഖില\nഩികുഞ്\u200cജ\nഩിഘൂഩ\nഩികേത\nഩിഗ്\u200cരഹ\nഩിഗൃഹ\nഩികൃന്\u200cത\nഩിഗ്\u200cരന്\u200cത\nഩിക്ഷിപ\nഩിക്ഷേപ\nഩിഘ്\u200cഩ\nഩിജ\nഩിദര്\u200cശ\nഩിതമ്\u200cബ\nഩിതര\nഩിദാഘ\nഩിദാഩ\nഩിതാന്\u200cത\nഩിധാഩ\nഩിധായ\nഩിധ\nഩിധേഹി\nഩിദ്\u200cര\nഩിത്\u200cയ\nഩിന്\u200cദാ\nഩിബദ്\u200cധ\nഩിബധ്\u200c\nഩിബന്\u200cധഩ\nഩിപട\nഩിപതിത\nഩിപത്\u200cയ\nഩിപപാത\nഩിപാതിത\nഩിപാത്\u200cയ\nഩിപുണ\nഩിബോധ\nഩിഭൃത\nഩിമഗ്\u200cഩ\nഩിമിത്\u200cത\nഩിമിഷ\nഩിയത\nഩിയന്\u200cത\nഩിയന്\u200cത്\u200cര\nഩിയമ\nഩിയുക്\u200cത\nഩിയുജ്\u200cയ\nഩിയോ\nഩിര\nഩിര്\u200c\nഩിലയ\nഩിവര്\u200c\nഩിവസ\nഩിവാര\nഩിവാസ\nഩിവിഷ്\u200cട\nഩിവേദ\nഩിവേശ\nഩിവൃ\nഩിശ\nഩിശ്\u200c\nഩിഷ\nഩിഷ്\u200c\nഩിസ\nഩിസ്\u200c\nഩിഹിത\nഩിഃശ\nഩിഃഷ\nഩിഃസ\nഩീച\nഩീതി\nഩീര\nഩീല\nഩൂതഩ\nഩൂപുര\nഩേത്\u200cര\nഩേയ**\nഩൈമിത്\u200cത\nഩൈമിഷ\nഩൈരാശ്\u200cയ\nഩൈരൃത\nഩൈവേദ്\u200cയ\nഩൈഷ്\u200c\nഩ്\u200cയായ\nഩ്\u200cയാസ\nഩ്\u200cയൂഩ\nഩൃ") (u! "\n"))
  let t1 ← index (modAttr (u! "Tamil") .ViramaMap) 0
  let vir := t1
  forEach listDentalNa fun wordNna => do
    let t2 ← staticReSub (u! "^ഩ") (u! "ന") wordNna
    let wordNa := t2
    let t3 ← indexChar wordNna (-1)
    let t4 ← indexChar wordNna (-1)
    let t5 ← indexChar wordNna (-1)
    branch ((pyIn (u! "²") t3) || (pyIn (u! "³") t4) || (pyIn (u! "⁴") t5))
      (do
        let t6 ← indexChar wordNna (-1)
        let number := t6
        let wordNnaN := (pySlice wordNna none (some (-1)))
        let wordNaN := (pySlice wordNa none (some (-1)))
        let t7 ← crunchSymbols GM.VowelSigns (u! "Tamil")
        forEach t7 fun vow => do
          replace ((wordNnaN ++ vow) ++ number) ((wordNaN ++ vow) ++ number)
        pure ())
      (do
        pure ())
    replace wordNna wordNa
    forEach [(u! "ഩാമ"), (u! "ഩര")] fun wordNna => do
      let t8 ← staticReSub (u! "^ഩ") (u! "ന") wordNna
      let wordNa := t8
      replace (wordNa ++ vir) (wordNna ++ vir)
    replace (u! "ഩ്\u200cന") (u! "ന്\u200cന")
  pure ()

/-- PostProcess.py:1314-1491 -/
def PostProcess.TamilpredictDentaNa : Gen Unit := do
  let listDentalNa := (pySplit (u! "னக²\nனக³ர\nனகுல\nனக்³ன\nனக்ஷத்ர\nனடராஜ\nனடீ\nனதீ³\nனந்த³ன\nனபும்ʼஸக\nனப⁴**\nனம**\nனமஶ்\nனமஸ்\nனமாம\nனமாமி\nனமாமோ\nனமுசி\nனமோ\nனமோநம\nனமோநமோ\nனமோஸ்து\nனமோஸ்துதே\nனம꞉\nனயன\nனர**\nனரக\nனர்தக\nனர்தன\nனர்மத³\nனல**\nனலின\nனவ**\nனவீன\nனவ்ய\nனஶ்**\nனஷ்ட\nனாராயண\nனாக³\nனாடக\nனாடீ³\nனாட்ய\nனாட்³ய\nனாத²\nனாத³\nனாரத\nனானா***\nனான்ய**\nனான்ருʼத\nனாப⁴\nனாம\nனாயக\nனாயிகா\nனாரத³\nனாரஸிம்ʼஹ\nனாரி\nனாரீ\nனாவ***\nனாஶ\nனாஸிக\nனிக³ம\nனிகட\nனிகர\nனிகாம\nனிகாய\nனிகி²ல\nனிகுஞ்ஜ\nனிகூ⁴ன\nனிகேத\nனிக்³ரஹ\nனிக்³ருʼஹ\nனிக்ருʼந்த\nனிக்³ரந்த\nனிக்ஷிப\nனிக்ஷேப\nனிக்⁴ன\nனிஜ\nனித³ர்ஶ\nனிதம்ப³\nனிதர\nனிதா³க⁴\nனிதா³ன\nனிதாந்த\nனிதா⁴ன\nனிதா⁴ய\nனித⁴\nனிதே⁴ஹி\nனித்³ர\nனித்ய\nனிந்தா³\nனிப³த்³த⁴\nனிப³த்⁴\nனிப³ந்த⁴ன\nனிபட\nனிபதித\nனிபத்ய\nனிபபாத\nனிபாதித\nனிபாத்ய\nனிபுண\nனிபோ³த⁴\nனிப்⁴ருʼத\nனிமக்³ன\nனிமித்த\nனிமிஷ\nனியத\nனியந்த\nனியந்த்ர\nனியம\nனியுக்த\nனியுஜ்ய\nனியோ\nனிர\nனிர்\nனிலய\nனிவர்\nனிவஸ\nனிவார\nனிவாஸ\nனிவிஷ்ட\nனிவேத³\nனிவேஶ\nனிவ்ருʼ\nனிஶ\nனிஶ்\nனிஷ\nனிஷ்\nனிஸ\nனிஸ்\nனிஹித\nனி꞉ஶ\nனி꞉ஷ\nனி꞉ஸ\nனீச\nனீதி\nனீர\nனீல\nனூதன\nனூபுர\nனேத்ர\nனேய**\nனைமித்த\nனைமிஷ\nனைராஶ்ய\nனைர்ருʼத\nனைவேத்³ய\nனைஷ்\nன்யாய\nன்யாஸ\nன்யூன\nன்ருʼ") (u! "\n"))
  let t1 ← index (modAttr (u! "Tamil") .ViramaMap) 0
  let vir := t1
  let Tamillist := (u! "²³⁴ஃஅஆஇஈஉஊஎஏஐஒஓஔகஙசஜஞடணதநனபமயரறலளழவஷஸஹாிீுூெேைொோௌ்ௗ")
  forEach listDentalNa fun wordNna => do
    let t2 ← staticReSub (u! "^ன") (u! "ந") wordNna
    let wordNa := t2
    let t3 ← indexChar wordNna (-1)
    let t4 ← indexChar wordNna (-1)
    let t5 ← indexChar wordNna (-1)
    branch ((pyIn (u! "²") t3) || (pyIn (u! "³") t4) || (pyIn (u! "⁴") t5))
      (do
        let t6 ← indexChar wordNna (-1)
        let number := t6
        let wordNnaN := (pySlice wordNna none (some (-1)))
        let wordNaN := (pySlice wordNa none (some (-1)))
        let t7 ← crunchSymbols GM.VowelSigns (u! "Tamil")
        forEach t7 fun vow => do
          replace ((wordNnaN ++ vow) ++ number) ((wordNaN ++ vow) ++ number)
        pure ())
      (do
        pure ())
    replace wordNna wordNa
    forEach [(u! "னாம"), (u! "னர")] fun wordNna => do
      let t8 ← staticReSub (u! "^ன") (u! "ந") wordNna
      let wordNa := t8
      reSub ((((((u! "([") ++ Tamillist) ++ (u! "])(")) ++ wordNa) ++ vir) ++ (u! ")")) (((u! "\\1") ++ wordNna) ++ vir)
    replace (u! "ன்ந") (u! "ந்ந")
    replace (u! "னாம்ன") (u! "நாம்ன")
  pure ()

/-- PostProcess.py:1493-1515 -/
def PostProcess.AhomClosed : Gen Unit := do
  let t1 ← index (modAttr (u! "Ahom") .ViramaMap) 0
  let vir := t1
  let t2 ← index (modAttr (u! "Ahom") .AyogavahaMap) 1
  let anu := t2
  replace (u! "𑜢") (u! "𑜣")
  reSub (((u! "(𑜣)(.)(") ++ vir) ++ (u! ")")) ((u! "𑜢") ++ (u! "\\2\\3"))
  replace (anu ++ (u! "𑜣")) (anu ++ (u! "𑜢"))
  replace (u! "𑜤") (u! "𑜥")
  reSub (((u! "(𑜥)(.)(") ++ vir) ++ (u! ")")) ((u! "𑜤") ++ (u! "\\2\\3"))
  replace (anu ++ (u! "𑜥")) (anu ++ (u! "𑜤"))
  reSub (((u! "(𑜦𑜧)(.)(") ++ vir) ++ (u! ")")) ((u! "𑜦") ++ (u! "\\2\\3"))
  replace (u! "𑜦𑜪𑜧") (anu ++ (u! "𑜧"))
  reSub (((u! "(𑜦𑜡)(.)(") ++ vir) ++ (u! ")")) ((u! "𑜨") ++ (u! "\\2\\3"))
  replace (u! "𑜦𑜪𑜡") (anu ++ (u! "𑜨"))
  pure ()

/-- PostProcess.py:1517-1519 -/
def PostProcess.TeluguTamilZha : Gen Unit := do
  pure ()

/-- PostProcess.py:1521-1526 -/
def PostProcess.TeluguTamilRra : Gen Unit := do
  replace (u! "ఱ్ఱ") (u! "ౘ్ౘ")
  replace (u! "ట్ర") (u! "ౘ్ౘ")
  replace (u! "ండ్ర") (u! "న్ఱ")
  pure ()

/-- PostProcess.py:3372-3405 -/
def PostProcess.ThaiTranscription (anusvaraChange : Bool := true) : Gen Unit := do
  ConvertFix.ThaiReverseVowelSigns true
  ConvertFix.ThaiDigraphConjuncts true
  ConvertFix.ThaiReverseVowelSigns
  PostProcess.ThaiLaoTranscription (u! "Thai") (u! "ะ") (u! "ั") (anusvaraChange := anusvaraChange)
  replace (u! "ะ์") (u! "์")
  replace (u! "ะงัง") (u! "ังํ")
  pure ()

/-- PostProcess.py:1528-1560 -/
def PostProcess.ThaiNativeConsonants : Gen Unit := do
  replace (u! "ท") (u! "ด")
  replace (u! "พ") (u! "บ")
  replace (u! "ึ") (u! "ิํ")
  replace (u! "ํ") (u! "งฺ")
  reSub (u! "(ฺ)([ยรลวห])") ((u! "͜") ++ (u! "\\2"))
  replace (u! "หฺ") (u! "ห͜")
  reSub (((u! "([ยรลวห])") ++ (u! "͜")) ++ (u! "\\1")) (((u! "\\1") ++ (u! "ฺ")) ++ (u! "\\1"))
  reSub (u! "(า)(.)(ฺ)") ((u! "็") ++ (u! "\\1\\2\\3"))
  reSub (u! "([เโ])(.)(.)(ฺ)") (((u! "\\1\\2") ++ (u! "็")) ++ (u! "\\3\\4"))
  PostProcess.ThaiTranscription false
  replace (u! "ะ͜") (u! "͜")
  replace (u! "ะ็") (u! "็")
  reSub (u! "([เโไ])(.)(͜)(.)([ะั])") (u! "\\1\\2\\3\\4")
  replace (u! "ค") (u! "ก̥")
  replace (u! "ช") (u! "จ̥")
  replace (u! "ํ") (u! "ง")
  replace (u! "ง") (u! "งํ")
  replace (u! "ะงํ͜") (u! "ังํ")
  reSub (u! "([เโไ])(งํ)([าัะ])") (((u! "\\1") ++ (u! "ง")) ++ (u! "\\2"))
  reSub (u! "([เโไ])(งํ)") ((u! "\\1") ++ (u! "ง"))
  reSub (u! "(งํ)([าัะ])") ((u! "ง") ++ (u! "\\2"))
  pure ()

/-- PostProcess.py:1562-1566 -/
def PostProcess.KhamiShanMyanmarNumerals : Gen Unit := do
  forEach (pyZip (modAttr (u! "KhamtiShan") .NumeralMap) (modAttr (u! "Burmese") .NumeralMap)) fun (x, y) => do
    replace x y
  pure ()

/-- PostProcess.py:1568-1572 -/
def PostProcess.KhamtiShanRa : Gen Unit := do
  replace (u! "ရ") (u! "ꩳ")
  pure ()

/-- PostProcess.py:1574-1576 -/
def PostProcess.granthafinal : Gen Unit := do
  pure ()

/-- PostProcess.py:1578-1582 -/
def PostProcess.Dot2Dandas : Gen Unit := do
  replace (u! "..") (u! "॥")
  replace (u! ".") (u! "।")
  pure ()

/-- PostProcess.py:1584-1588 -/
def PostProcess.Dot2Pipes : Gen Unit := do
  replace (u! "..") (u! "||")
  replace (u! ".") (u! "|")
  pure ()

/-- PostProcess.py:1590-1603 -/
def PostProcess.SaurastraHaaruColon : Gen Unit := do
  let t1 ← index (modAttr (u! "Tamil") .ViramaMap) 0
  let vir := t1
  let t2 ← index (modAttr (u! "Tamil") .ConsonantMap) (-1)
  let ha := t2
  replace (vir ++ ha) (u! ":")
  let t3 ← crunchSymbols GM.VowelSigns (u! "Tamil")
  let ListVS := (pyJoin (u! "|") t3)
  reSub ((((u! "(:)") ++ (u! "(")) ++ ListVS) ++ (u! ")")) (u! "\\2\\1")
  reSub (u! "(\\s)(ன)") ((u! "\\1") ++ (u! "ந"))
  reSub (u! "^ன") (u! "ந")
  pure ()

/-- PostProcess.py:1605-1623 -/
def PostProcess.TamilExtendedNNA : Gen Unit := do
  let t1 ← index (modAttr (u! "TamilExtended") .ConsonantMap) 19
  let na := t1
  let t2 ← index (modAttr (u! "TamilExtended") .SouthConsonantMap) 3
  let nna := t2
  let t3 ← index (modAttr (u! "TamilExtended") .ViramaMap) 0
  let vir := t3
  let t4 ← index (modAttr (u! "TamilExtended") .ConsonantMap) 15
  let ta := t4
  let t5 ← crunchSymbols ((GM.Vowels ++ GM.VowelSigns) ++ GM.Consonants) (u! "TamilExtended")
  let t6 ← index (modAttr (u! "TamilExtended") .SignMap) 0
  let ListV := (pyJoin (u! "|") (t5 ++ [t6]))
  reSub ((((((((((u! "(") ++ ListV) ++ (u! ")")) ++ GM.VedicSvaras) ++ (u! "(")) ++ na) ++ (u! ")")) ++ (u! "(?!")) ++ vir) ++ (u! ")")) ((u! "\\1\\2") ++ nna)
  reSub ((((((((((u! "(") ++ ListV) ++ (u! ")")) ++ GM.VedicSvaras) ++ (u! "(")) ++ na) ++ (u! ")")) ++ (u! "(?!")) ++ vir) ++ (u! ")")) ((u! "\\1\\2") ++ nna)
  reSub (u! "(ന്\u200c)(?![തഥദധ])") (u! "ഩ്\u200c")
  reSub (u! "(\\s)ഩ്") ((u! "\\1") ++ (u! "ന്\u200c"))
  reSub (u! "^ഩ്") ((u! "") ++ (u! "ന്\u200c"))
  PostProcess.TamilpredictDentaNaExtended
  pure ()

/-- PostProcess.py:1625-1629 -/
def PostProcess.TakriRemoveGemination : Gen Unit := do
  let t1 ← index (modAttr (u! "Takri") .ViramaMap) 0
  reSub (((u! "(.)") ++ t1) ++ (u! "\\1")) (u! "\\1")
  pure ()

/-- PostProcess.py:1631-1644 -/
def PostProcess.MongolianSyllabize : Gen Unit := do
  let t1 ← crunchSymbols GM.Vowels (u! "Mongolian")
  let vowels := (((u! "(") ++ (pyJoin (u! "|") (t1 ++ [(u! "ᠠ")]))) ++ (u! ")"))
  let t2 ← crunchSymbols GM.Consonants (u! "Mongolian")
  let consonants := (((u! "(") ++ (pyJoin (u! "|") t2)) ++ (u! ")"))
  reSub ((consonants ++ (u! "?")) ++ vowels) ((u! "\\1\\2") ++ (u! " "))
  reSub ((u! "(᠎ᠠ)") ++ consonants) (u! "\\1 \\2")
  reSub (u! "ᠠ ") (u! "ᠠ᠋ ")
  replace (u! "ᠣᠸᠠ᠋") (u! "ᠣᠸᠠ")
  replace (u! "ᠣᠸᠸᠠ᠋") (u! "ᠣᠸᠸᠠ")
  replace (u! " ᠎") (u! "᠎")
  replace ((u! " ") ++ (u! "\u200b")) (u! "")
  replace (u! " ᢁ") (u! "ᢁ")
  pure ()

/-- PostProcess.py:1646-1663 -/
def PostProcess.TibetanSyllabize : Gen Unit := do
  let t1 ← crunchSymbols GM.Vowels (u! "Tibetan")
  let vowels := (((u! "(") ++ (pyJoin (u! "|") t1)) ++ (u! ")"))
  let t2 ← crunchSymbols GM.Consonants (u! "Tibetan")
  let consonants := (((u! "(") ++ (pyJoin (u! "|") (t2 ++ [(u! "ཨ"), (u! "ཅ"), (u! "ཆ"), (u! "ཇ"), (u! "ཇྷ")]))) ++ (u! ")"))
  let t3 ← crunchSymbols GM.VowelSigns (u! "Tibetan")
  let vowelsigns := (((u! "(") ++ (pyJoin (u! "|") (t3 ++ [(u! "ྀ")]))) ++ (u! ")"))
  let t4 ← crunchSymbols GM.CombiningSigns (u! "Tibetan")
  let combiningSigns := (((u! "(") ++ (pyJoin (u! "|") (t4 ++ [(u! "ྂ")]))) ++ (u! ")"))
  let ListSubC := (((u! "(") ++ (pyJoin (u! "|") (((pyRange 3904 3944).map fun x => [(x + 80)]) ++ [(u! "ྻ"), (u! "ྺ"), (u! "ྼ")]))) ++ (u! ")"))
  reSub ((vowelsigns ++ combiningSigns) ++ (u! "?")) (u! "\\1\\2་")
  reSub consonants (u! "\\1་")
  reSub ListSubC (u! "\\1་")
  reSub ((u! "་") ++ vowelsigns) (u! "\\1")
  reSub ((u! "་") ++ ListSubC) (u! "\\1")
  reSub ((u! "་") ++ combiningSigns) (u! "\\1")
  reSub combiningSigns (u! "\\1་")
  replace (u! "་་") (u! "་")
  pure ()

/-- PostProcess.py:1665-1684 -/
def PostProcess.SoyomboSyllabize : Gen Unit := do
  let t1 ← crunchSymbols GM.Vowels (u! "Soyombo")
  let vowels := (((u! "(") ++ (pyJoin (u! "|") t1)) ++ (u! ")"))
  let t2 ← crunchSymbols GM.Consonants (u! "Soyombo")
  let consonants := (((u! "(") ++ (pyJoin (u! "|") (t2 ++ [(u! "𑩐"), (u! "𑪃")]))) ++ (u! ")"))
  let t3 ← crunchSymbols GM.VowelSigns (u! "Soyombo")
  let vowelsigns := (((u! "(") ++ (pyJoin (u! "|") t3)) ++ (u! ")"))
  let t4 ← crunchSymbols GM.CombiningSigns (u! "Soyombo")
  let combiningSigns := (((u! "(") ++ (pyJoin (u! "|") t4)) ++ (u! ")"))
  let fin := (((u! "(") ++ (pyJoin (u! "|") [(u! "𑪊"), (u! "𑪋"), (u! "𑪌"), (u! "𑪍"), (u! "𑪎"), (u! "𑪏"), (u! "𑪐"), (u! "𑪑"), (u! "𑪒"), (u! "𑪓"), (u! "𑪔")])) ++ (u! ")"))
  reSub ((vowelsigns ++ combiningSigns) ++ (u! "?")) (u! "\\1\\2 ")
  reSub consonants (u! "\\1 ")
  reSub ((u! " ") ++ vowelsigns) (u! "\\1")
  reSub ((u! " ") ++ combiningSigns) (u! "\\1")
  reSub ((u! "𑪙") ++ (u! " ")) (u! "𑪙")
  reSub combiningSigns (u! "\\1 ")
  reSub (u! " 𑪘") (u! "𑪘")
  reSub fin (u! "\\1 ")
  reSub ((u! "( )") ++ fin) (u! "\\2 ")
  pure ()

/-- PostProcess.py:1687-1689 -/
def PostProcess.TakriArchaicKha : Gen Unit := do
  replace (u! "𑚸") (u! "𑚋")
  pure ()

/-- PostProcess.py:1691-1696 -/
def PostProcess.TeluguReph : Gen Unit := do
  let t1 ← crunchSymbols GM.Consonants (u! "Telugu")
  let consonants := (((u! "(") ++ (pyJoin (u! "|") t1)) ++ (u! ")"))
  reSub ((u! "ర్") ++ consonants) ((u! "ర్\u200d") ++ (u! "\\1"))
  replace (u! "్ర్\u200d") (u! "్ర్")
  pure ()

end Verif
