import Verif.Model.Crunch
import Verif.Model.Fns6

/-!
# Text functions of ConvertFix.py, PreProcess.py and PostProcess.py, part 7

Generated by tools/genfuncs.py, in dependency order, one definition per Python function and one
line per statement.
-/

set_option maxRecDepth 20000
set_option linter.unusedVariables false

namespace Verif

/-- PostProcess.py:88-90 -/
def PostProcess.AnusvaraAsN : Gen Unit := do
  replace (u! "m\u034f") (u! "n")
  pure ()

/-- PostProcess.py:93-96 -/
def PostProcess.ShowSchwaHindi : Gen Unit := do
  PreProcess.RemoveSchwaHindi true
  pure ()

/-- PostProcess.py:98-101 -/
def PostProcess.KannadaSpacingCandrabindu : Gen Unit := do
  replace (u! "ಁ") (u! "ಀ")
  pure ()

/-- PostProcess.py:103-108 -/
def PostProcess.KannadaNotRepha : Gen Unit := do
  let t1 ← crunchSymbols GM.Consonants (u! "Kannada")
  let ListC := (((u! "(") ++ (pyJoin (u! "|") t1)) ++ (u! ")"))
  reSub (((u! "ರ್(?=") ++ ListC) ++ (u! ")")) (u! "ರ\u200d್")
  pure ()

/-- PostProcess.py:110-115 -/
def PostProcess.KannadaNakaraPollu : Gen Unit := do
  let t1 ← crunchSymbols GM.Consonants (u! "Kannada")
  let ListC := (((u! "(") ++ (pyJoin (u! "|") t1)) ++ (u! ")"))
  reSub (((u! "(?<!್)ನ್(?!") ++ ListC) ++ (u! ")")) (u! "ೝ")
  pure ()

/-- PostProcess.py:117-120 -/
def PostProcess.TeluguRemoveNukta : Gen Unit := do
  replace (u! "఼") (u! "")
  pure ()

/-- PostProcess.py:122-125 -/
def PostProcess.TeluguRemoveAeAo : Gen Unit := do
  replace (u! "॒\u200b") (u! "")
  pure ()

/-- PostProcess.py:127-132 -/
def PostProcess.TeluguNakaraPollu : Gen Unit := do
  let t1 ← crunchSymbols GM.Consonants (u! "Telugu")
  let ListC := (((u! "(") ++ (pyJoin (u! "|") t1)) ++ (u! ")"))
  reSub (((u! "(?<!్)న్(?!") ++ ListC) ++ (u! ")")) (u! "ౝ")
  pure ()

/-- PostProcess.py:135-137 -/
def PostProcess.syriacVowelsBelow : Gen Unit := do
  pure ()

/-- PostProcess.py:140-142 -/
def PostProcess.syriacWesternOToU : Gen Unit := do
  pure ()

/-- PostProcess.py:145-147 -/
def PostProcess.olddogra : Gen Unit := do
  pure ()

/-- PostProcess.py:150-161 -/
def PostProcess.ISO259Target : Gen Unit := do
  let replacements := [((u! "b"), (u! "ḃ")), ((u! "p"), (u! "ṗ")), ((u! "k"), (u! "k̇")), ((u! "ḵ"), (u! "k")), ((u! "v"), (u! "b")), ((u! "f"), (u! "p")), ((u! "꞉"), (u! "̇")), ((u! "š̪"), (u! "ś")), ((u! "š̮"), (u! "š")), ((u! "š"), (u! "s̀")), ((u! "ā"), (u! "å")), ((u! "e"), (u! "ȩ")), ((u! "ō"), (u! "ŵ")), ((u! "ū"), (u! "ẇ")), ((u! "̽"), (u! "°")), ((u! "ĕ"), (u! "ḝ"))]
  forEach replacements fun (x, y) => do
    replace x y
  replace (u! "°̇") (u! "̇°")
  pure ()

/-- PostProcess.py:164-182 -/
def PostProcess.HebrewSBLTarget : Gen Unit := do
  let replacements := [((u! "v"), (u! "ḇ")), ((u! "f"), (u! "p̄")), ((u! "d"), (u! "ḏ")), ((u! "ḏ꞉"), (u! "d")), ((u! "g"), (u! "ḡ")), ((u! "ḡ꞉"), (u! "g")), ((u! "t"), (u! "ṯ")), ((u! "ṯ꞉"), (u! "t")), ((u! "š̪"), (u! "ś")), ((u! "š̮"), (u! "š")), ((u! "ō"), (u! "ô")), ((u! "o"), (u! "ō")), ((u! "ū"), (u! "û")), ((u! "̽"), (u! "ĕ"))]
  forEach replacements fun (x, y) => do
    replace x y
  replace (u! "ĕ꞉") (u! "꞉ĕ")
  whenDyn (.has (u! "׎"))
    (do
      replace (u! "ḏ") (u! "d")
      replace (u! "ṯ") (u! "t")
      replace (u! "ḡ") (u! "g")
      replace (u! "׎") (u! "")
      pure ())
    (do
      pure ())
  replace (u! "°̇") (u! "̇°")
  pure ()

/-- PostProcess.py:185-191 -/
def PostProcess.removetddash : Gen Unit := do
  append (u! "׎")
  replace (u! "d") (u! "d꞉")
  replace (u! "t") (u! "t꞉")
  replace (u! "g") (u! "g꞉")
  replace (u! "ḏ") (u! "d")
  replace (u! "ṯ") (u! "t")
  replace (u! "ḡ") (u! "g")
  replace (u! "׎") (u! "")
  pure ()

/-- PostProcess.py:194-196 -/
def PostProcess.ISO259Source : Gen Unit := do
  pure ()

/-- PostProcess.py:199-201 -/
def PostProcess.ISO233Source : Gen Unit := do
  pure ()

/-- PostProcess.py:204-206 -/
def PostProcess.HebrewSBLSource : Gen Unit := do
  pure ()

/-- PostProcess.py:209-211 -/
def PostProcess.PersianDMGSBLSource : Gen Unit := do
  pure ()

/-- PostProcess.py:214-221 -/
def PostProcess.ISO233Target : Gen Unit := do
  let replacements := [((u! "j"), (u! "ǧ")), ((u! "g"), (u! "ǧ")), ((u! "ḧ"), (u! "ẗ")), ((u! "ḫ"), (u! "ẖ")), ((u! "a̮"), (u! "ỳ")), ((u! "ˀ"), (u! "ˈ")), ((u! "aⁿ"), (u! "á")), ((u! "iⁿ"), (u! "í")), ((u! "uⁿ"), (u! "ú")), ((u! "ā̂"), (u! "ʾâ")), ((u! "̽"), (u! ""))]
  forEach replacements fun (x, y) => do
    replace x y
  pure ()

/-- PostProcess.py:224-227 -/
def PostProcess.inherentAO : Gen Unit := do
  replace (u! "a") (u! "ô")
  pure ()

/-- PostProcess.py:229-232 -/
def PostProcess.BengaliOldRA : Gen Unit := do
  replace (u! "র") (u! "ৰ")
  pure ()

/-- PostProcess.py:235-241 -/
def PostProcess.PersianDMGTarget : Gen Unit := do
  let replacements := [((u! "ḏ"), (u! "ẕ")), ((u! "ḍ"), (u! "ż")), ((u! "ṯ"), (u! "s̱")), ((u! "j"), (u! "ǧ")), ((u! "ˀ"), (u! "ʼ")), ((u! "ʔ"), (u! "ʼ")), ((u! "ȳ"), (u! "ye")), ((u! "ā̂"), (u! "ā")), ((u! "̽"), (u! ""))]
  forEach replacements fun (x, y) => do
    replace x y
  pure ()

/-- PostProcess.py:290-295 -/
def PostProcess.BengaliSwitchYaYYa : Gen Unit := do
  reSub (u! "(?<!্)য") (u! "@#$")
  reSub (u! "য়") (u! "য")
  replace (u! "@#$") (u! "য়")
  pure ()

/-- PostProcess.py:359-362 -/
def PostProcess.syriacRoman : Gen Unit := do
  replace (u! "v") (u! "ḇ")
  replace (u! "ġ") (u! "ḡ")
  replace (u! "ḫ") (u! "ḵ")
  replace (u! "f") (u! "p̄")
  pure ()

/-- PostProcess.py:365-368 -/
def PostProcess.alephAyinLatnAlternate : Gen Unit := do
  replace (u! "ʾ") (u! "ʼ")
  replace (u! "ʿ") (u! "ʽ")
  pure ()

/-- PostProcess.py:371-374 -/
def PostProcess.alephAyinLatnAlternate2 : Gen Unit := do
  replace (u! "ʾ") (u! "ʔ")
  replace (u! "ʿ") (u! "ʕ")
  pure ()

/-- PostProcess.py:377-380 -/
def PostProcess.ArabRemoveAdditions : Gen Unit := do
  replace (u! "ڨ") (u! "ج")
  replace (u! "ڤ") (u! "ف")
  replace (u! "پ") (u! "ف")
  pure ()

/-- PostProcess.py:383-387 -/
def PostProcess.arabicRemoveAdditionsPhonetic : Gen Unit := do
  replace (u! "ڨ") (u! "غ")
  replace (u! "ڤ") (u! "ف")
  replace (u! "پ") (u! "ب")
  pure ()

/-- PostProcess.py:397-404 -/
def PostProcess.removeNikkud : Gen Unit := do
  let nikkuds := [(u! "ַ"), (u! "ָ"), (u! "ִ"), (u! "ִי"), (u! "ֻ"), (u! "ׂ"), (u! "ׁ"), (u! "ֶ"), (u! "ֵ"), (u! "ֹ"), (u! "וֹ"), (u! "ֱ"), (u! "ֲ"), (u! "ֳ"), (u! "ּ"), (u! "ְ"), (u! "ׇ")]
  forEach nikkuds fun nikkud => do
    replace nikkud (u! "")
  pure ()

/-- PostProcess.py:421-424 -/
def PostProcess.removeMajliyana : Gen Unit := do
  replace (u! "̰") (u! "")
  pure ()

/-- PostProcess.py:427-430 -/
def PostProcess.removeRukkaka : Gen Unit := do
  replace (u! "݁") (u! "")
  pure ()

/-- PostProcess.py:433-436 -/
def PostProcess.removeQussaya : Gen Unit := do
  replace (u! "݂") (u! "")
  pure ()

/-- PostProcess.py:439-444 -/
def PostProcess.removeVowelsSyriac : Gen Unit := do
  reSub (u! "[ܼܸܹܲܵܿ]") (u! "")
  reSub (u! "[ّܰܶܺܽܳ]") (u! "")
  pure ()

/-- PostProcess.py:447-453 -/
def PostProcess.removeDiacriticsArabic : Gen Unit := do
  let diacrtics := [(u! "ْ"), (u! "َ"), (u! "ِ"), (u! "ُ")]
  forEach diacrtics fun diacritic => do
    replace diacritic (u! "")
  pure ()

/-- PostProcess.py:456-459 -/
def PostProcess.removeSukunEnd : Gen Unit := do
  reSub (u! "(ْ)(\\W|$)") (u! "\\2")
  pure ()

/-- PostProcess.py:462-465 -/
def PostProcess.persianPaGaFaJa : Gen Unit := do
  replace (u! "پ") (u! "ف")
  replace (u! "گ") (u! "ج")
  pure ()

/-- PostProcess.py:468-470 -/
def PostProcess.removeDiacriticsPersian : Gen Unit := do
  pure ()

/-- PostProcess.py:473-475 -/
def PostProcess.removeDiacriticsSyriac : Gen Unit := do
  pure ()

/-- PostProcess.py:478-480 -/
def PostProcess.useKtivMale : Gen Unit := do
  pure ()

/-- PostProcess.py:483-485 -/
def PostProcess.PhoneticMapping : Gen Unit := do
  pure ()

end Verif
