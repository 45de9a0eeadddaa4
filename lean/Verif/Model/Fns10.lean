import Verif.Model.Crunch
import Verif.Model.Fns9

/-!
# Text functions of ConvertFix.py, PreProcess.py and PostProcess.py, part 10

Generated by tools/genfuncs.py, in dependency order, one definition per Python function and one
line per statement.
-/

set_option maxRecDepth 20000
set_option linter.unusedVariables false

namespace Verif

/-- PostProcess.py:1698-1700 -/
def PostProcess.PhagsPaTib : Gen Unit := do
  pure ()

/-- PostProcess.py:1702-1704 -/
def PostProcess.PhagsPaSeal : Gen Unit := do
  pure ()

/-- PostProcess.py:1706-1710 -/
def PostProcess.TamilExtendedAnusvara : Gen Unit := do
  PostProcess.AnusvaraToNasal (u! "TamilExtended")
  replace (u! "ം") (u! "മ്\u200c")
  pure ()

/-- PostProcess.py:1712-1723 -/
def PostProcess.RomanReadableLongEO : Gen Unit := do
  replace (u! "o") (u! "oa")
  replace (u! "oa'") (u! "o")
  replace (u! "e") (u! "ae")
  replace (u! "ae'") (u! "e")
  replace (u! "aeae") (u! "ee")
  replace (u! "oaoa") (u! "oo")
  pure ()

/-- PostProcess.py:1725-1728 -/
def PostProcess.TeluguArasunnaChandrabindu : Gen Unit := do
  replace (u! "ఀ") (u! "ఁ")
  pure ()

/-- PostProcess.py:1730-1737 -/
def PostProcess.MarchenSanskritPalatals : Gen Unit := do
  let tsaSeries := [(u! "𑲂"), (u! "𑲃"), (u! "𑲄")]
  let jaSereis := [(u! "𑱶"), (u! "𑱷"), (u! "𑱸")]
  forEach (pyZip tsaSeries jaSereis) fun (x, y) => do
    replace x y
  pure ()

/-- PostProcess.py:1740-1747 -/
def PostProcess.SoyomboSanskritPalatals : Gen Unit := do
  let tsaSeries := [(u! "𑩵"), (u! "𑩶"), (u! "𑩷")]
  let caSeries := [(u! "𑩡"), (u! "𑩢"), (u! "𑩣")]
  forEach (pyZip tsaSeries caSeries) fun (x, y) => do
    replace x y
  pure ()

/-- PostProcess.py:1749-1756 -/
def PostProcess.TibetanSanskritPalatals : Gen Unit := do
  let caSeries := [(u! "ཅ"), (u! "ཆ"), (u! "ཇ"), (u! "ཇྷ")]
  let tsaSeries := [(u! "ཙ"), (u! "ཚ"), (u! "ཛ"), (u! "ཛྷ")]
  forEach (pyZip tsaSeries caSeries) fun (x, y) => do
    replace x y
  pure ()

/-- PostProcess.py:1758-1765 -/
def PostProcess.ZanabazarSanskritPalatals : Gen Unit := do
  let tsaSeries := [(u! "𑨣"), (u! "𑨤"), (u! "𑨥")]
  let caSeries := [(u! "𑨐"), (u! "𑨑"), (u! "𑨒")]
  forEach (pyZip tsaSeries caSeries) fun (x, y) => do
    replace x y
  pure ()

/-- PostProcess.py:1767-1769 -/
def PostProcess.SoyomboFinals : Gen Unit := do
  pure ()

/-- PostProcess.py:1771-1778 -/
def PostProcess.SoyomboInitials : Gen Unit := do
  let viraCon := [(u! "𑩼𑪙"), (u! "𑩽𑪙"), (u! "𑪁𑪙")]
  let initial := [(u! "𑪆"), (u! "𑪇"), (u! "𑪉")]
  forEach (pyZip viraCon initial) fun (x, y) => do
    replace x y
  pure ()

/-- PostProcess.py:1780-1783 -/
def PostProcess.ZanzabarSpaceTsheg : Gen Unit := do
  replace (u! " ") (u! "𑩁")
  pure ()

/-- PostProcess.py:1785-1788 -/
def PostProcess.SoyomboSpaceTscheg : Gen Unit := do
  replace (u! " ") (u! "𑪚")
  pure ()

/-- PostProcess.py:1790-1793 -/
def PostProcess.KhandaTaRomanLoC : Gen Unit := do
  replace (u! "ṯ") (u! "ৎ")
  pure ()

/-- PostProcess.py:1796-1798 -/
def PostProcess.RomanLoCVaWa : Gen Unit := do
  replace (u! "v") (u! "w")
  pure ()

/-- PostProcess.py:1800-1802 -/
def PostProcess.RomanLoCSasha : Gen Unit := do
  replace (u! "ṣ") (u! "sh")
  pure ()

/-- PostProcess.py:1804-1808 -/
def PostProcess.RomanLoCSLaDotLaUnderscore : Gen Unit := do
  replace (u! "ḻ") (u! "l̳")
  replace (u! "l̤") (u! "ḻ")
  pure ()

/-- PostProcess.py:1810-1813 -/
def PostProcess.RomanLoCLaUnderscoreDoubleDot : Gen Unit := do
  replace (u! "ḻ") (u! "l̤")
  pure ()

/-- PostProcess.py:1815-1820 -/
def PostProcess.HindiMarathiRomanLoCFix : Gen Unit := do
  replace (u! "ṣ") (u! "sh")
  replace (u! "ḻ") (u! "ḷ")
  replace (u! "l̳") (u! "l̤")
  pure ()

/-- PostProcess.py:1822-1832 -/
def PostProcess.DivesAkuruHomoOrganNasal : Gen Unit := do
  let homoNasal := (u! "𑤿")
  reSub (u! "(𑤐𑤾)(?=[𑤌𑤍𑤎𑤏])") homoNasal
  reSub (u! "(𑤕𑤾)(?=[𑤑𑤒𑤓])") homoNasal
  reSub (u! "(𑤚𑤾)(?=[𑤖𑤘𑤙])") homoNasal
  reSub (u! "(𑤟𑤾)(?=[𑤛𑤜𑤝𑤞])") homoNasal
  reSub (u! "(𑤤𑤾)(?=[𑤠𑤡𑤢𑤣])") homoNasal
  pure ()

/-- PostProcess.py:1834-1846 -/
def PostProcess.DivesAkuruAlternateIndVowels : Gen Unit := do
  replace (u! "𑤥") (u! "𑤦")
  let vow := (pySplit (u! "𑤀 𑤁 𑤂 𑤃 𑤄 𑤅 𑤆 𑤆𑤵 𑤉") (u! " "))
  let vowy := (pySplit (u! "𑤥 𑤥𑤰 𑤥𑤱 𑤥𑤲 𑤥𑤳 𑤥𑤴 𑤥𑤵 𑤥𑤷 𑤥𑤸") (u! " "))
  forEach (pyZip vow vowy) fun (v, vy) => do
    replace v vy
  pure ()

/-- PostProcess.py:1848-1851 -/
def PostProcess.UseAlternateYA : Gen Unit := do
  replace (u! "𑤥") (u! "𑤦")
  pure ()

/-- PostProcess.py:1853-1863 -/
def PostProcess.KawiMoveRepha : Gen Unit := do
  let tgt := (u! "Kawi")
  let repha := (u! "𑼂")
  let t1 ← crunchSymbols (GM.Consonants ++ GM.Vowels) tgt
  let cons := (((u! "(") ++ (pyJoin (u! "|") t1)) ++ (u! ")"))
  let t2 ← crunchSymbols GM.VowelSignsNV tgt
  let vows := (((u! "(") ++ (pyJoin (u! "|") t2)) ++ (u! ")"))
  let vir := (u! "𑽂")
  reSub (((((((((((u! "((") ++ cons) ++ (u! ")")) ++ (u! "(")) ++ vir) ++ cons) ++ (u! ")*")) ++ (u! "(")) ++ vows) ++ (u! ")?)")) ++ repha) (repha ++ (u! "\\1"))
  pure ()

/-- PostProcess.py:1865-1869 -/
def PostProcess.KawiAltAiAU : Gen Unit := do
  replace (u! "𑼿") (u! "𑼾𑼾")
  pure ()

/-- PostProcess.py:1871-1874 -/
def PostProcess.KawiDecomposedVowel : Gen Unit := do
  replace (u! "𑼅") (u! "𑼄𑼴")
  replace (u! "𑼇") (u! "𑼆𑼴")
  replace (u! "𑼉") (u! "𑼈𑼴")
  pure ()

/-- PostProcess.py:1876-1878 -/
def PostProcess.KawiArchaicJNA : Gen Unit := do
  replace (u! "𑼙𑽂𑼛") (u! "𑼳")
  pure ()

/-- PostProcess.py:1880-1882 -/
def PostProcess.JavaneseArchaicJNA : Gen Unit := do
  replace (u! "ꦗ꧀ꦚ") (u! "ꦘ")
  pure ()

/-- PostProcess.py:1884-1891 -/
def PostProcess.JavaneseAvowels : Gen Unit := do
  let vowelsA := [(u! "ꦄꦶ"), (u! "ꦄꦷ"), (u! "ꦄꦸ"), (u! "ꦄꦹ"), (u! "ꦄꦽ"), (u! "ꦄ꧀ꦉꦴ"), (u! "ꦄ꧀ꦭꦼ"), (u! "ꦄ꧀ꦭꦼꦴ"), (u! "ꦄꦺ"), (u! "ꦄꦻ"), (u! "ꦄꦺꦴ"), (u! "ꦄꦻꦴ")]
  let vowels := [(u! "ꦆ"), (u! "ꦇ"), (u! "ꦈ"), (u! "ꦈꦴ"), (u! "ꦉ"), (u! "ꦉꦴ"), (u! "ꦊ"), (u! "ꦋ"), (u! "ꦌ"), (u! "ꦍ"), (u! "ꦎ"), (u! "ꦎꦴ")]
  forEach (pyZip vowels vowelsA) fun (v, vA) => do
    replace v vA
  pure ()

/-- PostProcess.py:1893-1898 -/
def PostProcess.TibetanLoCRomanLoCFix : Gen Unit := do
  reSub (u! "tʹ(?!s)") (u! "t")
  reSub (u! "nʹ(?!y)") (u! "n")
  reSub (u! "j_h") (u! "jh")
  pure ()

/-- PostProcess.py:1900-1902 -/
def PostProcess.JavaneseSimplified : Gen Unit := do
  replace (u! "jny") (u! "ny")
  pure ()

/-- PostProcess.py:1904-1905 -/
def PostProcess.BalineseSimplified : Gen Unit := do
  pure ()

/-- PostProcess.py:1907-1910 -/
def PostProcess.BalineseRomanLoCFix : Gen Unit := do
  replace (u! "ḧ") (u! "h")
  replace (u! "ng̈") (u! "‘")
  pure ()

/-- PostProcess.py:1912-1915 -/
def PostProcess.JavaneseRomanLoCFix : Gen Unit := do
  replace (u! "ḧ") (u! "h")
  replace (u! "ng̈") (u! "‘")
  pure ()

/-- PostProcess.py:1917-1919 -/
def PostProcess.BalineseArchaicJNA : Gen Unit := do
  replace (u! "ᬚ᭄ᬜ") (u! "ᭌ")
  pure ()

/-- PostProcess.py:1921-1933 -/
def PostProcess.BalineseJavaneseMoveRepha (tgt : PyStr) (reph : PyStr) : Gen Unit := do
  let repha := (((u! "(") ++ reph) ++ (u! ")"))
  let t1 ← crunchSymbols GM.Consonants tgt
  let cons := (((u! "(") ++ (pyJoin (u! "|") t1)) ++ (u! ")"))
  let t2 ← crunchSymbols GM.VowelSignsNV tgt
  let vows := (((u! "(") ++ (pyJoin (u! "|") t2)) ++ (u! ")"))
  let t3 ← crunchSymbols GM.virama tgt
  let t4 ← index t3 0
  let vir := t4
  reSub ((((((((((repha ++ (u! "(")) ++ cons) ++ (u! ")")) ++ (u! "(")) ++ vir) ++ cons) ++ (u! ")*")) ++ (u! "(")) ++ vows) ++ (u! ")?")) (u! "\\2\\4\\6\\1")
  let t5 ← crunchSymbols GM.CombiningSigns tgt
  let candAnu := (((u! "[") ++ (pyJoin (u! "") (pySlice t5 none (some 2)))) ++ (u! "]"))
  reSub (((repha ++ (u! "(")) ++ candAnu) ++ (u! ")")) (u! "\\2\\1")
  pure ()

/-- PostProcess.py:1935-1936 -/
def PostProcess.JavaneseMoveRepha : Gen Unit := do
  PostProcess.BalineseJavaneseMoveRepha (u! "Javanese") (u! "ꦂ")
  pure ()

/-- PostProcess.py:1938-1939 -/
def PostProcess.BalineseMoveRepha : Gen Unit := do
  PostProcess.BalineseJavaneseMoveRepha (u! "Balinese") (u! "ᬃ")
  pure ()

/-- PostProcess.py:1941-1948 -/
def PostProcess.BalineseAvowels : Gen Unit := do
  let vowelsA := [(u! "ᬅᬶ"), (u! "ᬅᬷ"), (u! "ᬅᬸ"), (u! "ᬅᬹ"), (u! "ᬅᬺ"), (u! "ᬅᬻ"), (u! "ᬅ᭄ᬮᭂ"), (u! "ᬅ᭄ᬮᭃ"), (u! "ᬅᬾ"), (u! "ᬅᬿ"), (u! "ᬅᭀ"), (u! "ᬅᭁ")]
  let vowels := [(u! "ᬇ"), (u! "ᬈ"), (u! "ᬉ"), (u! "ᬊ"), (u! "ᬋ"), (u! "ᬌ"), (u! "ᬍ"), (u! "ᬎ"), (u! "ᬏ"), (u! "ᬐ"), (u! "ᬑ"), (u! "ᬒ")]
  forEach (pyZip vowels vowelsA) fun (v, vA) => do
    replace v vA
  pure ()

/-- PostProcess.py:1950-1957 -/
def PostProcess.GurmukhiRomanLoCFix : Gen Unit := do
  reSub (u! "(m̆|ṃ)(k|g)") ((u! "ṅ") ++ (u! "\\2"))
  reSub (u! "(m̆|ṃ)(c|j)") ((u! "ñ") ++ (u! "\\2"))
  reSub (u! "(m̆|ṃ)(ṭ|ḍ)") ((u! "ṇ") ++ (u! "\\2"))
  reSub (u! "(m̆|ṃ)(t|d)") ((u! "n") ++ (u! "\\2"))
  reSub (u! "(m̆|ṃ)(p|b)") ((u! "m") ++ (u! "\\2"))
  pure ()

/-- PostProcess.py:1959-1963 -/
def PostProcess.DevanagariRomanLoCFix : Gen Unit := do
  replace (u! "gḧ") (u! "g̳h̳")
  replace (u! "ṭ̈") (u! "t̤")
  replace (u! "s̈") (u! "s̤")
  replace (u! "ḧ") (u! "h̤")
  pure ()

end Verif
