import Verif.Model.Sec

/-!
# Letter tables after `GeneralMap.add_additional_chars` (GeneralMap.py:297-338)

Every script module calls it at import time; `Verif.Model.TablesEq` proves that these literals
are its result on the `Base` tables.

Generated by tools/gentables.py.
-/

namespace Verif.Ext

/-- ScriptMap/EastIndic/Mon.py -/
def Mon : Tbl where
  VowelMap := us!["အ", "အာ", "ဣ", "ဣဳ", "ဥ", "ဥူ", "ၒ", "ၓ", "ၔ", "ၕ", "ဨ", "အဲ", "ဩ", "ဪ", "ဥ˂", "ဥူ˂", "အာ˂", "အာ˂", "ဨ˂", "ဥ˂", "ဥူ˂", "ဥူ˂", "အဲ˂", "အဲ˂", "ဩ˂", "ဩ˂", "အဲ˂", "ဥ˂", "ဣ˂", "ဣဳ˂", "ဥ˂", "ဩ˂", "အ˂", "အ˂", "အာ˂", "အ˂", "အ˂", "ဪ˂", "ဩ˂", "ဩ˂", "ဩ˂", "ဣဳ˂", "ဥ˂", "ဥူ˂", "အဲ˂", "အဲ˂", "ဩ˂", "ဪ˂"]
  SouthVowelMap := us!["ဨʽ", "ဩʽ"]
  ModernVowelMap := us!["ဨʽ", "အာʽ", "ဨʽ˂", "ဨʽ˂", "အာʽ˂", "အာʽ˂"]
  SinhalaVowelMap := us!["ဨʽ"]
  VowelSignMap := us!["ာ", "ိ", "ဳ", "ု", "ူ", "ၖ", "ၗ", "ၘ", "ၙ", "ေ", "ဲ", "ော", "ော်", "ု˂", "ူ˂", "ာ˂", "ာ˂", "ေ˂", "ု˂", "ူ˂", "ူ˂", "ဲ˂", "ဲ˂", "ော˂", "ော˂", "ဲ˂", "ူ˂", "ိ˂", "ဳ˂", "ု˂", "ော˂", "˂", "˂", "ာ˂", "˂", "ေ˂", "ု˂˂", "ော˂", "ော˂", "ော˂", "ော˂", "ု˂", "ူ˂", "ဲ˂", "ဲ˂", "ော˂", "ော်˂"]
  SouthVowelSignMap := us!["ေʽ", "ောʽ"]
  ModernVowelSignMap := us!["ေʽ", "ာʽ", "ေʽ˂", "ေʽ˂", "ာʽ˂", "ာʽ˂"]
  SinhalaVowelSignMap := us!["ေʽ"]
  ViramaMap := us!["်"]
  AyogavahaMap := us!["ံʽ", "ံ", "း", "း˂", "း˂", "˂", "˂˂", "˂˂˂", "˂˂˂˂", "˂˂˂", "˂˂˂", "˂˂˂", "˂", "˂", "˂", "˂˂˂˂˂", "˂˂˂˂˂", "˂˂˂˂˂", "˂˂˂˂˂", "˂˂˂˂˂"]
  NuktaMap := us!["ʽʽʽʽ"]
  ConsonantMap := us!["က", "ခ", "ဂ", "ဃ", "ၚ", "စ", "ဆ", "ဇ", "ၛ", "ည", "ဋ", "ဌ", "ဍ", "ဎ", "ဏ", "တ", "ထ", "ဒ", "ဓ", "န", "ပ", "ဖ", "ဗ", "ဘ", "မ", "ယ", "ရ", "လ", "ဝ", "ၐ", "ၑ", "သ", "ဟ", "ဗ˂", "က˂", "ဖ˂", "သ˂", "ဟ˂", "ယ˂", "တʽʽʽʽ", "ၚ˂", "ည˂", "မ˂", "ပ˂", "ယ˂", "ရ˂", "ဝ˂", "ပ˂", "သ˂", "ဟ˂", "က˂", "က˂", "ည˂"]
  SouthConsonantMap := us!["ဠ", "ဠʽ", "ရʽ", "နʽ"]
  NuktaConsonantMap := us!["ကʽ", "ခʽ", "ဂʽ", "ဇʽ", "ဍʽ", "ဎʽ", "ဖʽ", "ယʽ"]
  SinhalaConsonantMap := us!["ံဂʽ", "ံဇʽ", "ံဍʽ", "ံဒʽ", "ံဗʽ"]
  SignMap := us!["'", "၊", "။", "!˂˂˂˂", "!!˂", "!!!˂", "!!!˂", "!!!˂"]
  NumeralMap := us!["၀", "၁", "၂", "၃", "၄", "၅", "၆", "၇", "၈", "၉"]
  Aytham := us!["းʽ"]
  OmMap := us!["ဥုံ"]

/-- ScriptMap/EastIndic/Pallava.py -/
def Pallava : Tbl where
  VowelMap := us!["ꦄ", "ꦄꦴ", "ꦆ", "ꦇ", "ꦈ", "ꦈꦴ", "ꦫꦶʽ", "ꦫꦷʽ", "ꦭꦶʽ", "ꦭꦷʽ", "ꦌ", "ꦍ", "ꦎ", "ꦎꦴ", "ꦈ˂", "ꦈꦴ˂", "ꦄꦴ˂", "ꦄꦴ˂", "ꦌ˂", "ꦈ˂", "ꦈꦴ˂", "ꦈꦴ˂", "ꦍ˂", "ꦍ˂", "ꦎ˂", "ꦎ˂", "ꦍ˂", "ꦈ˂", "ꦆ˂", "ꦇ˂", "ꦈ˂", "ꦎ˂", "ꦄ˂", "ꦄ˂", "ꦄꦴ˂", "ꦄ˂", "ꦄ˂", "ꦎꦴ˂", "ꦎ˂", "ꦎ˂", "ꦎ˂", "ꦇ˂", "ꦈ˂", "ꦈꦴ˂", "ꦍ˂", "ꦍ˂", "ꦎ˂", "ꦎꦴ˂"]
  SouthVowelMap := us!["ꦌʽ", "ꦎʽ"]
  ModernVowelMap := us!["ꦌʽ", "ꦄꦴʽ", "ꦌʽ˂", "ꦌʽ˂", "ꦄꦴʽ˂", "ꦄꦴʽ˂"]
  SinhalaVowelMap := us!["ꦌʽ"]
  VowelSignMap := us!["ꦴ", "ꦶ", "ꦷ", "ꦸ", "ꦹ", "꧀ꦫꦶʽ", "꧀ꦫꦷʽ", "꧀ꦭꦶʽ", "꧀ꦭꦷʽ", "ꦺ", "ꦻ", "ꦺꦴ", "ꦻꦴ", "ꦸ˂", "ꦹ˂", "ꦴ˂", "ꦴ˂", "ꦺ˂", "ꦸ˂", "ꦹ˂", "ꦹ˂", "ꦻ˂", "ꦻ˂", "ꦺꦴ˂", "ꦺꦴ˂", "ꦻ˂", "ꦹ˂", "ꦶ˂", "ꦷ˂", "ꦸ˂", "ꦺꦴ˂", "˂", "˂", "ꦴ˂", "˂", "ꦺ˂", "ꦸ˂˂", "ꦺꦴ˂", "ꦺꦴ˂", "ꦺꦴ˂", "ꦺꦴ˂", "ꦸ˂", "ꦹ˂", "ꦻ˂", "ꦻ˂", "ꦺꦴ˂", "ꦻꦴ˂"]
  SouthVowelSignMap := us!["ꦺʽ", "ꦺꦴʽ"]
  ModernVowelSignMap := us!["ꦺʽ", "ꦴʽ", "ꦺʽ˂", "ꦺʽ˂", "ꦴʽ˂", "ꦴʽ˂"]
  SinhalaVowelSignMap := us!["ꦺʽ"]
  ViramaMap := us!["꧀"]
  AyogavahaMap := us!["ꦁʽ", "ꦁ", "ꦃ", "ꦃ˂", "ꦃ˂", "˂", "˂˂", "˂˂˂", "˂˂˂˂", "˂˂˂", "˂˂˂", "˂˂˂", "˂", "˂", "˂", "˂˂˂˂˂", "˂˂˂˂˂", "˂˂˂˂˂", "˂˂˂˂˂", "˂˂˂˂˂"]
  NuktaMap := us!["ʽʽ"]
  ConsonantMap := us!["ꦏ", "ꦑ", "ꦒ", "ꦓ", "ꦔ", "ꦕ", "ꦖ", "ꦗ", "ꦙ", "ꦚ", "ꦛ", "ꦜ", "ꦝ", "ꦞ", "ꦟ", "ꦠ", "ꦡ", "ꦢ", "ꦣ", "ꦤ", "ꦥ", "ꦦ", "ꦧ", "ꦨ", "ꦩ", "ꦪ", "ꦫ", "ꦭ", "ꦮ", "ꦯ", "ꦰ", "ꦱ", "ꦲ", "ꦧ˂", "ꦏ˂", "ꦦ˂", "ꦱ˂", "ꦲ˂", "ꦪ˂", "ꦠʽʽ", "ꦔ˂", "ꦚ˂", "ꦩ˂", "ꦥ˂", "ꦪ˂", "ꦫ˂", "ꦮ˂", "ꦥ˂", "ꦱ˂", "ꦲ˂", "ꦏ˂", "ꦏ˂", "ꦚ˂"]
  SouthConsonantMap := us!["ꦭʽ", "ꦰʽ", "ꦫʽ", "ꦤʽ"]
  NuktaConsonantMap := us!["ꦏʽ", "ꦑʽ", "ꦒʽ", "ꦗʽ", "ꦝʽ", "ꦞʽ", "ꦦʽ", "ꦪʽ"]
  SinhalaConsonantMap := us!["ꦁꦒʽ", "ꦁꦗʽ", "ꦁꦝʽ", "ꦁꦢʽ", "ꦁꦧʽ"]
  SignMap := us!["'", "|", "||", "!˂˂˂˂", "!!˂", "!!!˂", "!!!˂", "!!!˂"]
  NumeralMap := us!["0", "1", "2", "3", "4", "5", "6", "7", "8", "9"]
  Aytham := us!["ꦃʽ"]
  OmMap := us!["ꦎꦁ"]

/-- ScriptMap/EastIndic/PhagsPa.py -/
def PhagsPa : Tbl where
  VowelMap := us!["ṿꡝ", "ṿꡝꡖ", "ṿꡞ", "ṿꡞꡖ", "ṿꡟ", "ṿꡟꡖ", "ṿꡘꡞʽ", "ṿꡘꡖꡞʽ", "ṿꡙꡞʽ", "ṿꡙꡖꡞʽ", "ṿꡠ", "ṿꡠꡖ", "ṿꡡ", "ṿꡡꡖ", "ṿꡟ˂", "ṿꡟꡖ˂", "ṿꡝꡖ˂", "ṿꡝꡖ˂", "ṿꡠ˂", "ṿꡟ˂", "ṿꡟꡖ˂", "ṿꡟꡖ˂", "ṿꡠꡖ˂", "ṿꡠꡖ˂", "ṿꡡ˂", "ṿꡡ˂", "ṿꡠꡖ˂", "ṿꡟ˂", "ṿꡞ˂", "ṿꡞꡖ˂", "ṿꡟ˂", "ṿꡡ˂", "ṿꡝ˂", "ṿꡝ˂", "ṿꡝꡖ˂", "ṿꡝ˂", "ṿꡝ˂", "ṿꡡꡖ˂", "ṿꡡ˂", "ṿꡡ˂", "ṿꡡ˂", "ṿꡞꡖ˂", "ṿꡟ˂", "ṿꡟꡖ˂", "ṿꡠꡖ˂", "ṿꡠꡖ˂", "ṿꡡ˂", "ṿꡡꡖ˂"]
  SouthVowelMap := us!["ꡠʽ", "ꡡʽ"]
  ModernVowelMap := us!["ꡠʽ", "ꡝꡖʽ", "ꡠʽ˂", "ꡠʽ˂", "ꡝꡖʽ˂", "ꡝꡖʽ˂"]
  SinhalaVowelMap := us!["ꡠʽ"]
  VowelSignMap := us!["ꡖ", "ꡞ", "ꡖꡞ", "ꡟ", "ꡖꡟ", "ꡱꡞ", "ꡖꡱꡞʽ", "ʾꡙꡞʽ", "ʾꡙꡖꡞʽ", "ꡠ", "ꡖꡠ", "ꡡ", "ꡖꡡ", "ꡟ˂", "ꡖꡟ˂", "ꡖ˂", "ꡖ˂", "ꡠ˂", "ꡟ˂", "ꡖꡟ˂", "ꡖꡟ˂", "ꡖꡠ˂", "ꡖꡠ˂", "ꡡ˂", "ꡡ˂", "ꡖꡠ˂", "ꡖꡟ˂", "ꡞ˂", "ꡖꡞ˂", "ꡟ˂", "ꡡ˂", "˂", "˂", "ꡖ˂", "˂", "ꡠ˂", "ꡟ˂˂", "ꡡ˂", "ꡡ˂", "ꡡ˂", "ꡡ˂", "ꡟ˂", "ꡖꡟ˂", "ꡖꡠ˂", "ꡖꡠ˂", "ꡡ˂", "ꡖꡡ˂"]
  SouthVowelSignMap := us!["ꡠʽ", "ꡡʽ"]
  ModernVowelSignMap := us!["ꡠʽ", "ꡖʽ", "ꡠʽ˂", "ꡠʽ˂", "ꡖʽ˂", "ꡖʽ˂"]
  SinhalaVowelSignMap := us!["ꡠʽ"]
  ViramaMap := us!["ʾ"]
  AyogavahaMap := us!["ꡳ", "ꡳʽ", "ꡜʾʽ", "ꡜʾʽ˂", "ꡜʾʽ˂", "˂", "˂˂", "˂˂˂", "˂˂˂˂", "˂˂˂", "˂˂˂", "˂˂˂", "˂", "˂", "˂", "˂˂˂˂˂", "˂˂˂˂˂", "˂˂˂˂˂", "˂˂˂˂˂", "˂˂˂˂˂"]
  NuktaMap := us!["ʽʽʽʽ"]
  ConsonantMap := us!["ꡀ", "ꡁ", "ꡂ", "ṾꡂṾꡜṾ", "ꡃ", "ꡐ", "ꡑ", "ꡒ", "ṾꡒṾꡜṾ", "ꡇ", "ꡩ", "ꡪ", "ꡫ", "ṾꡫṾꡜṾ", "ꡬ", "ꡈ", "ꡉ", "ꡊ", "ṾꡊṾꡜṾ", "ꡋ", "ꡌ", "ꡍ", "ꡎ", "ṾꡎṾꡜṾ", "ꡏ", "ꡗ", "ꡘ", "ꡙ", "ꡓ", "ꡚ", "ꡚʽ", "ꡛ", "ꡜ", "ꡎ˂", "ꡀ˂", "ꡍ˂", "ꡛ˂", "ꡜ˂", "ꡗ˂", "ꡈʽʽʽʽ", "ꡃ˂", "ꡇ˂", "ꡏ˂", "ꡌ˂", "ꡗ˂", "ꡘ˂", "ꡓ˂", "ꡌ˂", "ꡛ˂", "ꡜ˂", "ꡀ˂", "ꡀ˂", "ꡇ˂"]
  SouthConsonantMap := us!["ꡙʽ", "ꡙʽ", "ꡘʽ", "ꡋʽ"]
  NuktaConsonantMap := us!["ꡢ", "ꡣ", "ꡥ", "ꡕ", "ꡫʽ", "ꡫṾꡜʽ", "ꡤ", "ꡭ"]
  SinhalaConsonantMap := us!["ꡳꡂʽ", "ꡳꡒʽ", "ꡳꡨʽ", "ꡳꡊʽ", "ꡳꡎʽ"]
  SignMap := us!["ʽʽ", "꡶", "꡷", "!˂˂˂˂", "!!˂", "!!!˂", "!!!˂", "!!!˂"]
  NumeralMap := us!["0", "1", "2", "3", "4", "5", "6", "7", "8", "9"]
  Aytham := us!["ꡜʽ"]
  OmMap := us!["ṿꡡꡳ"]

/-- ScriptMap/EastIndic/Rejang.py -/
def Rejang : Tbl where
  VowelMap := us!["ꥆ", "ꥆʽ", "ꥆꥇ", "ꥆꥇʽ", "ꥆꥈ", "ꥆꥈʽ", "ꤽꥈʽ", "ꤽꥈʽ", "ꤾꥈʽ", "ꤾꥈʽ", "ꥆꥉʽ", "ꥆꥊ", "ꥆꥋʽ", "ꥆꥌ", "ꥆꥈ˂", "ꥆꥈʽ˂", "ꥆʽ˂", "ꥆʽ˂", "ꥆꥉʽ˂", "ꥆꥈ˂", "ꥆꥈʽ˂", "ꥆꥈʽ˂", "ꥆꥊ˂", "ꥆꥊ˂", "ꥆꥋʽ˂", "ꥆꥋʽ˂", "ꥆꥊ˂", "ꥆꥈ˂", "ꥆꥇ˂", "ꥆꥇʽ˂", "ꥆꥈ˂", "ꥆꥋʽ˂", "ꥆ˂", "ꥆ˂", "ꥆʽ˂", "ꥆ˂", "ꥆ˂", "ꥆꥌ˂", "ꥆꥋʽ˂", "ꥆꥋʽ˂", "ꥆꥋʽ˂", "ꥆꥇʽ˂", "ꥆꥈ˂", "ꥆꥈʽ˂", "ꥆꥊ˂", "ꥆꥊ˂", "ꥆꥋʽ˂", "ꥆꥌ˂"]
  SouthVowelMap := us!["ꥆꥉ", "ꥆꥋ"]
  ModernVowelMap := us!["ꥆꥎ", "ꥆꥍ", "ꥆꥎ˂", "ꥆꥎ˂", "ꥆꥍ˂", "ꥆꥍ˂"]
  SinhalaVowelMap := us!["ꥆꥎʽ"]
  VowelSignMap := us!["ʽʽ", "ꥇ", "ꥇʽ", "ꥈ", "ꥈʽ", "꥓ꤽꥈʽ", "꥓ꤽꥈʽ", "꥓ꤾꥈʽ", "꥓ꤾꥈʽ", "ꥉʽ", "ꥊ", "ꥋʽ", "ꥌ", "ꥈ˂", "ꥈʽ˂", "ʽʽ˂", "ʽʽ˂", "ꥉʽ˂", "ꥈ˂", "ꥈʽ˂", "ꥈʽ˂", "ꥊ˂", "ꥊ˂", "ꥋʽ˂", "ꥋʽ˂", "ꥊ˂", "ꥈʽ˂", "ꥇ˂", "ꥇʽ˂", "ꥈ˂", "ꥋʽ˂", "˂", "˂", "ʽʽ˂", "˂", "ꥉʽ˂", "ꥈ˂˂", "ꥋʽ˂", "ꥋʽ˂", "ꥋʽ˂", "ꥋʽ˂", "ꥈ˂", "ꥈʽ˂", "ꥊ˂", "ꥊ˂", "ꥋʽ˂", "ꥌ˂"]
  SouthVowelSignMap := us!["ꥉ", "ꥋ"]
  ModernVowelSignMap := us!["ꥎ", "ꥍ", "ꥎ˂", "ꥎ˂", "ꥍ˂", "ꥍ˂"]
  SinhalaVowelSignMap := us!["ꥎʽ"]
  ViramaMap := us!["꥓"]
  AyogavahaMap := us!["ꥏʽ", "ꥏ", "ꥒ", "ꥒ˂", "ꥒ˂", "˂", "˂˂", "˂˂˂", "˂˂˂˂", "˂˂˂", "˂˂˂", "˂˂˂", "˂", "˂", "˂", "˂˂˂˂˂", "˂˂˂˂˂", "˂˂˂˂˂", "˂˂˂˂˂", "˂˂˂˂˂"]
  NuktaMap := us!["ʽʽʽ"]
  ConsonantMap := us!["ꤰ", "ꤰʽ", "ꤱ", "ꤱʽ", "ꤲ", "ꤹ", "ꤹʽ", "ꤺ", "ꤺʽ", "ꤻ", "ꤳʽ", "ꤳʽ", "ꤴʽ", "ꤴʽ", "ꤵʽ", "ꤳ", "ꤳʽ", "ꤴ", "ꤴʽ", "ꤵ", "ꤶ", "ꤶʽ", "ꤷ", "ꤷʽ", "ꤸ", "ꤿ", "ꤽ", "ꤾ", "ꥀ", "ꤼʽ", "ꤼʽ", "ꤼ", "ꥁ", "ꤷ˂", "ꤰ˂", "ꤶʽ˂", "ꤼ˂", "ꥁ˂", "ꤿ˂", "ꤳʽʽʽ", "ꤲ˂", "ꤻ˂", "ꤸ˂", "ꤶ˂", "ꤿ˂", "ꤽ˂", "ꥀ˂", "ꤶ˂", "ꤼ˂", "ꥁ˂", "ꤰ˂", "ꤰ˂", "ꤻ˂"]
  SouthConsonantMap := us!["ꤾʽ", "ꤾʽ", "ꤽʽ", "ꤵʽ"]
  NuktaConsonantMap := us!["ꤰʽ", "ꤰʽ", "ꤱʽ", "ꤺʽ", "ꤴʽ", "ꤴʽ", "ꤶʽ", "ꤿʽ"]
  SinhalaConsonantMap := us!["ꥃ", "ꥅ", "ꥄʽ", "ꥄ", "ꥂ"]
  SignMap := us!["'", ".", "..", "!˂˂˂˂", "!!˂", "!!!˂", "!!!˂", "!!!˂"]
  NumeralMap := us!["0", "1", "2", "3", "4", "5", "6", "7", "8", "9"]
  Aytham := us!["ꥒʽ"]
  OmMap := us!["ꥆꥋꥏʽ"]

/-- ScriptMap/EastIndic/Shan.py -/
def Shan : Tbl where
  VowelMap := us!["ဢ", "ဢႃ", "ဢိ", "ဢီ", "ဢု", "ဢူ", "ရိʽ", "ရီʽ", "လိʽ", "လီʽ", "ဢေ", "ဢႆ", "ဢေႃ", "ဢဝ်ʽ", "ဢု˂", "ဢူ˂", "ဢႃ˂", "ဢႃ˂", "ဢဵ", "ဢို", "ဢိူ", "ဢိူဝ်", "ဢၢႆ", "ဢွႆ", "ဢေႃ်", "ဢူဝ်", "ဢͮ", "ဢု˂", "ဢိ˂", "ဢီ˂", "ဢု˂", "ဢေႃ˂", "ဢ˂", "ဢ˂", "ဢႃ˂", "ဢ˂", "ဢ˂", "ဢဝ်ʽ˂", "ဢေႃ˂", "ဢေႃ˂", "ဢေႃ˂", "ဢီ˂", "ဢု˂", "ဢူ˂", "ဢႆ˂", "ဢႆ˂", "ဢေႃ˂", "ဢဝ်ʽ˂"]
  SouthVowelMap := us!["ဢေʽ", "ွ"]
  ModernVowelMap := us!["ဢႄ", "ဢႃʽ", "ဢႅ", "ဢေေ", "ဢႃʽ˂", "ဢႃʽ˂"]
  SinhalaVowelMap := us!["ဢႄʽ"]
  VowelSignMap := us!["ႃ", "ိ", "ီ", "ု", "ူ", "်ရိʽ", "်ရီʽ", "်လိʽ", "်လီʽ", "ေ", "ႆ", "ေႃ", "ဝ်ʽ", "ု˂", "ူ˂", "ႃ˂", "ႃ˂", "ဵ", "ို", "ိူ", "ိူဝ်", "ၢႆ", "ွႆ", "ေႃ်", "ူဝ်", "ͮ", "ူ˂", "ိ˂", "ီ˂", "ု˂", "ေႃ˂", "˂", "˂", "ႃ˂", "˂", "ေ˂", "ု˂˂", "ေႃ˂", "ေႃ˂", "ေႃ˂", "ေႃ˂", "ု˂", "ူ˂", "ႆ˂", "ႆ˂", "ေႃ˂", "ဝ်ʽ˂"]
  SouthVowelSignMap := us!["ေʽ", "ေႃʽ"]
  ModernVowelSignMap := us!["ႄ", "ႃʽ", "ႅ", "ေေ", "ႃʽ˂", "ႃʽ˂"]
  SinhalaVowelSignMap := us!["ႄʽ"]
  ViramaMap := us!["်"]
  AyogavahaMap := us!["ံʽ", "ံ", "း", "း˂", "း˂", "ႇ", "ႈ", "ႉ", "ႊ", "˂˂˂", "˂˂˂", "˂˂˂", "˂", "˂", "˂", "˂˂˂˂˂", "˂˂˂˂˂", "˂˂˂˂˂", "˂˂˂˂˂", "˂˂˂˂˂"]
  NuktaMap := us!["ʽʽ"]
  ConsonantMap := us!["ၵ", "ၶ", "ၷ", "ꧠ", "င", "ၸ", "ꧡ", "ꩡ", "ꧢ", "ၺ", "ꩦ", "ꩧ", "ꩨ", "ꩩ", "ꧣ", "တ", "ထ", "ၻ", "ꩪ", "ၼ", "ပ", "ၽ", "ၿ", "ꧤ", "မ", "ယ", "ရ", "လ", "ဝ", "သ်ယ", "သျʽ", "သ", "ႁ", "ၿ˂", "ၵ˂", "ၽ˂", "သ˂", "ႁ˂", "ယ˂", "ႀ", "င˂", "ၺ˂", "မ˂", "ပ˂", "ယ˂", "ရ˂", "ဝ˂", "ပ˂", "သ˂", "ႁ˂", "ၵ˂", "ၵ˂", "ၺ˂"]
  SouthConsonantMap := us!["ꩮ", "ꩮʽ", "ရʽ", "ၼʽ"]
  NuktaConsonantMap := us!["ၵʽ", "ၶʽ", "ၷʽ", "ၹ", "ꩨʽ", "ꩩʽ", "ၾ", "ယʽ"]
  SinhalaConsonantMap := us!["ံၷʽ", "ံꩡʽ", "ံꩨʽ", "ံၻʽ", "ံၿʽ"]
  SignMap := us!["'", "၊", "။", "႟", "႞", "!!!˂", "!!!˂", "!!!˂"]
  NumeralMap := us!["႐", "႑", "႒", "႓", "႔", "႕", "႖", "႗", "႘", "႙"]
  Aytham := us!["းʽ"]
  OmMap := us!["ဢေႃံ"]

/-- ScriptMap/EastIndic/ShanLoC.py -/
def ShanLoC : Tbl where
  VowelMap := us!["ဢ", "ဢႃ", "ဢိ", "ဢီ", "ဢု", "ဢူ", "ရိʽ", "ရီʽ", "လိʽ", "လီʽ", "ဢေ", "ဢႆ", "ဢေႃ", "ဢွ", "ဢု˂", "ဢူ˂", "ဢႃ˂", "ဢႃ˂", "ဢဵ", "ဢို", "ဢိူ", "ဢိူဝ်", "ဢၢႆ", "ဢွႆ", "ဢေႃ်", "ဢူဝ်", "ဢͮ", "ဢု˂", "ဢိ˂", "ဢီ˂", "ဢု˂", "ဢေႃ˂", "ဢ˂", "ဢ˂", "ဢႃ˂", "ဢ˂", "ဢ˂", "ဢွ˂", "ဢေႃ˂", "ဢေႃ˂", "ဢေႃ˂", "ဢီ˂", "ဢု˂", "ဢူ˂", "ဢႆ˂", "ဢႆ˂", "ဢေႃ˂", "ဢွ˂"]
  SouthVowelMap := us!["ဢေʽ", "ဢေႃʽ"]
  ModernVowelMap := us!["ဢႄ", "ဢႃʽ", "ဢႅ", "ဢေေ", "ဢႃʽ˂", "ဢႃʽ˂"]
  SinhalaVowelMap := us!["ဢႄʽ"]
  VowelSignMap := us!["ႃ", "ိ", "ီ", "ု", "ူ", "်ရိʽ", "်ရီʽ", "်လိʽ", "်လီʽ", "ေ", "ႆ", "ေႃ", "ွ", "ု˂", "ူ˂", "ႃ˂", "ႃ˂", "ဵ", "ို", "ိူ", "ိူဝ်", "ၢႆ", "ွႆ", "ေႃ်", "ူဝ်", "ͮ", "ူ˂", "ိ˂", "ီ˂", "ု˂", "ေႃ˂", "˂", "˂", "ႃ˂", "˂", "ေ˂", "ု˂˂", "ေႃ˂", "ေႃ˂", "ေႃ˂", "ေႃ˂", "ု˂", "ူ˂", "ႆ˂", "ႆ˂", "ေႃ˂", "ွ˂"]
  SouthVowelSignMap := us!["ေʽ", "ေႃʽ"]
  ModernVowelSignMap := us!["ႄ", "ႃʽ", "ႅ", "ေေ", "ႃʽ˂", "ႃʽ˂"]
  SinhalaVowelSignMap := us!["ႄʽ"]
  ViramaMap := us!["်"]
  AyogavahaMap := us!["ံʽ", "ံ", "း", "း˂", "း˂", "ႇ", "ႈ", "ႉ", "ႊ", "˂˂˂", "˂˂˂", "˂˂˂", "˂", "˂", "˂", "˂˂˂˂˂", "˂˂˂˂˂", "˂˂˂˂˂", "˂˂˂˂˂", "˂˂˂˂˂"]
  NuktaMap := us!["ʽʽ"]
  ConsonantMap := us!["ၵ", "ၶ", "ၷ", "ꧠ", "င", "ၸ", "ꧡ", "ꩡ", "ꧢ", "ၺ", "ꩦ", "ꩧ", "ꩨ", "ꩩ", "ꧣ", "တ", "ထ", "ၻ", "ꩪ", "ၼ", "ပ", "ၽ", "ၿ", "ꧤ", "မ", "ယ", "ရ", "လ", "ဝ", "သ်ယ", "သျʽ", "သ", "ႁ", "ၿ˂", "ၵ˂", "ၽ˂", "သ˂", "ႁ˂", "ယ˂", "ႀ", "င˂", "ၺ˂", "မ˂", "ပ˂", "ယ˂", "ရ˂", "ဝ˂", "ပ˂", "သ˂", "ႁ˂", "ၵ˂", "ၵ˂", "ၺ˂"]
  SouthConsonantMap := us!["ꩮ", "ꩮʽ", "ရʽ", "ၼʽ"]
  NuktaConsonantMap := us!["ၵʽ", "ၶʽ", "ၷʽ", "ၹ", "ꩨʽ", "ꩩʽ", "ၾ", "ယʽ"]
  SinhalaConsonantMap := us!["ံၷʽ", "ံꩡʽ", "ံꩨʽ", "ံၻʽ", "ံၿʽ"]
  SignMap := us!["'", "၊", "။", "႟", "႞", "!!!˂", "!!!˂", "!!!˂"]
  NumeralMap := us!["႐", "႑", "႒", "႓", "႔", "႕", "႖", "႗", "႘", "႙"]
  Aytham := us!["းʽ"]
  OmMap := us!["ဢေႃံ"]

/-- ScriptMap/EastIndic/Siddham.py -/
def Siddham : Tbl where
  VowelMap := us!["𑖀", "𑖁", "𑖂", "𑖃", "𑖄", "𑖅", "𑖆", "𑖇", "𑖈", "𑖉", "𑖊", "𑖋", "𑖌", "𑖍", "𑖄˂", "𑖅˂", "𑖁˂", "𑖁˂", "𑖊˂", "𑖄˂", "𑖅˂", "𑖅˂", "𑖋˂", "𑖋˂", "𑖌˂", "𑖌˂", "𑖋˂", "𑖄˂", "𑖂˂", "𑖃˂", "𑖄˂", "𑖌˂", "𑖀˂", "𑖀˂", "𑖁˂", "𑖀˂", "𑖀˂", "𑖍˂", "𑖌˂", "𑖌˂", "𑖌˂", "𑖃˂", "𑖄˂", "𑖅˂", "𑖋˂", "𑖋˂", "𑖌˂", "𑖍˂"]
  SouthVowelMap := us!["𑖊ʽ", "𑖌ʽ"]
  ModernVowelMap := us!["𑖊ʽ", "𑖁ʽ", "𑖊ʽ˂", "𑖊ʽ˂", "𑖁ʽ˂", "𑖁ʽ˂"]
  SinhalaVowelMap := us!["𑖊ʽ"]
  VowelSignMap := us!["𑖯", "𑖰", "𑖱", "𑖲", "𑖳", "𑖴", "𑖵", "𑖿𑖩𑖰ʽ", "𑖿𑖩𑖱ʽ", "𑖸", "𑖹", "𑖺", "𑖻", "𑖲˂", "𑖳˂", "𑖯˂", "𑖯˂", "𑖸˂", "𑖲˂", "𑖳˂", "𑖳˂", "𑖹˂", "𑖹˂", "𑖺˂", "𑖺˂", "𑖹˂", "𑖳˂", "𑖰˂", "𑖱˂", "𑖲˂", "𑖺˂", "˂", "˂", "𑖯˂", "˂", "𑖸˂", "𑖲˂˂", "𑖺˂", "𑖺˂", "𑖺˂", "𑖺˂", "𑖲˂", "𑖳˂", "𑖹˂", "𑖹˂", "𑖺˂", "𑖻˂"]
  SouthVowelSignMap := us!["𑖸ʽ", "𑖺ʽ"]
  ModernVowelSignMap := us!["𑖸ʽ", "𑖯ʽ", "𑖸ʽ˂", "𑖸ʽ˂", "𑖯ʽ˂", "𑖯ʽ˂"]
  SinhalaVowelSignMap := us!["𑖸ʽ"]
  ViramaMap := us!["𑖿"]
  AyogavahaMap := us!["𑖼", "𑖽", "𑖾", "𑖾˂", "𑖾˂", "˂", "˂˂", "˂˂˂", "˂˂˂˂", "˂˂˂", "˂˂˂", "˂˂˂", "˂", "˂", "˂", "˂˂˂˂˂", "˂˂˂˂˂", "˂˂˂˂˂", "˂˂˂˂˂", "˂˂˂˂˂"]
  NuktaMap := us!["𑗀"]
  ConsonantMap := us!["𑖎", "𑖏", "𑖐", "𑖑", "𑖒", "𑖓", "𑖔", "𑖕", "𑖖", "𑖗", "𑖘", "𑖙", "𑖚", "𑖛", "𑖜", "𑖝", "𑖞", "𑖟", "𑖠", "𑖡", "𑖢", "𑖣", "𑖤", "𑖥", "𑖦", "𑖧", "𑖨", "𑖩", "𑖪", "𑖫", "𑖬", "𑖭", "𑖮", "𑖤˂", "𑖎˂", "𑖣˂", "𑖭˂", "𑖮˂", "𑖧˂", "𑖝𑗀", "𑖒˂", "𑖗˂", "𑖦˂", "𑖢˂", "𑖧˂", "𑖨˂", "𑖪˂", "𑖢˂", "𑖭˂", "𑖮˂", "𑖎˂", "𑖎˂", "𑖗˂"]
  SouthConsonantMap := us!["𑖩𑗀", "𑖬𑗀", "𑖨𑗀", "𑖡𑗀"]
  NuktaConsonantMap := us!["𑖎𑗀", "𑖏𑗀", "𑖐𑗀", "𑖕𑗀", "𑖚𑗀", "𑖛𑗀", "𑖣𑗀", "𑖧𑗀"]
  SinhalaConsonantMap := us!["𑖼ʽ𑖐", "𑖼ʽ𑖕", "𑖼ʽ𑖚", "𑖼ʽ𑖟", "𑖼ʽ𑖤"]
  SignMap := us!["ʽʽ", "𑗂", "𑗃", "!˂˂˂˂", "!!˂", "!!!˂", "!!!˂", "!!!˂"]
  NumeralMap := us!["0", "1", "2", "3", "4", "5", "6", "7", "8", "9"]
  Aytham := us!["𑖾ʽ"]
  OmMap := us!["𑖌𑖼"]

/-- ScriptMap/EastIndic/Soyombo.py -/
def Soyombo : Tbl where
  VowelMap := us!["𑩐", "𑩐𑩛", "𑩐𑩑", "𑩐𑩑𑩛", "𑩐𑩒", "𑩐𑩒𑩛", "𑩐𑩙", "𑩐𑩙𑩛", "𑩐𑩚", "𑩐𑩚𑩛", "𑩐𑩔", "𑩐𑩗", "𑩐𑩖", "𑩐𑩘", "𑩐𑩒˂", "𑩐𑩒𑩛˂", "𑩐𑩛˂", "𑩐𑩛˂", "𑩐𑩔˂", "𑩐𑩒˂", "𑩐𑩒𑩛˂", "𑩐𑩒𑩛˂", "𑩐𑩗˂", "𑩐𑩗˂", "𑩐𑩖˂", "𑩐𑩖˂", "𑩐𑩗˂", "𑩐𑩒˂", "𑩐𑩑˂", "𑩐𑩑𑩛˂", "𑩐𑩒˂", "𑩐𑩖˂", "𑩐˂", "𑩐˂", "𑩐𑩛˂", "𑩐˂", "𑩐˂", "𑩐𑩘˂", "𑩐𑩖˂", "𑩐𑩖˂", "𑩐𑩖˂", "𑩐𑩑𑩛˂", "𑩐𑩒˂", "𑩐𑩒𑩛˂", "𑩐𑩗˂", "𑩐𑩗˂", "𑩐𑩖˂", "𑩐𑩘˂"]
  SouthVowelMap := us!["𑩐𑩔ʽ", "𑩐𑩖ʽ"]
  ModernVowelMap := us!["𑩐𑩔ʽ", "𑩐𑩕", "𑩐𑩔ʽ˂", "𑩐𑩔ʽ˂", "𑩐𑩕˂", "𑩐𑩕˂"]
  SinhalaVowelMap := us!["𑩐𑩔ʽ"]
  VowelSignMap := us!["𑩛", "𑩑", "𑩑𑩛", "𑩒", "𑩒𑩛", "𑩙", "𑩙𑩛", "𑩚", "𑩚𑩛", "𑩔", "𑩗", "𑩖", "𑩘", "𑩒˂", "𑩒𑩛˂", "𑩛˂", "𑩛˂", "𑩔˂", "𑩒˂", "𑩒𑩛˂", "𑩒𑩛˂", "𑩗˂", "𑩗˂", "𑩖˂", "𑩖˂", "𑩗˂", "𑩒𑩛˂", "𑩑˂", "𑩑𑩛˂", "𑩒˂", "𑩖˂", "˂", "˂", "𑩛˂", "˂", "𑩔˂", "𑩒˂˂", "𑩖˂", "𑩖˂", "𑩖˂", "𑩖˂", "𑩒˂", "𑩒𑩛˂", "𑩗˂", "𑩗˂", "𑩖˂", "𑩘˂"]
  SouthVowelSignMap := us!["𑩔ʽ", "𑩖ʽ"]
  ModernVowelSignMap := us!["𑩔ʽ", "𑩕", "𑩔ʽ˂", "𑩔ʽ˂", "𑩕˂", "𑩕˂"]
  SinhalaVowelSignMap := us!["𑩔ʽ"]
  ViramaMap := us!["𑪙"]
  AyogavahaMap := us!["𑪖ʽ", "𑪖", "𑪗", "𑪄", "𑪅", "˂", "˂˂", "˂˂˂", "˂˂˂˂", "˂˂˂", "˂˂˂", "˂˂˂", "˂", "˂", "˂", "˂˂˂˂˂", "˂˂˂˂˂", "˂˂˂˂˂", "˂˂˂˂˂", "˂˂˂˂˂"]
  NuktaMap := us!["ʽʽʽʽ"]
  ConsonantMap := us!["𑩜", "𑩝", "𑩞", "𑩟", "𑩠", "𑩵", "𑩶", "𑩷", "𑩤", "𑩥", "𑩦", "𑩧", "𑩨", "𑩩", "𑩪", "𑩫", "𑩬", "𑩭", "𑩮", "𑩯", "𑩰", "𑩱", "𑩲", "𑩳", "𑩴", "𑩻", "𑩼", "𑩽", "𑩾", "𑩿", "𑪀", "𑪁", "𑪂", "𑩲˂", "𑩜˂", "𑩱˂", "𑪁˂", "𑪂˂", "𑩻˂", "𑩫ʽʽʽʽ", "𑩠˂", "𑩥˂", "𑩴˂", "𑩰˂", "𑩻˂", "𑩼˂", "𑩾˂", "𑩰˂", "𑪁˂", "𑪂˂", "𑩜˂", "𑩜˂", "𑩥˂"]
  SouthConsonantMap := us!["𑩽ʽ", "𑩽ʽ", "𑩼ʽ", "𑩯ʽ"]
  NuktaConsonantMap := us!["𑩜ʽ", "𑩝ʽ", "𑩞ʽ", "𑩹", "𑨖ʽ", "𑩨ʽ", "𑩩ʽ", "𑩱ʽ"]
  SinhalaConsonantMap := us!["𑪖𑩞ʽ", "𑪖𑩷ʽ", "𑪖𑩨ʽ", "𑪖𑩭ʽ", "𑪖𑩲ʽ"]
  SignMap := us!["ʽʽʽ", "𑪛", "𑪜", "!˂˂˂˂", "!!˂", "!!!˂", "!!!˂", "!!!˂"]
  NumeralMap := us!["0", "1", "2", "3", "4", "5", "6", "7", "8", "9"]
  Aytham := us!["𑪗ʽ"]
  OmMap := us!["𑩐𑩖𑪖"]

/-- ScriptMap/EastIndic/Sundanese.py -/
def Sundanese : Tbl where
  VowelMap := us!["ᮃ", "ᮃʽ", "ᮄ", "ᮄʽ", "ᮅ", "ᮅʽ", "ᮻ", "ᮻʽ", "ᮼ", "ᮼʽ", "ᮈʽ", "ᮃᮄʽ", "ᮇʽ", "ᮃᮅʽ", "ᮅ˂", "ᮅʽ˂", "ᮃʽ˂", "ᮃʽ˂", "ᮈʽ˂", "ᮅ˂", "ᮅʽ˂", "ᮅʽ˂", "ᮃᮄʽ˂", "ᮃᮄʽ˂", "ᮇʽ˂", "ᮇʽ˂", "ᮃᮄʽ˂", "ᮅ˂", "ᮄ˂", "ᮄʽ˂", "ᮅ˂", "ᮇʽ˂", "ᮃ˂", "ᮃ˂", "ᮃʽ˂", "ᮃ˂", "ᮃ˂", "ᮃᮅʽ˂", "ᮇʽ˂", "ᮇʽ˂", "ᮇʽ˂", "ᮄʽ˂", "ᮅ˂", "ᮅʽ˂", "ᮃᮄʽ˂", "ᮃᮄʽ˂", "ᮇʽ˂", "ᮃᮅʽ˂"]
  SouthVowelMap := us!["ᮈ", "ᮇ"]
  ModernVowelMap := us!["ᮆ", "ᮉ", "ᮆ˂", "ᮆ˂", "ᮉ˂", "ᮉ˂"]
  SinhalaVowelMap := us!["ᮆʽ"]
  VowelSignMap := us!["ʽʽ", "ᮤ", "ᮤʽ", "ᮥ", "ᮥʽ", "᮪ᮻ", "᮪ᮻʽ", "᮪ᮼ", "᮪ᮼʽ", "ᮨʽ", "ᮄʽ", "ᮧʽ", "ᮅʽ", "ᮥ˂", "ᮥʽ˂", "ʽʽ˂", "ʽʽ˂", "ᮨʽ˂", "ᮥ˂", "ᮥʽ˂", "ᮥʽ˂", "ᮄʽ˂", "ᮄʽ˂", "ᮧʽ˂", "ᮧʽ˂", "ᮄʽ˂", "ᮥʽ˂", "ᮤ˂", "ᮤʽ˂", "ᮥ˂", "ᮧʽ˂", "˂", "˂", "ʽʽ˂", "˂", "ᮨʽ˂", "ᮥ˂˂", "ᮧʽ˂", "ᮧʽ˂", "ᮧʽ˂", "ᮧʽ˂", "ᮥ˂", "ᮥʽ˂", "ᮄʽ˂", "ᮄʽ˂", "ᮧʽ˂", "ᮅʽ˂"]
  SouthVowelSignMap := us!["ᮨ", "ᮧ"]
  ModernVowelSignMap := us!["ᮦ", "ᮩ", "ᮦ˂", "ᮦ˂", "ᮩ˂", "ᮩ˂"]
  SinhalaVowelSignMap := us!["ᮦʽ"]
  ViramaMap := us!["᮪"]
  AyogavahaMap := us!["ᮀʽ", "ᮀ", "ᮂ", "ᮂ˂", "ᮂ˂", "˂", "˂˂", "˂˂˂", "˂˂˂˂", "˂˂˂", "˂˂˂", "˂˂˂", "˂", "˂", "˂", "˂˂˂˂˂", "˂˂˂˂˂", "˂˂˂˂˂", "˂˂˂˂˂", "˂˂˂˂˂"]
  NuktaMap := us!["ʽʽʽ"]
  ConsonantMap := us!["ᮊ", "ᮊʽ", "ᮌ", "ᮌʽ", "ᮍ", "ᮎ", "ᮎʽ", "ᮏ", "ᮏʽ", "ᮑ", "ᮒʽ", "ᮒʽ", "ᮓʽ", "ᮓʽ", "ᮔʽ", "ᮒ", "ᮒʽ", "ᮓ", "ᮓʽ", "ᮔ", "ᮕ", "ᮕʽ", "ᮘ", "ᮽ", "ᮙ", "ᮚ", "ᮛ", "ᮜ", "ᮝ", "ᮯ", "ᮯʽ", "ᮞ", "ᮠ", "ᮘ˂", "ᮊ˂", "ᮕʽ˂", "ᮞ˂", "ᮠ˂", "ᮚ˂", "ᮒʽʽʽ", "ᮍ˂", "ᮑ˂", "ᮙ˂", "ᮕ˂", "ᮚ˂", "ᮛ˂", "ᮝ˂", "ᮕ˂", "ᮞ˂", "ᮠ˂", "ᮊ˂", "ᮊ˂", "ᮑ˂"]
  SouthConsonantMap := us!["ᮜʽ", "ᮜʽ", "ᮛʽ", "ᮔʽ"]
  NuktaConsonantMap := us!["ᮋ", "ᮮ", "ᮌʽ", "ᮐ", "ᮓʽ", "ᮓʽ", "ᮖ", "ᮚʽ"]
  SinhalaConsonantMap := us!["ᮀᮌʽ", "ᮀᮏʽ", "ᮀᮓʽ", "ᮀᮓʽ", "ᮀᮘʽ"]
  SignMap := us!["ᮺ", ".", "..", "!˂˂˂˂", "!!˂", "!!!˂", "!!!˂", "!!!˂"]
  NumeralMap := us!["᮰", "᮱", "᮲", "᮳", "᮴", "᮵", "᮶", "᮷", "᮸", "᮹"]
  Aytham := us!["ᮂʽ"]
  OmMap := us!["ᮇᮀʽ"]

/-- ScriptMap/EastIndic/Tagalog.py -/
def Tagalog : Tbl where
  VowelMap := us!["ᜀ", "ᜀʽ", "ᜁ", "ᜁʽ", "ᜂ", "ᜂʽ", "ᜎᜓʽ", "ᜎᜓʽ", "ᜎᜓʽ", "ᜎᜓʽ", "ᜁʽ", "ᜀᜁʽ", "ᜂʽ", "ᜀᜂʽ", "ᜂ˂", "ᜂʽ˂", "ᜀʽ˂", "ᜀʽ˂", "ᜁʽ˂", "ᜂ˂", "ᜂʽ˂", "ᜂʽ˂", "ᜀᜁʽ˂", "ᜀᜁʽ˂", "ᜂʽ˂", "ᜂʽ˂", "ᜀᜁʽ˂", "ᜂ˂", "ᜁ˂", "ᜁʽ˂", "ᜂ˂", "ᜂʽ˂", "ᜀ˂", "ᜀ˂", "ᜀʽ˂", "ᜀ˂", "ᜀ˂", "ᜀᜂʽ˂", "ᜂʽ˂", "ᜂʽ˂", "ᜂʽ˂", "ᜁʽ˂", "ᜂ˂", "ᜂʽ˂", "ᜀᜁʽ˂", "ᜀᜁʽ˂", "ᜂʽ˂", "ᜀᜂʽ˂"]
  SouthVowelMap := us!["ᜁʽ", "ᜂʽ"]
  ModernVowelMap := us!["ᜁʽ", "ᜀʽ", "ᜁʽ˂", "ᜁʽ˂", "ᜀʽ˂", "ᜀʽ˂"]
  SinhalaVowelMap := us!["ᜁʽ"]
  VowelSignMap := us!["ʽʽ", "ᜒ", "ᜒʽ", "ᜓ", "ᜓʽ", "᜔ᜎᜓʽ", "᜔ᜎᜓʽ", "᜔ᜎᜓʽ", "᜔ᜎᜓʽ", "ᜒʽ", "ᜁʽ", "ᜓʽ", "ᜂʽ", "ᜓ˂", "ᜓʽ˂", "ʽʽ˂", "ʽʽ˂", "ᜒʽ˂", "ᜓ˂", "ᜓʽ˂", "ᜓʽ˂", "ᜁʽ˂", "ᜁʽ˂", "ᜓʽ˂", "ᜓʽ˂", "ᜁʽ˂", "ᜓʽ˂", "ᜒ˂", "ᜒʽ˂", "ᜓ˂", "ᜓʽ˂", "˂", "˂", "ʽʽ˂", "˂", "ᜒʽ˂", "ᜓ˂˂", "ᜓʽ˂", "ᜓʽ˂", "ᜓʽ˂", "ᜓʽ˂", "ᜓ˂", "ᜓʽ˂", "ᜁʽ˂", "ᜁʽ˂", "ᜓʽ˂", "ᜂʽ˂"]
  SouthVowelSignMap := us!["ᜒʽ", "ᜓʽ"]
  ModernVowelSignMap := us!["ᜒʽ", "ʽʽ", "ᜒʽ˂", "ᜒʽ˂", "ʽʽ˂", "ʽʽ˂"]
  SinhalaVowelSignMap := us!["ᜒʽ"]
  ViramaMap := us!["᜔"]
  AyogavahaMap := us!["ᜋ᜔ʽ", "ᜋ᜔ʽ", "ᜑ᜔ʽ", "ᜑ᜔ʽ˂", "ᜑ᜔ʽ˂", "˂", "˂˂", "˂˂˂", "˂˂˂˂", "˂˂˂", "˂˂˂", "˂˂˂", "˂", "˂", "˂", "˂˂˂˂˂", "˂˂˂˂˂", "˂˂˂˂˂", "˂˂˂˂˂", "˂˂˂˂˂"]
  NuktaMap := us!["ʽʽʽʽ"]
  ConsonantMap := us!["ᜃ", "ᜃʽ", "ᜄ", "ᜄʽ", "ᜅ", "ᜐʽ", "ᜐʽ", "ᜇʽ", "ᜇʽ", "ᜈʽ", "ᜆʽ", "ᜆʽ", "ᜇʽ", "ᜇʽ", "ᜈʽ", "ᜆ", "ᜆʽ", "ᜇ", "ᜇʽ", "ᜈ", "ᜉ", "ᜉʽ", "ᜊ", "ᜊʽ", "ᜋ", "ᜌ", "ᜍ", "ᜎ", "ᜏ", "ᜐʽ", "ᜐʽ", "ᜐ", "ᜑ", "ᜊ˂", "ᜃ˂", "ᜉʽ˂", "ᜐ˂", "ᜑ˂", "ᜌ˂", "ᜆʽʽʽʽ", "ᜅ˂", "ᜈʽ˂", "ᜋ˂", "ᜉ˂", "ᜌ˂", "ᜍ˂", "ᜏ˂", "ᜉ˂", "ᜐ˂", "ᜑ˂", "ᜃ˂", "ᜃ˂", "ᜈʽ˂"]
  SouthConsonantMap := us!["ᜎʽ", "ᜎʽ", "ᜍʽ", "ᜈʽ"]
  NuktaConsonantMap := us!["ᜃʽ", "ᜃʽ", "ᜄʽ", "ᜇʽ", "ᜇʽ", "ᜇʽ", "ᜉʽ", "ᜌʽ"]
  SinhalaConsonantMap := us!["ᜅ᜔ᜄʽ", "ᜈᜇᜄʽ", "ᜈᜇᜄʽ", "ᜈᜇᜄʽ", "ᜋᜊᜄʽ"]
  SignMap := us!["ʽʽ", "᜵", "᜶", "!˂˂˂˂", "!!˂", "!!!˂", "!!!˂", "!!!˂"]
  NumeralMap := us!["0", "1", "2", "3", "4", "5", "6", "7", "8", "9"]
  Aytham := us!["ᜑ᜔ʽʽ"]
  OmMap := us!["ᜂᜋ᜔ʽ"]

/-- ScriptMap/EastIndic/Tagbanwa.py -/
def Tagbanwa : Tbl where
  VowelMap := us!["ᝠ", "ᝠʽ", "ᝡ", "ᝡʽ", "ᝢ", "ᝢʽ", "ᝮᝳʽ", "ᝮᝳʽ", "ᝮᝳʽ", "ᝮᝳʽ", "ᝡʽ", "ᝠᝡʽ", "ᝢʽ", "ᝠᝢʽ", "ᝢ˂", "ᝢʽ˂", "ᝠʽ˂", "ᝠʽ˂", "ᝡʽ˂", "ᝢ˂", "ᝢʽ˂", "ᝢʽ˂", "ᝠᝡʽ˂", "ᝠᝡʽ˂", "ᝢʽ˂", "ᝢʽ˂", "ᝠᝡʽ˂", "ᝢ˂", "ᝡ˂", "ᝡʽ˂", "ᝢ˂", "ᝢʽ˂", "ᝠ˂", "ᝠ˂", "ᝠʽ˂", "ᝠ˂", "ᝠ˂", "ᝠᝢʽ˂", "ᝢʽ˂", "ᝢʽ˂", "ᝢʽ˂", "ᝡʽ˂", "ᝢ˂", "ᝢʽ˂", "ᝠᝡʽ˂", "ᝠᝡʽ˂", "ᝢʽ˂", "ᝠᝢʽ˂"]
  SouthVowelMap := us!["ᝡʽ", "ᝢʽ"]
  ModernVowelMap := us!["ᝡʽ", "ᝠʽ", "ᝡʽ˂", "ᝡʽ˂", "ᝠʽ˂", "ᝠʽ˂"]
  SinhalaVowelMap := us!["ᝡʽ"]
  VowelSignMap := us!["ʽʽ", "ᝲ", "ᝲʽ", "ᝳ", "ᝳʽ", "ᝮᝳʽ", "ᝮᝳʽ", "ᝮᝳʽ", "ᝮᝳʽ", "ᝲʽ", "ᝡʽ", "ᝳʽ", "ᝢʽ", "ᝳ˂", "ᝳʽ˂", "ʽʽ˂", "ʽʽ˂", "ᝲʽ˂", "ᝳ˂", "ᝳʽ˂", "ᝳʽ˂", "ᝡʽ˂", "ᝡʽ˂", "ᝳʽ˂", "ᝳʽ˂", "ᝡʽ˂", "ᝳʽ˂", "ᝲ˂", "ᝲʽ˂", "ᝳ˂", "ᝳʽ˂", "˂", "˂", "ʽʽ˂", "˂", "ᝲʽ˂", "ᝳ˂˂", "ᝳʽ˂", "ᝳʽ˂", "ᝳʽ˂", "ᝳʽ˂", "ᝳ˂", "ᝳʽ˂", "ᝡʽ˂", "ᝡʽ˂", "ᝳʽ˂", "ᝢʽ˂"]
  SouthVowelSignMap := us!["ᝲʽ", "ᝳʽ"]
  ModernVowelSignMap := us!["ᝲʽ", "ʽʽ", "ᝲʽ˂", "ᝲʽ˂", "ʽʽ˂", "ʽʽ˂"]
  SinhalaVowelSignMap := us!["ᝲʽ"]
  ViramaMap := us!["ʽʽ"]
  AyogavahaMap := us!["ᝫʽ", "ᝫʽ", "ᝣʽ", "ᝣʽ˂", "ᝣʽ˂", "˂", "˂˂", "˂˂˂", "˂˂˂˂", "˂˂˂", "˂˂˂", "˂˂˂", "˂", "˂", "˂", "˂˂˂˂˂", "˂˂˂˂˂", "˂˂˂˂˂", "˂˂˂˂˂", "˂˂˂˂˂"]
  NuktaMap := us!["ʽʽʽʽ"]
  ConsonantMap := us!["ᝣ", "ᝣʽ", "ᝤ", "ᝤʽ", "ᝥ", "ᝰʽ", "ᝰʽ", "ᝧʽ", "ᝧʽ", "ᝨʽ", "ᝦʽ", "ᝦʽ", "ᝧʽ", "ᝧʽ", "ᝨʽ", "ᝦ", "ᝦʽ", "ᝧ", "ᝧʽ", "ᝨ", "ᝩ", "ᝩʽ", "ᝪ", "ᝪʽ", "ᝫ", "ᝬ", "ᝮʽ", "ᝮ", "ᝯ", "ᝰʽ", "ᝰʽ", "ᝰ", "ᝣʽ", "ᝪ˂", "ᝣ˂", "ᝩʽ˂", "ᝰ˂", "ᝣʽ˂", "ᝬ˂", "ᝦʽʽʽʽ", "ᝥ˂", "ᝨʽ˂", "ᝫ˂", "ᝩ˂", "ᝬ˂", "ᝮʽ˂", "ᝯ˂", "ᝩ˂", "ᝰ˂", "ᝣʽ˂", "ᝣ˂", "ᝣ˂", "ᝨʽ˂"]
  SouthConsonantMap := us!["ᝮʽ", "ᝮʽ", "ᝮʽ", "ᝨʽ"]
  NuktaConsonantMap := us!["ᝣʽ", "ᝣʽ", "ᝤʽ", "ᝧʽ", "ᝧʽ", "ᝧʽ", "ᝩʽ", "ᝬʽ"]
  SinhalaConsonantMap := us!["ᝥᝤʽ", "ᝨᝧʽ", "ᝨᝧʽ", "ᝨᝧʽ", "ᝫᝪʽ"]
  SignMap := us!["ʽʽ", "᜵", "᜶", "!˂˂˂˂", "!!˂", "!!!˂", "!!!˂", "!!!˂"]
  NumeralMap := us!["0", "1", "2", "3", "4", "5", "6", "7", "8", "9"]
  Aytham := us!["ᝣʽʽ"]
  OmMap := us!["ᝢᝫʽ"]

/-- ScriptMap/EastIndic/TaiLaing.py -/
def TaiLaing : Tbl where
  VowelMap := us!["အ", "အႃ", "အိ", "အီ", "အု", "အူ", "ꩺိʽ", "ꩺီʽ", "လိʽ", "လီʽ", "အေ", "အႆ", "အေႃ", "အဝ်ʽ", "အု˂", "အူ˂", "အႃ˂", "အႃ˂", "အေ˂", "အု˂", "အူ˂", "အူ˂", "အႆ˂", "အႆ˂", "အေႃ˂", "အေႃ˂", "အႆ˂", "အု˂", "အိ˂", "အီ˂", "အု˂", "အေႃ˂", "အ˂", "အ˂", "အႃ˂", "အ˂", "အ˂", "အဝ်ʽ˂", "အေႃ˂", "အေႃ˂", "အေႃ˂", "အီ˂", "အု˂", "အူ˂", "အႆ˂", "အႆ˂", "အေႃ˂", "အဝ်ʽ˂"]
  SouthVowelMap := us!["အေʽ", "အေႃʽ"]
  ModernVowelMap := us!["အေʽ", "အႃʽ", "အေʽ˂", "အေʽ˂", "အႃʽ˂", "အႃʽ˂"]
  SinhalaVowelMap := us!["အေʽ"]
  VowelSignMap := us!["ႃ", "ိ", "ီ", "ု", "ူ", "်ꩺိʽ", "်ꩺီʽ", "်လိʽ", "်လီʽ", "ေ", "ႆ", "ေႃ", "ဝ်ʽ", "ု˂", "ူ˂", "ႃ˂", "ႃ˂", "ေ˂", "ု˂", "ူ˂", "ူ˂", "ႆ˂", "ႆ˂", "ေႃ˂", "ေႃ˂", "ႆ˂", "ူ˂", "ိ˂", "ီ˂", "ု˂", "ေႃ˂", "˂", "˂", "ႃ˂", "˂", "ေ˂", "ု˂˂", "ေႃ˂", "ေႃ˂", "ေႃ˂", "ေႃ˂", "ု˂", "ူ˂", "ႆ˂", "ႆ˂", "ေႃ˂", "ဝ်ʽ˂"]
  SouthVowelSignMap := us!["ေʽ", "ေႃʽ"]
  ModernVowelSignMap := us!["ႄ", "ႃʽ", "ႄ˂", "ႄ˂", "ႃʽ˂", "ႃʽ˂"]
  SinhalaVowelSignMap := us!["ႄʽ"]
  ViramaMap := us!["်"]
  AyogavahaMap := us!["ံʽ", "ံ", "း", "း˂", "း˂", "˂", "˂˂", "˂˂˂", "˂˂˂˂", "˂˂˂", "˂˂˂", "˂˂˂", "˂", "˂", "˂", "˂˂˂˂˂", "˂˂˂˂˂", "˂˂˂˂˂", "˂˂˂˂˂", "˂˂˂˂˂"]
  NuktaMap := us!["ʽʽʽ"]
  ConsonantMap := us!["က", "ၵ", "ꧩ", "ꧪ", "င", "ၸ", "ꩬ", "ꧫ", "ꧬ", "ꧧ", "ꩦ", "ꩧ", "ꧭ", "ꧮ", "ꧯ", "တ", "ထ", "ꧻ", "ꧼ", "ꩫ", "ပ", "ꧤ", "ꧽ", "ꧾ", "မ", "ယ", "ꩺ", "လ", "ဝ", "ꧬʽ", "ꧬʽ", "ꧬ", "ၯ", "ꧽ˂", "က˂", "ꧤ˂", "ꧬ˂", "ၯ˂", "ယ˂", "တʽʽʽ", "င˂", "ꧧ˂", "မ˂", "ပ˂", "ယ˂", "ꩺ˂", "ဝ˂", "ပ˂", "ꧬ˂", "ၯ˂", "က˂", "က˂", "ꧧ˂"]
  SouthConsonantMap := us!["ꧺ", "ꧺʽ", "ꩺʽ", "ꩫʽ"]
  NuktaConsonantMap := us!["ကʽ", "ၵʽ", "ꧩʽ", "ꧫʽ", "ꧭʽ", "ꧮʽ", "ꧨ", "ယʽ"]
  SinhalaConsonantMap := us!["ံၵʽ", "ံꧫʽ", "ံꧭʽ", "ံꧻʽ", "ံꧽʽ"]
  SignMap := us!["'", "၊", "။", "!˂˂˂˂", "!!˂", "!!!˂", "!!!˂", "!!!˂"]
  NumeralMap := us!["꧰", "꧱", "꧲", "꧳", "꧴", "꧵", "꧶", "꧷", "꧸", "꧹"]
  Aytham := us!["းʽ"]
  OmMap := us!["အေႃံ"]

/-- ScriptMap/EastIndic/TaiTham.py -/
def TaiTham : Tbl where
  VowelMap := us!["ᩋ", "ᩋᩣ", "ᩍ", "ᩎ", "ᩏ", "ᩐ", "ᩂ", "ᩂᩣ", "ᩄ", "ᩄᩣ", "ᩑ", "ᩋᩱ", "ᩒ", "ᩏᩫᩣ", "ᩏ˂", "ᩐ˂", "ᩋᩣ˂", "ᩋᩣ˂", "ᩑ˂", "ᩏ˂", "ᩐ˂", "ᩐ˂", "ᩋᩱ˂", "ᩋᩱ˂", "ᩒ˂", "ᩒ˂", "ᩋᩱ˂", "ᩏ˂", "ᩍ˂", "ᩎ˂", "ᩏ˂", "ᩒ˂", "ᩋ˂", "ᩋ˂", "ᩋᩣ˂", "ᩋᩢ", "ᩋ᩿ᨿ", "ᩋ᩿ᩅ", "ᩋᩰᩬᩡ", "ᩋᩫ", "ᩋᩳ", "ᩋᩬ", "ᩋᩧ", "ᩋᩨ", "ᩋᩱ᩿ᨿ", "ᩋᩭ", "ᩋᩴ᩿ᨿ", "ᩋᩮᩢᩣ"]
  SouthVowelMap := us!["ᩑʽ", "ᩒʽ"]
  ModernVowelMap := us!["ᩑʽ", "ᩋᩣʽ", "ᩑʽ˂", "ᩑʽ˂", "ᩋᩮᩨᩬ", "ᩋᩮᩨ"]
  SinhalaVowelMap := us!["ᩑʽ"]
  VowelSignMap := us!["ᩣ", "ᩥ", "ᩦ", "ᩩ", "ᩪ", "᩺ᩂ", "᩺ᩂᩣ", "᩺ᩄ", "᩺ᩄᩣ", "ᩮ", "ᩱ", "ᩮᩣ", "ᩮᩫᩣ", "ᩩ˂", "ᩪ˂", "ᩣ˂", "ᩣ˂", "ᩮ˂", "ᩩ˂", "ᩪ˂", "ᩪ˂", "ᩱ˂", "ᩱ˂", "ᩮᩣ˂", "ᩮᩣ˂", "ᩱ˂", "ᩪ˂", "ᩥ˂", "ᩦ˂", "ᩩ˂", "ᩮᩣ˂", "˂", "˂", "ᩣ˂", "ᩢ", "᩿ᨿ", "᩿ᩅ", "ᩰᩬᩡ", "ᩳ", "ᩮᩣ˂", "ᩬ", "ᩧ", "ᩨ", "ᩱ᩿ᨿ", "ᩭ", "ᩴ᩿ᨿ", "ᩮᩫᩣ˂"]
  SouthVowelSignMap := us!["ᩮʽ", "ᩮᩣʽ"]
  ModernVowelSignMap := us!["ᩮʽ", "ᩣʽ", "ᩮʽ˂", "ᩮʽ˂", "ᩮᩨᩬ", "ᩮᩨ"]
  SinhalaVowelSignMap := us!["ᩮʽ"]
  ViramaMap := us!["᩺"]
  AyogavahaMap := us!["ᩴʽ", "ᩴ", "ᩡ", "ᩡ˂", "ᩡ˂", "˂", "˂˂", "˂˂˂", "˂˂˂˂", "˂˂˂", "˂˂˂", "˂˂˂", "˂", "˂", "˂", "᩵", "᩶", "᩷", "᩸", "᩹"]
  NuktaMap := us!["ʽʽʽʽ"]
  ConsonantMap := us!["ᨠ", "ᨡ", "ᨣ", "ᨥ", "ᨦ", "ᨧ", "ᨨ", "ᨩ", "ᨫ", "ᨬ", "ᨭ", "ᨮ", "ᨯ", "ᨰ", "ᨱ", "ᨲ", "ᨳ", "ᨴ", "ᨵ", "ᨶ", "ᨸ", "ᨹ", "ᨻ", "ᨽ", "ᨾ", "ᨿ", "ᩁ", "ᩃ", "ᩅ", "ᩆ", "ᩇ", "ᩈ", "ᩉ", "ᨷ", "ᨤ", "ᨺ", "ᨪ", "ᩌ", "ᩀ", "ᨲʽʽʽʽ", "ᨦ˂", "ᨬ˂", "ᨾ˂", "ᨸ˂", "ᨿ˂", "ᩁ˂", "ᩅ˂", "ᨸ˂", "ᩈ˂", "ᩉ˂", "ᨠ˂", "ᨠ˂", "ᨬ˂"]
  SouthConsonantMap := us!["ᩊ", "ᩊʽ", "ᩁʽ", "ᨶʽ"]
  NuktaConsonantMap := us!["ᨠʽ", "ᨡʽ", "ᨣʽ", "ᨩʽ", "ᨯʽ", "ᨰʽ", "ᨹʽ", "ᨿʽ"]
  SinhalaConsonantMap := us!["ᩴᨣʽ", "ᩴᨩʽ", "ᩴᨯʽ", "ᩴᨴʽ", "ᩴᨽʽ"]
  SignMap := us!["'", "᪨", "᪩", "!˂˂˂˂", "!!˂", "!!!˂", "!!!˂", "!!!˂"]
  NumeralMap := us!["᪐", "᪑", "᪒", "᪓", "᪔", "᪕", "᪖", "᪗", "᪘", "᪙"]
  Aytham := us!["ᩡʽ"]
  OmMap := us!["ᩒᩴ"]

/-- ScriptMap/EastIndic/Thaana.py -/
def Thaana : Tbl where
  VowelMap := us!["އަ", "އާ", "އި", "އީ", "އު", "އޫ", "ރު", "ރޫ", "ލު", "ލޫ", "އޭ", "އައިʽ", "އޯ", "އައުʽ", "އު˂", "އޫ˂", "އާ˂", "އާ˂", "އޭ˂", "އު˂", "އޫ˂", "އޫ˂", "އައިʽ˂", "އައިʽ˂", "އޯ˂", "އޯ˂", "އައިʽ˂", "އު˂", "އި˂", "އީ˂", "އު˂", "އޯ˂", "އަ˂", "އަ˂", "އާ˂", "އަ˂", "އަ˂", "އައުʽ˂", "އޯ˂", "އޯ˂", "އޯ˂", "އީ˂", "އު˂", "އޫ˂", "އައިʽ˂", "އައިʽ˂", "އޯ˂", "އައުʽ˂"]
  SouthVowelMap := us!["އެ", "އޮ"]
  ModernVowelMap := us!["އެʽ", "އާʽ", "އެʽ˂", "އެʽ˂", "އާʽ˂", "އާʽ˂"]
  SinhalaVowelMap := us!["އޭʽ"]
  VowelSignMap := us!["ާ", "ި", "ީ", "ު", "ޫ", "ްރު", "ްރޫ", "ްލު", "ްލޫ", "ޭ", "ައިʽ", "ޯ", "ައުʽ", "ު˂", "ޫ˂", "ާ˂", "ާ˂", "ޭ˂", "ު˂", "ޫ˂", "ޫ˂", "ައިʽ˂", "ައިʽ˂", "ޯ˂", "ޯ˂", "ައިʽ˂", "ޫ˂", "ި˂", "ީ˂", "ު˂", "ޯ˂", "˂", "˂", "ާ˂", "˂", "ޭ˂", "ު˂˂", "ޯ˂", "ޯ˂", "ޯ˂", "ޯ˂", "ު˂", "ޫ˂", "ައިʽ˂", "ައިʽ˂", "ޯ˂", "ައުʽ˂"]
  SouthVowelSignMap := us!["ެ", "ޮ"]
  ModernVowelSignMap := us!["ެʽ", "ާʽ", "ެʽ˂", "ެʽ˂", "ާʽ˂", "ާʽ˂"]
  SinhalaVowelSignMap := us!["ޭʽ"]
  ViramaMap := us!["ް"]
  AyogavahaMap := us!["މްʽ", "މްʽ", "ހަްʽ", "ހަްʽ˂", "ހަްʽ˂", "˂", "˂˂", "˂˂˂", "˂˂˂˂", "˂˂˂", "˂˂˂", "˂˂˂", "˂", "˂", "˂", "˂˂˂˂˂", "˂˂˂˂˂", "˂˂˂˂˂", "˂˂˂˂˂", "˂˂˂˂˂"]
  NuktaMap := us!["ʽʽʽ"]
  ConsonantMap := us!["ކަ", "ކʽަ", "ގަ", "ގʽަ", "ނʽަ", "ޗަ", "ޗʽަ", "ޖަ", "ޖʽަ", "ޏަ", "ޓަ", "ޓʽަ", "ޑަ", "ޑʽަ", "ޱަ", "ތަ", "ތʽަ", "ދަ", "ދʽަ", "ނަ", "ޕަ", "ޕʽަ", "ބަ", "ބʽަ", "މަ", "ޔަ", "ރަ", "ލަ", "ވަ", "ޝަ", "ށަ", "ސަ", "ހަ", "ބަ˂", "ކަ˂", "ޕʽަ˂", "ސަ˂", "ހަ˂", "ޔަ˂", "ތަʽʽʽ", "ނʽަ˂", "ޏަ˂", "މަ˂", "ޕަ˂", "ޔަ˂", "ރަ˂", "ވަ˂", "ޕަ˂", "ސަ˂", "ހަ˂", "ކަ˂", "ކަ˂", "ޏަ˂"]
  SouthConsonantMap := us!["ޅަ", "ޅʽަ", "ރʽަ", "ނʽަ"]
  NuktaConsonantMap := us!["ޤަ", "ޚަ", "ޣަ", "ޒަ", "ޑʽަ", "ޑʽަ", "ފަ", "ޔʽަ"]
  SinhalaConsonantMap := us!["ނގަ", "ނޖަ", "ނޑަ", "ނދަ", "ނބަ"]
  SignMap := us!["ʽʽ", "۔", "۔۔", "!˂˂˂˂", "!!˂", "!!!˂", "!!!˂", "!!!˂"]
  NumeralMap := us!["0", "1", "2", "3", "4", "5", "6", "7", "8", "9"]
  Aytham := us!["ހަްʽʽ"]
  OmMap := us!["އޯމަް"]

/-- ScriptMap/EastIndic/Thai.py -/
def Thai : Tbl where
  VowelMap := us!["อ", "อา", "อิ", "อี", "อุ", "อู", "ฤ", "ฤๅ", "ฦ", "ฦๅ", "อเ", "อไ", "อโ", "อเา", "อุ˂", "อู˂", "อา˂", "อา˂", "อเ˂", "อุ˂", "อู˂", "อู˂", "อไ˂", "อไ˂", "อโ˂", "อโ˂", "อไ˂", "อุ˂", "อิ˂", "อี˂", "อุ˂", "อโ˂", "อ˂", "อ˂", "อา˂", "อ˂", "อ˂", "อเา˂", "อโ˂", "อโ˂", "อโ˂", "อี˂", "อุ˂", "อู˂", "อไ˂", "อไ˂", "อโ˂", "อเา˂"]
  SouthVowelMap := us!["อเะ", "อโะ"]
  ModernVowelMap := us!["อแะ", "อเาะ", "อแะ˂", "อแะ˂", "อเาะ˂", "อเาะ˂"]
  SinhalaVowelMap := us!["อแ"]
  VowelSignMap := us!["า", "ิ", "ี", "ุ", "ู", "ฺฤ", "ฺฤๅ", "ฺฦ", "ฺฦๅ", "เ", "ไ", "โ", "เา", "ุ˂", "ู˂", "า˂", "า˂", "เ˂", "ุ˂", "ู˂", "ู˂", "ไ˂", "ไ˂", "โ˂", "โ˂", "ไ˂", "ู˂", "ิ˂", "ี˂", "ุ˂", "โ˂", "˂", "˂", "า˂", "˂", "เ˂", "ุ˂˂", "โ˂", "โ˂", "โ˂", "โ˂", "ุ˂", "ู˂", "ไ˂", "ไ˂", "โ˂", "เา˂"]
  SouthVowelSignMap := us!["เะ", "โะ"]
  ModernVowelSignMap := us!["แะ", "เาะ", "แะ˂", "แะ˂", "เาะ˂", "เาะ˂"]
  SinhalaVowelSignMap := us!["แ"]
  ViramaMap := us!["ฺ"]
  AyogavahaMap := us!["ํʽ", "ํ", "ห์", "ห์˂", "ห์˂", "˂", "˂˂", "˂˂˂", "˂˂˂˂", "˂˂˂", "˂˂˂", "˂˂˂", "˂", "˂", "˂", "˂˂˂˂˂", "˂˂˂˂˂", "˂˂˂˂˂", "˂˂˂˂˂", "˂˂˂˂˂"]
  NuktaMap := us!["ʽʽʽʽ"]
  ConsonantMap := us!["ก", "ข", "ค", "ฆ", "ง", "จ", "ฉ", "ช", "ฌ", "ญ", "ฏ", "ฐ", "ฑ", "ฒ", "ณ", "ต", "ถ", "ท", "ธ", "น", "ป", "ผ", "พ", "ภ", "ม", "ย", "ร", "ล", "ว", "ศ", "ษ", "ส", "ห", "พ˂", "ก˂", "ผ˂", "ส˂", "ห˂", "ย˂", "ตʽʽʽʽ", "ง˂", "ญ˂", "ม˂", "ป˂", "ย˂", "ร˂", "ว˂", "ป˂", "ส˂", "ห˂", "ก˂", "ก˂", "ญ˂"]
  SouthConsonantMap := us!["ฬ", "ฬʽ", "รʽ", "นʽ"]
  NuktaConsonantMap := us!["กʽ", "ฃ", "ฅ", "ซ", "รʽ", "รฺหʽ", "ฟ", "ยʽ"]
  SinhalaConsonantMap := us!["ํคʽ", "ํชʽ", "ํฑʽ", "ํทʽ", "ํพʽ"]
  SignMap := us!["'", "ฯ", "๚", "!˂˂˂˂", "!!˂", "!!!˂", "!!!˂", "!!!˂"]
  NumeralMap := us!["๐", "๑", "๒", "๓", "๔", "๕", "๖", "๗", "๘", "๙"]
  Aytham := us!["ห์ʽ"]
  OmMap := us!["โอํ"]

/-- ScriptMap/EastIndic/ThamLoC.py -/
def ThamLoC : Tbl where
  VowelMap := us!["ᩋ", "ᩋᩣ", "ᩍ", "ᩎ", "ᩏ", "ᩐ", "ᩂ", "ᩂᩣ", "ᩄ", "ᩄᩣ", "ᩑ", "ᩋᩱ", "ᩒ", "ᩋ᩿ᩅᩫ", "ᩏ˂", "ᩐ˂", "ᩋᩣ˂", "ᩋᩣ˂", "ᩑ˂", "ᩏ˂", "ᩐ˂", "ᩐ˂", "ᩋᩱ˂", "ᩋ᩿ᩅᩭ", "ᩒ˂", "ᩒ˂", "ᩋᩱ˂", "ᩏ˂", "ᩍ˂", "ᩎ˂", "ᩏ˂", "ᩒ˂", "ᩋ˂", "ᩋ˂", "ᩋᩣ˂", "ᩋᩢ", "ᩋ᩿ᨿ", "ᩋ᩿ᩅ", "ᩋᩰᩬᩡ", "ᩋᩫ", "ᩋᩳ", "ᩋᩬ", "ᩋᩧ", "ᩋᩨ", "ᩋᩱ᩿ᨿ", "ᩋᩭ", "ᩋᩴ᩿ᨿ", "ᩋᩮᩢᩣ"]
  SouthVowelMap := us!["ᩑʽ", "ᩒʽ"]
  ModernVowelMap := us!["ᩋᩯ", "ᩋᩣʽ", "ᩋᩯ˂", "ᩋᩯ˂", "ᩋᩮᩨᩬ", "ᩋᩮᩨ"]
  SinhalaVowelMap := us!["ᩑʽ"]
  VowelSignMap := us!["ᩣ", "ᩥ", "ᩦ", "ᩩ", "ᩪ", "᩺ᩂ", "᩺ᩂᩣ", "᩺ᩄ", "᩺ᩄᩣ", "ᩮ", "ᩱ", "ᩰ", "᩿ᩅᩫ", "ᩩ˂", "ᩪ˂", "ᩣ˂", "ᩣ˂", "ᩮ˂", "ᩩ˂", "ᩪ˂", "ᩪ˂", "ᩱ˂", "᩿ᩅᩭ", "ᩰ˂", "ᩰ˂", "ᩱ˂", "ᩪ˂", "ᩥ˂", "ᩦ˂", "ᩩ˂", "ᩰ˂", "˂", "˂", "ᩣ˂", "ᩢ", "᩿ᨿ", "᩿ᩅ", "ᩰᩬᩡ", "ᩫ", "ᩳ", "ᩬ", "ᩧ", "ᩨ", "ᩱ᩿ᨿ", "ᩭ", "ᩴ᩿ᨿ", "ᩮᩢᩣ"]
  SouthVowelSignMap := us!["ᩮʽ", "ᩰʽ"]
  ModernVowelSignMap := us!["ᩯ", "ᩣʽ", "ᩯ˂", "ᩯ˂", "ᩮᩨᩬ", "ᩮᩨ"]
  SinhalaVowelSignMap := us!["ᩮʽ"]
  ViramaMap := us!["᩺"]
  AyogavahaMap := us!["ᩴʽ", "ᩴ", "ᩡ", "ᩡ˂", "ᩡ˂", "˂", "˂˂", "˂˂˂", "˂˂˂˂", "˂˂˂", "˂˂˂", "˂˂˂", "˂", "˂", "˂", "᩵", "᩶", "᩷", "᩸", "᩹"]
  NuktaMap := us!["ʽʽʽʽ"]
  ConsonantMap := us!["ᨠ", "ᨡ", "ᨣ", "ᨥ", "ᨦ", "ᨧ", "ᨨ", "ᨩ", "ᨫ", "ᨬ", "ᨭ", "ᨮ", "ᨯ", "ᨰ", "ᨱ", "ᨲ", "ᨳ", "ᨴ", "ᨵ", "ᨶ", "ᨸ", "ᨹ", "ᨻ", "ᨽ", "ᨾ", "ᨿ", "ᩁ", "ᩃ", "ᩅ", "ᩆ", "ᩇ", "ᩈ", "ᩉ", "ᨷ", "ᨤ", "ᨺ", "ᨪ", "ᩌ", "ᩀ", "ᨲʽʽʽʽ", "ᨦ˂", "ᨬ˂", "ᨾ˂", "ᨸ˂", "ᨿ˂", "ᩁ˂", "ᩅ˂", "ᨸ˂", "ᩈ˂", "ᩉ˂", "ᨠ˂", "ᨠ˂", "ᨬᩚ"]
  SouthConsonantMap := us!["ᩊ", "ᩊʽ", "ᩁʽ", "ᨶʽ"]
  NuktaConsonantMap := us!["ᨠʽ", "ᨡʽ", "ᨣʽ", "ᨩʽ", "ᨯʽ", "ᨰʽ", "ᨹʽ", "ᨿʽ"]
  SinhalaConsonantMap := us!["ᩴᨣʽ", "ᩴᨩʽ", "ᩴᨯʽ", "ᩴᨴʽ", "ᩴᨽʽ"]
  SignMap := us!["'", "᪨", "᪩", "!˂˂˂˂", "!!˂", "!!!˂", "ᩓ", "ᩓ"]
  NumeralMap := us!["᪐", "᪑", "᪒", "᪓", "᪔", "᪕", "᪖", "᪗", "᪘", "᪙"]
  Aytham := us!["ᩡʽ"]
  OmMap := us!["ᩒᩴ"]

/-- ScriptMap/EastIndic/Tibetan.py -/
def Tibetan : Tbl where
  VowelMap := us!["ཨ", "ཨཱ", "ཨི", "ཨཱི", "ཨུ", "ཨཱུ", "རྀ", "རཱྀ", "ལྀ", "ལཱྀ", "ཨེ", "ཨཻ", "ཨོ", "ཨཽ", "ཨུ˂", "ཨཱུ˂", "ཨཱ˂", "ཨཱ˂", "ཨེ˂", "ཨུ˂", "ཨཱུ˂", "ཨཱུ˂", "ཨཻ˂", "ཨཻ˂", "ཨོ˂", "ཨོ˂", "ཨཻ˂", "ཨུ˂", "ཨི˂", "ཨཱི˂", "ཨུ˂", "ཨོ˂", "ཨ˂", "ཨ˂", "ཨཱ˂", "ཨ˂", "ཨ˂", "ཨཽ˂", "ཨོ˂", "ཨོ˂", "ཨོ˂", "ཨཱི˂", "ཨུ˂", "ཨཱུ˂", "ཨཻ˂", "ཨཻ˂", "ཨོ˂", "ཨཽ˂"]
  SouthVowelMap := us!["ཨེʽ", "ཨོʽ"]
  ModernVowelMap := us!["ཨེʽ", "ཨཱʽ", "ཨེʽ˂", "ཨེʽ˂", "ཨཱʽ˂", "ཨཱʽ˂"]
  SinhalaVowelMap := us!["ཨེʽ"]
  VowelSignMap := us!["ཱ", "ི", "ཱི", "ུ", "ཱུ", "ྲྀ", "ྲཱྀ", "ླྀ", "ླཱྀ", "ེ", "ཻ", "ོ", "ཽ", "ུ˂", "ཱུ˂", "ཱ˂", "ཱ˂", "ེ˂", "ུ˂", "ཱུ˂", "ཱུ˂", "ཻ˂", "ཻ˂", "ོ˂", "ོ˂", "ཻ˂", "ཱུ˂", "ི˂", "ཱི˂", "ུ˂", "ོ˂", "˂", "˂", "ཱ˂", "˂", "ེ˂", "ུ˂˂", "ོ˂", "ོ˂", "ོ˂", "ོ˂", "ུ˂", "ཱུ˂", "ཻ˂", "ཻ˂", "ོ˂", "ཽ˂"]
  SouthVowelSignMap := us!["ེʽ", "ོʽ"]
  ModernVowelSignMap := us!["ེʽ", "ཱʽ", "ེʽ˂", "ེʽ˂", "ཱʽ˂", "ཱʽ˂"]
  SinhalaVowelSignMap := us!["ེʽ"]
  ViramaMap := us!["྄"]
  AyogavahaMap := us!["ྃ", "ཾ", "ཿ", "ྈ", "ྉ", "˂", "˂˂", "˂˂˂", "˂˂˂˂", "˂˂˂", "˂˂˂", "˂˂˂", "˂", "˂", "˂", "˂˂˂˂˂", "˂˂˂˂˂", "˂˂˂˂˂", "˂˂˂˂˂", "˂˂˂˂˂"]
  NuktaMap := us!["༹"]
  ConsonantMap := us!["ཀ", "ཁ", "ག", "གྷ", "ང", "ཙ", "ཚ", "ཛ", "ཛྷ", "ཉ", "ཊ", "ཋ", "ཌ", "ཌྷ", "ཎ", "ཏ", "ཐ", "ད", "དྷ", "ན", "པ", "ཕ", "བ", "བྷ", "མ", "ཡ", "ར", "ལ", "ཝ", "ཤ", "ཥ", "ས", "ཧ", "བ˂", "ཀ˂", "ཕ˂", "ས˂", "ཧ˂", "ཡ˂", "ཏ༹", "ང˂", "ཉ˂", "མ˂", "པ˂", "ཡ˂", "ར˂", "ཝ˂", "པ˂", "ས˂", "ཧ˂", "ཀ˂", "ཀ˂", "ཉ˂"]
  SouthConsonantMap := us!["ལ༹", "ཥ༹", "ར༹", "ན༹"]
  NuktaConsonantMap := us!["ཀ༹", "ཁ༹", "ག༹", "ཟ", "ཌ༹", "ཌྷ༹", "ཕ༹", "ཡ༹"]
  SinhalaConsonantMap := us!["ྃཀʽ", "ྃཛʽ", "ྃཌʽ", "ྃདʽ", "ྃབʽ"]
  SignMap := us!["྅", "།", "༎", "!˂˂˂˂", "!!˂", "!!!˂", "!!!˂", "!!!˂"]
  NumeralMap := us!["༠", "༡", "༢", "༣", "༤", "༥", "༦", "༧", "༨", "༩"]
  Aytham := us!["ཿʽ"]
  OmMap := us!["ༀ"]

/-- ScriptMap/EastIndic/TibetanLoC.py -/
def TibetanLoC : Tbl where
  VowelMap := us!["ཨ", "ཨཱ", "ཨི", "ཨཱི", "ཨུ", "ཨཱུ", "རྀ", "རཱྀ", "ལྀ", "ལཱྀ", "ཨེ", "ཨཻ", "ཨོ", "ཨཽ", "ཨུ˂", "ཨཱུ˂", "ཨཱ˂", "ཨཱ˂", "ཨེ˂", "ཨུ˂", "ཨཱུ˂", "ཨཱུ˂", "ཨཻ˂", "ཨཻ˂", "ཨོ˂", "ཨོ˂", "ཨཻ˂", "ཨུ˂", "ཨི˂", "ཨཱི˂", "ཨུ˂", "ཨོ˂", "ཨ˂", "ཨ˂", "ཨཱ˂", "ཨ˂", "ཨ˂", "ཨཽ˂", "ཨོ˂", "ཨོ˂", "ཨོ˂", "ཨཱི˂", "ཨུ˂", "ཨཱུ˂", "ཨཻ˂", "ཨཻ˂", "ཨོ˂", "ཨཽ˂"]
  SouthVowelMap := us!["ཨེʽ", "ཨོʽ"]
  ModernVowelMap := us!["ཨེʽ", "ཨཱʽ", "ཨེʽ˂", "ཨེʽ˂", "ཨཱʽ˂", "ཨཱʽ˂"]
  SinhalaVowelMap := us!["ཨེʽ"]
  VowelSignMap := us!["ཱ", "ི", "ཱི", "ུ", "ཱུ", "ྲྀ", "ྲཱྀ", "ླྀ", "ླཱྀ", "ེ", "ཻ", "ོ", "ཽ", "ུ˂", "ཱུ˂", "ཱ˂", "ཱ˂", "ེ˂", "ུ˂", "ཱུ˂", "ཱུ˂", "ཻ˂", "ཻ˂", "ོ˂", "ོ˂", "ཻ˂", "ཱུ˂", "ི˂", "ཱི˂", "ུ˂", "ོ˂", "˂", "˂", "ཱ˂", "˂", "ེ˂", "ུ˂˂", "ོ˂", "ོ˂", "ོ˂", "ོ˂", "ུ˂", "ཱུ˂", "ཻ˂", "ཻ˂", "ོ˂", "ཽ˂"]
  SouthVowelSignMap := us!["ེʽ", "ོʽ"]
  ModernVowelSignMap := us!["ེʽ", "ཱʽ", "ེʽ˂", "ེʽ˂", "ཱʽ˂", "ཱʽ˂"]
  SinhalaVowelSignMap := us!["ེʽ"]
  ViramaMap := us!["྄"]
  AyogavahaMap := us!["ྃ", "ཾ", "ཿ", "ཿ˂", "ཿ˂", "˂", "˂˂", "˂˂˂", "˂˂˂˂", "˂˂˂", "˂˂˂", "˂˂˂", "˂", "˂", "˂", "˂˂˂˂˂", "˂˂˂˂˂", "˂˂˂˂˂", "˂˂˂˂˂", "˂˂˂˂˂"]
  NuktaMap := us!["༹"]
  ConsonantMap := us!["ཀ", "ཁ", "ག", "གྷ", "ང", "ཅ", "ཆ", "ཇ", "ཇྷ", "ཉ", "ཊ", "ཋ", "ཌ", "ཌྷ", "ཎ", "ཏ", "ཐ", "ད", "དྷ", "ན", "པ", "ཕ", "བ", "བྷ", "མ", "ཡ", "ར", "ལ", "ཝ", "ཤ", "ཥ", "ས", "ཧ", "བ˂", "ཀ˂", "ཕ˂", "ས˂", "ཧ˂", "ཡ˂", "ཏ༹", "ང˂", "ཉ˂", "མ˂", "པ˂", "ཡ˂", "ར˂", "ཝ˂", "པ˂", "ས˂", "ཧ˂", "ཀ˂", "ཀ˂", "ཉ˂"]
  SouthConsonantMap := us!["ལ༹", "ཥ༹", "ར༹", "ན༹"]
  NuktaConsonantMap := us!["ཙ", "ཚ", "ཛ", "ཛྷ", "འ", "ཞ", "ཟ", "ཡ༹"]
  SinhalaConsonantMap := us!["ྃཀʽ", "ྃཛʽ", "ྃཌʽ", "ྃདʽ", "ྃབʽ"]
  SignMap := us!["྅", "།", "༎", "!˂˂˂˂", "!!˂", "!!!˂", "!!!˂", "!!!˂"]
  NumeralMap := us!["༠", "༡", "༢", "༣", "༤", "༥", "༦", "༧", "༨", "༩"]
  Aytham := us!["ཿʽ"]
  OmMap := us!["ༀ"]

/-- ScriptMap/EastIndic/ZanabazarSquare.py -/
def ZanabazarSquare : Tbl where
  VowelMap := us!["𑨀", "𑨀𑨊", "𑨀𑨁", "𑨀𑨁𑨊", "𑨀𑨂", "𑨀𑨂𑨊", "𑨫𑨉", "𑨫𑨉𑨊", "𑨬𑨉", "𑨬𑨉𑨊", "𑨀𑨄", "𑨀𑨄𑨊", "𑨀𑨆", "𑨀𑨆𑨊", "𑨀𑨂˂", "𑨀𑨂𑨊˂", "𑨀𑨊˂", "𑨀𑨊˂", "𑨀𑨄˂", "𑨀𑨂˂", "𑨀𑨂𑨊˂", "𑨀𑨂𑨊˂", "𑨀𑨄𑨊˂", "𑨀𑨄𑨊˂", "𑨀𑨆˂", "𑨀𑨆˂", "𑨀𑨄𑨊˂", "𑨀𑨂˂", "𑨀𑨁˂", "𑨀𑨁𑨊˂", "𑨀𑨂˂", "𑨀𑨆˂", "𑨀˂", "𑨀˂", "𑨀𑨊˂", "𑨀˂", "𑨀˂", "𑨀𑨆𑨊˂", "𑨀𑨆˂", "𑨀𑨆˂", "𑨀𑨆˂", "𑨀𑨁𑨊˂", "𑨀𑨂˂", "𑨀𑨂𑨊˂", "𑨀𑨄𑨊˂", "𑨀𑨄𑨊˂", "𑨀𑨆˂", "𑨀𑨆𑨊˂"]
  SouthVowelMap := us!["𑨀𑨄ʽ", "𑨀𑨆ʽ"]
  ModernVowelMap := us!["𑨀𑨄ʽ", "𑨀𑨅", "𑨀𑨄ʽ˂", "𑨀𑨄ʽ˂", "𑨀𑨅˂", "𑨀𑨅˂"]
  SinhalaVowelMap := us!["𑨀𑨄ʽ"]
  VowelSignMap := us!["𑨊", "𑨁", "𑨁𑨊", "𑨂", "𑨂𑨊", "𑨴𑨫𑨉", "𑨴𑨫𑨉𑨊", "𑨴𑨬𑨉", "𑨴𑨬𑨉𑨊", "𑨄", "𑨄𑨊", "𑨆", "𑨆𑨊", "𑨂˂", "𑨂𑨊˂", "𑨊˂", "𑨊˂", "𑨄˂", "𑨂˂", "𑨂𑨊˂", "𑨂𑨊˂", "𑨄𑨊˂", "𑨄𑨊˂", "𑨆˂", "𑨆˂", "𑨄𑨊˂", "𑨂𑨊˂", "𑨁˂", "𑨁𑨊˂", "𑨂˂", "𑨆˂", "˂", "˂", "𑨊˂", "˂", "𑨄˂", "𑨂˂˂", "𑨆˂", "𑨆˂", "𑨆˂", "𑨆˂", "𑨂˂", "𑨂𑨊˂", "𑨄𑨊˂", "𑨄𑨊˂", "𑨆˂", "𑨆𑨊˂"]
  SouthVowelSignMap := us!["𑨄ʽ", "𑨆ʽ"]
  ModernVowelSignMap := us!["𑨄ʽ", "𑨅", "𑨄ʽ˂", "𑨄ʽ˂", "𑨅˂", "𑨅˂"]
  SinhalaVowelSignMap := us!["𑨄ʽ"]
  ViramaMap := us!["𑨴"]
  AyogavahaMap := us!["𑨵", "𑨸", "𑨹", "𑨹˂", "𑨹˂", "˂", "˂˂", "˂˂˂", "˂˂˂˂", "˂˂˂", "˂˂˂", "˂˂˂", "˂", "˂", "˂", "˂˂˂˂˂", "˂˂˂˂˂", "˂˂˂˂˂", "˂˂˂˂˂", "˂˂˂˂˂"]
  NuktaMap := us!["ʽʽʽʽ"]
  ConsonantMap := us!["𑨋", "𑨌", "𑨍", "𑨎", "𑨏", "𑨣", "𑨤", "𑨥", "𑨦", "𑨓", "𑨔", "𑨕", "𑨖", "𑨗", "𑨘", "𑨙", "𑨚", "𑨛", "𑨜", "𑨝", "𑨞", "𑨟", "𑨠", "𑨡", "𑨢", "𑨪", "𑨫", "𑨬", "𑨭", "𑨮", "𑨯", "𑨰", "𑨱", "𑨠˂", "𑨋˂", "𑨟˂", "𑨰˂", "𑨱˂", "𑨪˂", "𑨙ʽʽʽʽ", "𑨏˂", "𑨓˂", "𑨢˂", "𑨞˂", "𑨪˂", "𑨫˂", "𑨭˂", "𑨞˂", "𑨰˂", "𑨱˂", "𑨋˂", "𑨋˂", "𑨓˂"]
  SouthConsonantMap := us!["𑨬ʽ", "𑨬ʽ", "𑨫ʽ", "𑨝ʽ"]
  NuktaConsonantMap := us!["𑨋ʽ", "𑨌ʽ", "𑨍ʽ", "𑨨", "𑨖ʽ", "𑨗ʽ", "𑨟ʽ", "𑨪ʽ"]
  SinhalaConsonantMap := us!["𑨵𑨍ʽ", "𑨵𑨥ʽ", "𑨵𑨖ʽ", "𑨵𑨛ʽ", "𑨵𑨠ʽ"]
  SignMap := us!["ʽʽʽ", "𑩂", "𑩃", "!˂˂˂˂", "!!˂", "!!!˂", "!!!˂", "!!!˂"]
  NumeralMap := us!["0", "1", "2", "3", "4", "5", "6", "7", "8", "9"]
  Aytham := us!["𑨹ʽ"]
  OmMap := us!["𑨀𑨆𑨵"]

/-- ScriptMap/Roman/Aksharaa.py -/
def Aksharaa : Tbl where
  VowelMap := us!["a", "aa", "i", "ii", "u", "uu", "ru'", "ruu'", "lu'", "luu'", "ee", "ai", "oo", "au", "u˂", "uu˂", "aa˂", "aa˂", "ee˂", "u˂", "uu˂", "uu˂", "ai˂", "ai˂", "oo˂", "oo˂", "ai˂", "u˂", "i˂", "ii˂", "u˂", "oo˂", "a˂", "a˂", "aa˂", "a˂", "a˂", "au˂", "oo˂", "oo˂", "oo˂", "ii˂", "u˂", "uu˂", "ai˂", "ai˂", "oo˂", "au˂"]
  SouthVowelMap := us!["e", "o"]
  ModernVowelMap := us!["e'", "o'", "e'˂", "e'˂", "o'˂", "o'˂"]
  SinhalaVowelMap := us!["ee'"]
  VowelSignMap := us!["aa", "i", "ii", "u", "uu", "ru'", "ruu'", "lu'", "luu'", "ee", "ai", "oo", "au", "u˂", "uu˂", "aa˂", "aa˂", "ee˂", "u˂", "uu˂", "uu˂", "ai˂", "ai˂", "oo˂", "oo˂", "ai˂", "uu˂", "i˂", "ii˂", "u˂", "oo˂", "˂", "˂", "aa˂", "˂", "ee˂", "u˂˂", "oo˂", "oo˂", "oo˂", "oo˂", "u˂", "uu˂", "ai˂", "ai˂", "oo˂", "au˂"]
  SouthVowelSignMap := us!["e", "o"]
  ModernVowelSignMap := us!["e'", "o'", "e'˂", "e'˂", "o'˂", "o'˂"]
  SinhalaVowelSignMap := us!["ee'"]
  ViramaMap := us!["×"]
  AyogavahaMap := us!["m;", "m'", "h'", "h'˂", "h'˂", "˂", "˂˂", "˂˂˂", "˂˂˂˂", "˂˂˂", "˂˂˂", "˂˂˂", "˂", "˂", "˂", "˂˂˂˂˂", "˂˂˂˂˂", "˂˂˂˂˂", "˂˂˂˂˂", "˂˂˂˂˂"]
  NuktaMap := us!["Q"]
  ConsonantMap := us!["k", "kh", "g", "gh", "ng'", "ch", "chh", "j", "jh", "nj'", "t'", "t'h", "d'", "d'h", "n'", "t", "th", "d", "dh", "n", "p", "ph", "b", "bh", "m", "y", "r", "l", "v", "sh", "shh", "s", "h", "b˂", "k˂", "ph˂", "s˂", "h˂", "y˂", "tQ", "ng'˂", "nj'˂", "m˂", "p˂", "y˂", "r˂", "v˂", "p˂", "s˂", "h˂", "k˂", "k˂", "nj'˂"]
  SouthConsonantMap := us!["l'", "zh", "r'", "n;"]
  NuktaConsonantMap := us!["q", "qh", "g;", "z", "d;", "d;h", "f", "y;"]
  SinhalaConsonantMap := us!["ng;", "nj;", "nd';", "nd;", "mb;"]
  SignMap := us!["a;", ".", "..", "!˂˂˂˂", "!!˂", "!!!˂", "!!!˂", "!!!˂"]
  NumeralMap := us!["0", "1", "2", "3", "4", "5", "6", "7", "8", "9"]
  Aytham := us!["_k"]
  OmMap := us!["oom'"]

/-- ScriptMap/Roman/Ariyaka.py -/
def Ariyaka : Tbl where
  VowelMap := us!["a", "A", "i", "I", "u", "U", "ruʽ", "rUʽ", "luʽ", "lUʽ", "e", "ai", "o", "au", "u˂", "U˂", "A˂", "A˂", "e˂", "u˂", "U˂", "U˂", "ai˂", "ai˂", "o˂", "o˂", "ai˂", "u˂", "i˂", "I˂", "u˂", "o˂", "a˂", "a˂", "A˂", "a˂", "a˂", "au˂", "o˂", "o˂", "o˂", "I˂", "u˂", "U˂", "ai˂", "ai˂", "o˂", "au˂"]
  SouthVowelMap := us!["eʽ", "oʽ"]
  ModernVowelMap := us!["eʽ", "A", "eʽ˂", "eʽ˂", "A˂", "A˂"]
  SinhalaVowelMap := us!["eʽ"]
  VowelSignMap := us!["A", "i", "I", "u", "U", "ruʽ", "rUʽ", "luʽ", "lUʽ", "e", "ai", "o", "au", "u˂", "U˂", "A˂", "A˂", "e˂", "u˂", "U˂", "U˂", "ai˂", "ai˂", "o˂", "o˂", "ai˂", "U˂", "i˂", "I˂", "u˂", "o˂", "˂", "˂", "A˂", "˂", "e˂", "u˂˂", "o˂", "o˂", "o˂", "o˂", "u˂", "U˂", "ai˂", "ai˂", "o˂", "au˂"]
  SouthVowelSignMap := us!["eʽ", "oʽ"]
  ModernVowelSignMap := us!["eʽ", "A", "eʽ˂", "eʽ˂", "A˂", "A˂"]
  SinhalaVowelSignMap := us!["eʽ"]
  ViramaMap := us!["×"]
  AyogavahaMap := us!["Mʽ", "M", "h", "h˂", "h˂", "˂", "˂˂", "˂˂˂", "˂˂˂˂", "˂˂˂", "˂˂˂", "˂˂˂", "˂", "˂", "˂", "˂˂˂˂˂", "˂˂˂˂˂", "˂˂˂˂˂", "˂˂˂˂˂", "˂˂˂˂˂"]
  NuktaMap := us!["ʽʽ"]
  ConsonantMap := us!["k", "K", "g", "G", "~", "c", "C", "j", "J", "Y", "T", "F", "D", "V", "N", "t", "f", "d", "@", "n", "p", "P", "b", "B", "m", "y", "r", "l", "v", "sʽ", "sʽ", "s", "h", "b˂", "k˂", "P˂", "s˂", "h˂", "y˂", "tʽʽ", "~˂", "Y˂", "m˂", "p˂", "y˂", "r˂", "v˂", "p˂", "s˂", "h˂", "k˂", "k˂", "Y˂"]
  SouthConsonantMap := us!["L", "Lʽ", "rʽ", "nʽ"]
  NuktaConsonantMap := us!["kʽ", "Kʽ", "gʽ", "jʽ", "Dʽ", "Vʽ", "Pʽ", "yʽ"]
  SinhalaConsonantMap := us!["Mgʽ", "Mjʽ", "MDʽ", "Mdʽ", "Mbʽ"]
  SignMap := us!["'", ".", "..", "!˂˂˂˂", "!!˂", "!!!˂", "!!!˂", "!!!˂"]
  NumeralMap := us!["0", "1", "2", "3", "4", "5", "6", "7", "8", "9"]
  Aytham := us!["hʽ"]
  OmMap := us!["oM"]

/-- ScriptMap/Roman/AssameseRomanLoC.py -/
def AssameseRomanLoC : Tbl where
  VowelMap := us!["a", "ā", "i", "ī", "u", "ū", "r̥", "r̥̄", "l̥", "l̥̄", "e", "ai", "o", "au", "u˂", "ū˂", "ā˂", "ā˂", "e˂", "u˂", "ū˂", "ū˂", "ai˂", "ai˂", "o˂", "o˂", "ai˂", "u˂", "i˂", "ī˂", "u˂", "o˂", "a˂", "a˂", "ā˂", "a˂", "a˂", "au˂", "o˂", "o˂", "o˂", "ī˂", "u˂", "ū˂", "ai˂", "ai˂", "o˂", "au˂"]
  SouthVowelMap := us!["ĕ", "ŏ"]
  ModernVowelMap := us!["æ", "ô", "æ˂", "æ˂", "ô˂", "ô˂"]
  SinhalaVowelMap := us!["ǣ"]
  VowelSignMap := us!["ā", "i", "ī", "u", "ū", "r̥", "r̥̄", "l̥", "l̥̄", "e", "ai", "o", "au", "u˂", "ū˂", "ā˂", "ā˂", "e˂", "u˂", "ū˂", "ū˂", "ai˂", "ai˂", "o˂", "o˂", "ai˂", "ū˂", "i˂", "ī˂", "u˂", "o˂", "˂", "˂", "ā˂", "˂", "e˂", "u˂˂", "o˂", "o˂", "o˂", "o˂", "u˂", "ū˂", "ai˂", "ai˂", "o˂", "au˂"]
  SouthVowelSignMap := us!["ĕ", "ŏ"]
  ModernVowelSignMap := us!["æ", "ô", "æ˂", "æ˂", "ô˂", "ô˂"]
  SinhalaVowelSignMap := us!["ǣ"]
  ViramaMap := us!["×"]
  AyogavahaMap := us!["m̐", "ṃ", "ḥ", "ḥ˂", "ḥ˂", "˂", "˂˂", "˂˂˂", "˂˂˂˂", "˂˂˂", "˂˂˂", "˂˂˂", "˂", "˂", "˂", "˂˂˂˂˂", "˂˂˂˂˂", "˂˂˂˂˂", "˂˂˂˂˂", "˂˂˂˂˂"]
  NuktaMap := us!["̈"]
  ConsonantMap := us!["k", "kh", "g", "gh", "ṅ", "c", "ch", "j", "jh", "ñ", "ṭ", "ṭh", "ḍ", "ḍh", "ṇ", "t", "th", "d", "dh", "n", "p", "ph", "b", "bh", "m", "y", "r", "l", "w", "ś", "sh", "s", "h", "b˂", "k˂", "ph˂", "s˂", "h˂", "y˂", "ẗ", "ṅ˂", "ñ˂", "m˂", "p˂", "y˂", "r˂", "w˂", "p˂", "s˂", "h˂", "k˂", "k˂", "ñ˂"]
  SouthConsonantMap := us!["ḷ", "ḻ", "ṟ", "ṉ"]
  NuktaConsonantMap := us!["q", "k͟h", "ġ", "z", "ṛ", "ṛh", "f", "ẏ"]
  SinhalaConsonantMap := us!["n̆g", "n̆j", "n̆ḍ", "n̆d", "m̆b"]
  SignMap := us!["’", ".", "..", "!˂˂˂˂", "!!˂", "!!!˂", "!!!˂", "!!!˂"]
  NumeralMap := us!["0", "1", "2", "3", "4", "5", "6", "7", "8", "9"]
  Aytham := us!["ḵ"]
  OmMap := us!["ōṃ"]

/-- ScriptMap/Roman/Avestan.py -/
def Avestan : Tbl where
  VowelMap := us!["𐬀", "𐬁", "𐬌", "𐬍", "𐬎", "𐬏", "𐬆𐬭𐬆", "𐬇𐬭𐬇", "𐬆𐬮𐬆", "𐬇𐬮𐬇", "𐬉", "𐬀𐬌", "𐬋", "𐬀𐬎", "𐬎˂", "𐬏˂", "𐬁˂", "𐬁˂", "𐬉˂", "𐬎˂", "𐬏˂", "𐬏˂", "𐬀𐬌˂", "𐬀𐬌˂", "𐬋˂", "𐬋˂", "𐬀𐬌˂", "𐬎˂", "𐬌˂", "𐬍˂", "𐬎˂", "𐬋˂", "𐬀˂", "𐬀˂", "𐬁˂", "𐬀˂", "𐬀˂", "𐬀𐬎˂", "𐬋˂", "𐬋˂", "𐬋˂", "𐬍˂", "𐬎˂", "𐬏˂", "𐬀𐬌˂", "𐬀𐬌˂", "𐬋˂", "𐬀𐬎˂"]
  SouthVowelMap := us!["𐬈", "𐬊"]
  ModernVowelMap := us!["𐬆", "𐬂", "𐬆˂", "𐬆˂", "𐬂˂", "𐬂˂"]
  SinhalaVowelMap := us!["𐬇"]
  VowelSignMap := us!["𐬁", "𐬌", "𐬍", "𐬎", "𐬏", "𐬆𐬭𐬆", "𐬇𐬭𐬇", "𐬆𐬮𐬆", "𐬇𐬮𐬇", "𐬉", "𐬀𐬌", "𐬋", "𐬀𐬎", "𐬎˂", "𐬏˂", "𐬁˂", "𐬁˂", "𐬉˂", "𐬎˂", "𐬏˂", "𐬏˂", "𐬀𐬌˂", "𐬀𐬌˂", "𐬋˂", "𐬋˂", "𐬀𐬌˂", "𐬏˂", "𐬌˂", "𐬍˂", "𐬎˂", "𐬋˂", "˂", "˂", "𐬁˂", "˂", "𐬉˂", "𐬎˂˂", "𐬋˂", "𐬋˂", "𐬋˂", "𐬋˂", "𐬎˂", "𐬏˂", "𐬀𐬌˂", "𐬀𐬌˂", "𐬋˂", "𐬀𐬎˂"]
  SouthVowelSignMap := us!["𐬈", "𐬊"]
  ModernVowelSignMap := us!["𐬆", "𐬂", "𐬆˂", "𐬆˂", "𐬂˂", "𐬂˂"]
  SinhalaVowelSignMap := us!["𐬇"]
  ViramaMap := us!["×"]
  AyogavahaMap := us!["𐬩ʽ", "𐬩", "𐬵", "𐬵˂", "𐬵˂", "˂", "˂˂", "˂˂˂", "˂˂˂˂", "˂˂˂", "˂˂˂", "˂˂˂", "˂", "˂", "˂", "˂˂˂˂˂", "˂˂˂˂˂", "˂˂˂˂˂", "˂˂˂˂˂", "˂˂˂˂˂"]
  NuktaMap := us!["ʿ"]
  ConsonantMap := us!["𐬐", "𐬑", "𐬔", "𐬖", "𐬢", "𐬗", "𐬗ʽ", "𐬘", "𐬘ʽ", "𐬦", "𐬙ʽ", "𐬚ʽ", "𐬛ʽ", "𐬛ʽ", "𐬧", "𐬙", "𐬚", "𐬛", "𐬜", "𐬥", "𐬞", "𐬞ʽ", "𐬠", "𐬠ʽ", "𐬨", "𐬫", "𐬭", "𐬮", "𐬬", "𐬱", "𐬴", "𐬯", "𐬵", "𐬠˂", "𐬐˂", "𐬞ʽ˂", "𐬯˂", "𐬵˂", "𐬫˂", "𐬙ʿ", "𐬢˂", "𐬦˂", "𐬨˂", "𐬞˂", "𐬫˂", "𐬭˂", "𐬬˂", "𐬞˂", "𐬯˂", "𐬵˂", "𐬐˂", "𐬐˂", "𐬦˂"]
  SouthConsonantMap := us!["𐬮ʽ", "𐬮ʽ", "𐬭ʽ", "𐬥ʽ"]
  NuktaConsonantMap := us!["𐬐ʽ", "𐬓", "𐬕", "𐬰", "𐬛ʽ", "𐬜ʽ", "𐬟", "𐬪"]
  SinhalaConsonantMap := us!["𐬢𐬔ʽ", "𐬣𐬘ʽ", "𐬥𐬛ʽ", "𐬥𐬛ʽ", "𐬨𐬠ʽ"]
  SignMap := us!["ʽ", "𐬼\u200f", "𐬽\u200f", "!˂˂˂˂", "!!˂", "!!!˂", "!!!˂", "!!!˂"]
  NumeralMap := us!["0", "1", "2", "3", "4", "5", "6", "7", "8", "9"]
  Aytham := us!["𐬑ʽ"]
  OmMap := us!["𐬋𐬨"]

/-- ScriptMap/Roman/BalineseRomanLoC.py -/
def BalineseRomanLoC : Tbl where
  VowelMap := us!["a", "ā", "i", "ī", "u", "ū", "rĕ", "rö", "lĕ", "lö", "e", "ai", "o", "au", "u˂", "ū˂", "ā˂", "ā˂", "e˂", "u˂", "ū˂", "ū˂", "ai˂", "ai˂", "o˂", "o˂", "ai˂", "u˂", "i˂", "ī˂", "u˂", "o˂", "a˂", "a˂", "ā˂", "a˂", "a˂", "au˂", "o˂", "o˂", "o˂", "ī˂", "u˂", "ū˂", "ai˂", "ai˂", "o˂", "au˂"]
  SouthVowelMap := us!["ĕʽ", "ŏʽ"]
  ModernVowelMap := us!["ĕ", "ô", "ĕ˂", "ĕ˂", "ô˂", "ô˂"]
  SinhalaVowelMap := us!["ö"]
  VowelSignMap := us!["ā", "i", "ī", "u", "ū", "rĕ", "rö", "lĕ", "lö", "e", "ai", "o", "au", "u˂", "ū˂", "ā˂", "ā˂", "e˂", "u˂", "ū˂", "ū˂", "ai˂", "ai˂", "o˂", "o˂", "ai˂", "ū˂", "i˂", "ī˂", "u˂", "o˂", "˂", "˂", "ā˂", "˂", "e˂", "u˂˂", "o˂", "o˂", "o˂", "o˂", "u˂", "ū˂", "ai˂", "ai˂", "o˂", "au˂"]
  SouthVowelSignMap := us!["ĕʽ", "ŏʽ"]
  ModernVowelSignMap := us!["ĕ", "ô", "ĕ˂", "ĕ˂", "ô˂", "ô˂"]
  SinhalaVowelSignMap := us!["ö"]
  ViramaMap := us!["×"]
  AyogavahaMap := us!["ng", "ng", "h", "h˂", "h˂", "˂", "˂˂", "˂˂˂", "˂˂˂˂", "˂˂˂", "˂˂˂", "˂˂˂", "˂", "˂", "˂", "˂˂˂˂˂", "˂˂˂˂˂", "˂˂˂˂˂", "˂˂˂˂˂", "˂˂˂˂˂"]
  NuktaMap := us!["̈"]
  ConsonantMap := us!["k", "kh", "g", "gh", "ng", "c", "ch", "j", "jh", "ñ", "ṭ", "ṭh", "ḍ", "ḍh", "ṇ", "t", "th", "d", "dh", "n", "p", "ph", "b", "bh", "m", "y", "r", "l", "w", "ś", "ṣ", "s", "h", "b˂", "k˂", "ph˂", "s˂", "h˂", "y˂", "ẗ", "ng˂", "ñ˂", "m˂", "p˂", "y˂", "r˂", "w˂", "p˂", "s˂", "h˂", "k˂", "k˂", "ñ˂"]
  SouthConsonantMap := us!["ḷ", "ḻ", "ṟ", "ṉ"]
  NuktaConsonantMap := us!["khʽ", "k͟h", "ghʽ", "z", "ṛ", "ṛh", "f", "ẏ"]
  SinhalaConsonantMap := us!["n̆g", "n̆j", "n̆ḍ", "n̆d", "m̆b"]
  SignMap := us!["’", ".", "..", "!˂˂˂˂", "!!˂", "!!!˂", "!!!˂", "!!!˂"]
  NumeralMap := us!["0", "1", "2", "3", "4", "5", "6", "7", "8", "9"]
  Aytham := us!["ḵ"]
  OmMap := us!["ōṁ"]

/-- ScriptMap/Roman/BalineseSimpleRomanLoC.py -/
def BalineseSimpleRomanLoC : Tbl where
  VowelMap := us!["a", "ā", "i", "ī", "u", "ū", "rĕ", "rö", "lĕ", "lö", "e", "ai", "o", "au", "u˂", "ū˂", "ā˂", "ā˂", "e˂", "u˂", "ū˂", "ū˂", "ai˂", "ai˂", "o˂", "o˂", "ai˂", "u˂", "i˂", "ī˂", "u˂", "o˂", "a˂", "a˂", "ā˂", "a˂", "a˂", "au˂", "o˂", "o˂", "o˂", "ī˂", "u˂", "ū˂", "ai˂", "ai˂", "o˂", "au˂"]
  SouthVowelMap := us!["ĕʽ", "ŏʽ"]
  ModernVowelMap := us!["ĕ", "ô", "ĕ˂", "ĕ˂", "ô˂", "ô˂"]
  SinhalaVowelMap := us!["ö"]
  VowelSignMap := us!["ā", "i", "ī", "u", "ū", "rĕ", "rö", "lĕ", "lö", "e", "ai", "o", "au", "u˂", "ū˂", "ā˂", "ā˂", "e˂", "u˂", "ū˂", "ū˂", "ai˂", "ai˂", "o˂", "o˂", "ai˂", "ū˂", "i˂", "ī˂", "u˂", "o˂", "˂", "˂", "ā˂", "˂", "e˂", "u˂˂", "o˂", "o˂", "o˂", "o˂", "u˂", "ū˂", "ai˂", "ai˂", "o˂", "au˂"]
  SouthVowelSignMap := us!["ĕʽ", "ŏʽ"]
  ModernVowelSignMap := us!["ĕ", "ô", "ĕ˂", "ĕ˂", "ô˂", "ô˂"]
  SinhalaVowelSignMap := us!["ö"]
  ViramaMap := us!["×"]
  AyogavahaMap := us!["ng", "ng", "h", "h˂", "h˂", "˂", "˂˂", "˂˂˂", "˂˂˂˂", "˂˂˂", "˂˂˂", "˂˂˂", "˂", "˂", "˂", "˂˂˂˂˂", "˂˂˂˂˂", "˂˂˂˂˂", "˂˂˂˂˂", "˂˂˂˂˂"]
  NuktaMap := us!["̈"]
  ConsonantMap := us!["k", "kʽ", "g", "gh", "ng", "c", "cʽ", "j", "jʽ", "ñ", "ṭ", "ṭʽ", "ḍ", "ḍʽ", "n", "t", "tʽ", "d", "dh", "n", "p", "pʽ", "b", "bʽ", "m", "y", "r", "l", "w", "s", "s", "s", "h", "b˂", "k˂", "pʽ˂", "s˂", "h˂", "y˂", "ẗ", "ng˂", "ñ˂", "m˂", "p˂", "y˂", "r˂", "w˂", "p˂", "s˂", "h˂", "k˂", "k˂", "ñ˂"]
  SouthConsonantMap := us!["ḷ", "ḻ", "ṟ", "ṉ"]
  NuktaConsonantMap := us!["khʽ", "k͟h", "ghʽ", "z", "ṛ", "ṛh", "f", "ẏ"]
  SinhalaConsonantMap := us!["n̆g", "n̆j", "n̆ḍ", "n̆d", "m̆b"]
  SignMap := us!["’", ".", "..", "!˂˂˂˂", "!!˂", "!!!˂", "!!!˂", "!!!˂"]
  NumeralMap := us!["0", "1", "2", "3", "4", "5", "6", "7", "8", "9"]
  Aytham := us!["ḵ"]
  OmMap := us!["ōṁ"]

end Verif.Ext
