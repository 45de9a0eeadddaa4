import Verif.Model.Sec

/-!
# Letter tables as written in /repo/aksharamukha/ScriptMap

Generated by tools/gentables.py.
-/

namespace Verif.Base

/-- ScriptMap/EastIndic/Mon.py -/
def Mon : Tbl where
  VowelMap := us!["အ", "အာ", "ဣ", "ဣဳ", "ဥ", "ဥူ", "ၒ", "ၓ", "ၔ", "ၕ", "ဨ", "အဲ", "ဩ", "ဪ"]
  SouthVowelMap := us!["ဨʽ", "ဩʽ"]
  ModernVowelMap := us!["ဨʽ", "အာʽ"]
  SinhalaVowelMap := us!["ဨʽ"]
  VowelSignMap := us!["ာ", "ိ", "ဳ", "ု", "ူ", "ၖ", "ၗ", "ၘ", "ၙ", "ေ", "ဲ", "ော", "ော်"]
  SouthVowelSignMap := us!["ေʽ", "ောʽ"]
  ModernVowelSignMap := us!["ေʽ", "ာʽ"]
  SinhalaVowelSignMap := us!["ေʽ"]
  ViramaMap := us!["်"]
  AyogavahaMap := us!["ံʽ", "ံ", "း"]
  NuktaMap := us!["ʽʽʽʽ"]
  ConsonantMap := us!["က", "ခ", "ဂ", "ဃ", "ၚ", "စ", "ဆ", "ဇ", "ၛ", "ည", "ဋ", "ဌ", "ဍ", "ဎ", "ဏ", "တ", "ထ", "ဒ", "ဓ", "န", "ပ", "ဖ", "ဗ", "ဘ", "မ", "ယ", "ရ", "လ", "ဝ", "ၐ", "ၑ", "သ", "ဟ"]
  SouthConsonantMap := us!["ဠ", "ဠʽ", "ရʽ", "နʽ"]
  NuktaConsonantMap := us!["ကʽ", "ခʽ", "ဂʽ", "ဇʽ", "ဍʽ", "ဎʽ", "ဖʽ", "ယʽ"]
  SinhalaConsonantMap := us!["ံဂʽ", "ံဇʽ", "ံဍʽ", "ံဒʽ", "ံဗʽ"]
  SignMap := us!["'", "၊", "။"]
  NumeralMap := us!["၀", "၁", "၂", "၃", "၄", "၅", "၆", "၇", "၈", "၉"]
  Aytham := us!["းʽ"]
  OmMap := us!["ဥုံ"]

/-- ScriptMap/EastIndic/Pallava.py -/
def Pallava : Tbl where
  VowelMap := us!["ꦄ", "ꦄꦴ", "ꦆ", "ꦇ", "ꦈ", "ꦈꦴ", "ꦫꦶʽ", "ꦫꦷʽ", "ꦭꦶʽ", "ꦭꦷʽ", "ꦌ", "ꦍ", "ꦎ", "ꦎꦴ"]
  SouthVowelMap := us!["ꦌʽ", "ꦎʽ"]
  ModernVowelMap := us!["ꦌʽ", "ꦄꦴʽ"]
  SinhalaVowelMap := us!["ꦌʽ"]
  VowelSignMap := us!["ꦴ", "ꦶ", "ꦷ", "ꦸ", "ꦹ", "꧀ꦫꦶʽ", "꧀ꦫꦷʽ", "꧀ꦭꦶʽ", "꧀ꦭꦷʽ", "ꦺ", "ꦻ", "ꦺꦴ", "ꦻꦴ"]
  SouthVowelSignMap := us!["ꦺʽ", "ꦺꦴʽ"]
  ModernVowelSignMap := us!["ꦺʽ", "ꦴʽ"]
  SinhalaVowelSignMap := us!["ꦺʽ"]
  ViramaMap := us!["꧀"]
  AyogavahaMap := us!["ꦁʽ", "ꦁ", "ꦃ"]
  NuktaMap := us!["ʽʽ"]
  ConsonantMap := us!["ꦏ", "ꦑ", "ꦒ", "ꦓ", "ꦔ", "ꦕ", "ꦖ", "ꦗ", "ꦙ", "ꦚ", "ꦛ", "ꦜ", "ꦝ", "ꦞ", "ꦟ", "ꦠ", "ꦡ", "ꦢ", "ꦣ", "ꦤ", "ꦥ", "ꦦ", "ꦧ", "ꦨ", "ꦩ", "ꦪ", "ꦫ", "ꦭ", "ꦮ", "ꦯ", "ꦰ", "ꦱ", "ꦲ"]
  SouthConsonantMap := us!["ꦭʽ", "ꦰʽ", "ꦫʽ", "ꦤʽ"]
  NuktaConsonantMap := us!["ꦏʽ", "ꦑʽ", "ꦒʽ", "ꦗʽ", "ꦝʽ", "ꦞʽ", "ꦦʽ", "ꦪʽ"]
  SinhalaConsonantMap := us!["ꦁꦒʽ", "ꦁꦗʽ", "ꦁꦝʽ", "ꦁꦢʽ", "ꦁꦧʽ"]
  SignMap := us!["'", "|", "||"]
  NumeralMap := us!["0", "1", "2", "3", "4", "5", "6", "7", "8", "9"]
  Aytham := us!["ꦃʽ"]
  OmMap := us!["ꦎꦁ"]

/-- ScriptMap/EastIndic/PhagsPa.py -/
def PhagsPa : Tbl where
  VowelMap := us!["ṿꡝ", "ṿꡝꡖ", "ṿꡞ", "ṿꡞꡖ", "ṿꡟ", "ṿꡟꡖ", "ṿꡘꡞʽ", "ṿꡘꡖꡞʽ", "ṿꡙꡞʽ", "ṿꡙꡖꡞʽ", "ṿꡠ", "ṿꡠꡖ", "ṿꡡ", "ṿꡡꡖ"]
  SouthVowelMap := us!["ꡠʽ", "ꡡʽ"]
  ModernVowelMap := us!["ꡠʽ", "ꡝꡖʽ"]
  SinhalaVowelMap := us!["ꡠʽ"]
  VowelSignMap := us!["ꡖ", "ꡞ", "ꡖꡞ", "ꡟ", "ꡖꡟ", "ꡱꡞ", "ꡖꡱꡞʽ", "ʾꡙꡞʽ", "ʾꡙꡖꡞʽ", "ꡠ", "ꡖꡠ", "ꡡ", "ꡖꡡ"]
  SouthVowelSignMap := us!["ꡠʽ", "ꡡʽ"]
  ModernVowelSignMap := us!["ꡠʽ", "ꡖʽ"]
  SinhalaVowelSignMap := us!["ꡠʽ"]
  ViramaMap := us!["ʾ"]
  AyogavahaMap := us!["ꡳ", "ꡳʽ", "ꡜʾʽ"]
  NuktaMap := us!["ʽʽʽʽ"]
  ConsonantMap := us!["ꡀ", "ꡁ", "ꡂ", "ṾꡂṾꡜṾ", "ꡃ", "ꡐ", "ꡑ", "ꡒ", "ṾꡒṾꡜṾ", "ꡇ", "ꡩ", "ꡪ", "ꡫ", "ṾꡫṾꡜṾ", "ꡬ", "ꡈ", "ꡉ", "ꡊ", "ṾꡊṾꡜṾ", "ꡋ", "ꡌ", "ꡍ", "ꡎ", "ṾꡎṾꡜṾ", "ꡏ", "ꡗ", "ꡘ", "ꡙ", "ꡓ", "ꡚ", "ꡚʽ", "ꡛ", "ꡜ"]
  SouthConsonantMap := us!["ꡙʽ", "ꡙʽ", "ꡘʽ", "ꡋʽ"]
  NuktaConsonantMap := us!["ꡢ", "ꡣ", "ꡥ", "ꡕ", "ꡫʽ", "ꡫṾꡜʽ", "ꡤ", "ꡭ"]
  SinhalaConsonantMap := us!["ꡳꡂʽ", "ꡳꡒʽ", "ꡳꡨʽ", "ꡳꡊʽ", "ꡳꡎʽ"]
  SignMap := us!["ʽʽ", "꡶", "꡷"]
  NumeralMap := us!["0", "1", "2", "3", "4", "5", "6", "7", "8", "9"]
  Aytham := us!["ꡜʽ"]
  OmMap := us!["ṿꡡꡳ"]

/-- ScriptMap/EastIndic/Rejang.py -/
def Rejang : Tbl where
  VowelMap := us!["ꥆ", "ꥆʽ", "ꥆꥇ", "ꥆꥇʽ", "ꥆꥈ", "ꥆꥈʽ", "ꤽꥈʽ", "ꤽꥈʽ", "ꤾꥈʽ", "ꤾꥈʽ", "ꥆꥉʽ", "ꥆꥊ", "ꥆꥋʽ", "ꥆꥌ"]
  SouthVowelMap := us!["ꥆꥉ", "ꥆꥋ"]
  ModernVowelMap := us!["ꥆꥎ", "ꥆꥍ"]
  SinhalaVowelMap := us!["ꥆꥎʽ"]
  VowelSignMap := us!["ʽʽ", "ꥇ", "ꥇʽ", "ꥈ", "ꥈʽ", "꥓ꤽꥈʽ", "꥓ꤽꥈʽ", "꥓ꤾꥈʽ", "꥓ꤾꥈʽ", "ꥉʽ", "ꥊ", "ꥋʽ", "ꥌ"]
  SouthVowelSignMap := us!["ꥉ", "ꥋ"]
  ModernVowelSignMap := us!["ꥎ", "ꥍ"]
  SinhalaVowelSignMap := us!["ꥎʽ"]
  ViramaMap := us!["꥓"]
  AyogavahaMap := us!["ꥏʽ", "ꥏ", "ꥒ"]
  NuktaMap := us!["ʽʽʽ"]
  ConsonantMap := us!["ꤰ", "ꤰʽ", "ꤱ", "ꤱʽ", "ꤲ", "ꤹ", "ꤹʽ", "ꤺ", "ꤺʽ", "ꤻ", "ꤳʽ", "ꤳʽ", "ꤴʽ", "ꤴʽ", "ꤵʽ", "ꤳ", "ꤳʽ", "ꤴ", "ꤴʽ", "ꤵ", "ꤶ", "ꤶʽ", "ꤷ", "ꤷʽ", "ꤸ", "ꤿ", "ꤽ", "ꤾ", "ꥀ", "ꤼʽ", "ꤼʽ", "ꤼ", "ꥁ"]
  SouthConsonantMap := us!["ꤾʽ", "ꤾʽ", "ꤽʽ", "ꤵʽ"]
  NuktaConsonantMap := us!["ꤰʽ", "ꤰʽ", "ꤱʽ", "ꤺʽ", "ꤴʽ", "ꤴʽ", "ꤶʽ", "ꤿʽ"]
  SinhalaConsonantMap := us!["ꥃ", "ꥅ", "ꥄʽ", "ꥄ", "ꥂ"]
  SignMap := us!["'", ".", ".."]
  NumeralMap := us!["0", "1", "2", "3", "4", "5", "6", "7", "8", "9"]
  Aytham := us!["ꥒʽ"]
  OmMap := us!["ꥆꥋꥏʽ"]

/-- ScriptMap/EastIndic/Shan.py -/
def Shan : Tbl where
  VowelMap := us!["ဢ", "ဢႃ", "ဢိ", "ဢီ", "ဢု", "ဢူ", "ရိʽ", "ရီʽ", "လိʽ", "လီʽ", "ဢေ", "ဢႆ", "ဢေႃ", "ဢဝ်ʽ"]
  SouthVowelMap := us!["ဢေʽ", "ွ"]
  ModernVowelMap := us!["ဢႄ", "ဢႃʽ"]
  SinhalaVowelMap := us!["ဢႄʽ"]
  VowelSignMap := us!["ႃ", "ိ", "ီ", "ု", "ူ", "်ရိʽ", "်ရီʽ", "်လိʽ", "်လီʽ", "ေ", "ႆ", "ေႃ", "ဝ်ʽ"]
  SouthVowelSignMap := us!["ေʽ", "ေႃʽ"]
  ModernVowelSignMap := us!["ႄ", "ႃʽ"]
  SinhalaVowelSignMap := us!["ႄʽ"]
  ViramaMap := us!["်"]
  AyogavahaMap := us!["ံʽ", "ံ", "း"]
  NuktaMap := us!["ʽʽ"]
  ConsonantMap := us!["ၵ", "ၶ", "ၷ", "ꧠ", "င", "ၸ", "ꧡ", "ꩡ", "ꧢ", "ၺ", "ꩦ", "ꩧ", "ꩨ", "ꩩ", "ꧣ", "တ", "ထ", "ၻ", "ꩪ", "ၼ", "ပ", "ၽ", "ၿ", "ꧤ", "မ", "ယ", "ရ", "လ", "ဝ", "သ်ယ", "သျʽ", "သ", "ႁ"]
  SouthConsonantMap := us!["ꩮ", "ꩮʽ", "ရʽ", "ၼʽ"]
  NuktaConsonantMap := us!["ၵʽ", "ၶʽ", "ၷʽ", "ၹ", "ꩨʽ", "ꩩʽ", "ၾ", "ယʽ"]
  SinhalaConsonantMap := us!["ံၷʽ", "ံꩡʽ", "ံꩨʽ", "ံၻʽ", "ံၿʽ"]
  SignMap := us!["'", "၊", "။"]
  NumeralMap := us!["႐", "႑", "႒", "႓", "႔", "႕", "႖", "႗", "႘", "႙"]
  Aytham := us!["းʽ"]
  OmMap := us!["ဢေႃံ"]

/-- ScriptMap/EastIndic/ShanLoC.py -/
def ShanLoC : Tbl where
  VowelMap := us!["ဢ", "ဢႃ", "ဢိ", "ဢီ", "ဢု", "ဢူ", "ရိʽ", "ရီʽ", "လိʽ", "လီʽ", "ဢေ", "ဢႆ", "ဢေႃ", "ဢွ"]
  SouthVowelMap := us!["ဢေʽ", "ဢေႃʽ"]
  ModernVowelMap := us!["ဢႄ", "ဢႃʽ"]
  SinhalaVowelMap := us!["ဢႄʽ"]
  VowelSignMap := us!["ႃ", "ိ", "ီ", "ု", "ူ", "်ရိʽ", "်ရီʽ", "်လိʽ", "်လီʽ", "ေ", "ႆ", "ေႃ", "ွ"]
  SouthVowelSignMap := us!["ေʽ", "ေႃʽ"]
  ModernVowelSignMap := us!["ႄ", "ႃʽ"]
  SinhalaVowelSignMap := us!["ႄʽ"]
  ViramaMap := us!["်"]
  AyogavahaMap := us!["ံʽ", "ံ", "း"]
  NuktaMap := us!["ʽʽ"]
  ConsonantMap := us!["ၵ", "ၶ", "ၷ", "ꧠ", "င", "ၸ", "ꧡ", "ꩡ", "ꧢ", "ၺ", "ꩦ", "ꩧ", "ꩨ", "ꩩ", "ꧣ", "တ", "ထ", "ၻ", "ꩪ", "ၼ", "ပ", "ၽ", "ၿ", "ꧤ", "မ", "ယ", "ရ", "လ", "ဝ", "သ်ယ", "သျʽ", "သ", "ႁ"]
  SouthConsonantMap := us!["ꩮ", "ꩮʽ", "ရʽ", "ၼʽ"]
  NuktaConsonantMap := us!["ၵʽ", "ၶʽ", "ၷʽ", "ၹ", "ꩨʽ", "ꩩʽ", "ၾ", "ယʽ"]
  SinhalaConsonantMap := us!["ံၷʽ", "ံꩡʽ", "ံꩨʽ", "ံၻʽ", "ံၿʽ"]
  SignMap := us!["'", "၊", "။"]
  NumeralMap := us!["႐", "႑", "႒", "႓", "႔", "႕", "႖", "႗", "႘", "႙"]
  Aytham := us!["းʽ"]
  OmMap := us!["ဢေႃံ"]

/-- ScriptMap/EastIndic/Siddham.py -/
def Siddham : Tbl where
  VowelMap := us!["𑖀", "𑖁", "𑖂", "𑖃", "𑖄", "𑖅", "𑖆", "𑖇", "𑖈", "𑖉", "𑖊", "𑖋", "𑖌", "𑖍"]
  SouthVowelMap := us!["𑖊ʽ", "𑖌ʽ"]
  ModernVowelMap := us!["𑖊ʽ", "𑖁ʽ"]
  SinhalaVowelMap := us!["𑖊ʽ"]
  VowelSignMap := us!["𑖯", "𑖰", "𑖱", "𑖲", "𑖳", "𑖴", "𑖵", "𑖿𑖩𑖰ʽ", "𑖿𑖩𑖱ʽ", "𑖸", "𑖹", "𑖺", "𑖻"]
  SouthVowelSignMap := us!["𑖸ʽ", "𑖺ʽ"]
  ModernVowelSignMap := us!["𑖸ʽ", "𑖯ʽ"]
  SinhalaVowelSignMap := us!["𑖸ʽ"]
  ViramaMap := us!["𑖿"]
  AyogavahaMap := us!["𑖼", "𑖽", "𑖾"]
  NuktaMap := us!["𑗀"]
  ConsonantMap := us!["𑖎", "𑖏", "𑖐", "𑖑", "𑖒", "𑖓", "𑖔", "𑖕", "𑖖", "𑖗", "𑖘", "𑖙", "𑖚", "𑖛", "𑖜", "𑖝", "𑖞", "𑖟", "𑖠", "𑖡", "𑖢", "𑖣", "𑖤", "𑖥", "𑖦", "𑖧", "𑖨", "𑖩", "𑖪", "𑖫", "𑖬", "𑖭", "𑖮"]
  SouthConsonantMap := us!["𑖩𑗀", "𑖬𑗀", "𑖨𑗀", "𑖡𑗀"]
  NuktaConsonantMap := us!["𑖎𑗀", "𑖏𑗀", "𑖐𑗀", "𑖕𑗀", "𑖚𑗀", "𑖛𑗀", "𑖣𑗀", "𑖧𑗀"]
  SinhalaConsonantMap := us!["𑖼ʽ𑖐", "𑖼ʽ𑖕", "𑖼ʽ𑖚", "𑖼ʽ𑖟", "𑖼ʽ𑖤"]
  SignMap := us!["ʽʽ", "𑗂", "𑗃"]
  NumeralMap := us!["0", "1", "2", "3", "4", "5", "6", "7", "8", "9"]
  Aytham := us!["𑖾ʽ"]
  OmMap := us!["𑖌𑖼"]

/-- ScriptMap/EastIndic/Soyombo.py -/
def Soyombo : Tbl where
  VowelMap := us!["𑩐", "𑩐𑩛", "𑩐𑩑", "𑩐𑩑𑩛", "𑩐𑩒", "𑩐𑩒𑩛", "𑩐𑩙", "𑩐𑩙𑩛", "𑩐𑩚", "𑩐𑩚𑩛", "𑩐𑩔", "𑩐𑩗", "𑩐𑩖", "𑩐𑩘"]
  SouthVowelMap := us!["𑩐𑩔ʽ", "𑩐𑩖ʽ"]
  ModernVowelMap := us!["𑩐𑩔ʽ", "𑩐𑩕"]
  SinhalaVowelMap := us!["𑩐𑩔ʽ"]
  VowelSignMap := us!["𑩛", "𑩑", "𑩑𑩛", "𑩒", "𑩒𑩛", "𑩙", "𑩙𑩛", "𑩚", "𑩚𑩛", "𑩔", "𑩗", "𑩖", "𑩘"]
  SouthVowelSignMap := us!["𑩔ʽ", "𑩖ʽ"]
  ModernVowelSignMap := us!["𑩔ʽ", "𑩕"]
  SinhalaVowelSignMap := us!["𑩔ʽ"]
  ViramaMap := us!["𑪙"]
  AyogavahaMap := us!["𑪖ʽ", "𑪖", "𑪗"]
  NuktaMap := us!["ʽʽʽʽ"]
  ConsonantMap := us!["𑩜", "𑩝", "𑩞", "𑩟", "𑩠", "𑩵", "𑩶", "𑩷", "𑩤", "𑩥", "𑩦", "𑩧", "𑩨", "𑩩", "𑩪", "𑩫", "𑩬", "𑩭", "𑩮", "𑩯", "𑩰", "𑩱", "𑩲", "𑩳", "𑩴", "𑩻", "𑩼", "𑩽", "𑩾", "𑩿", "𑪀", "𑪁", "𑪂"]
  SouthConsonantMap := us!["𑩽ʽ", "𑩽ʽ", "𑩼ʽ", "𑩯ʽ"]
  NuktaConsonantMap := us!["𑩜ʽ", "𑩝ʽ", "𑩞ʽ", "𑩹", "𑨖ʽ", "𑩨ʽ", "𑩩ʽ", "𑩱ʽ"]
  SinhalaConsonantMap := us!["𑪖𑩞ʽ", "𑪖𑩷ʽ", "𑪖𑩨ʽ", "𑪖𑩭ʽ", "𑪖𑩲ʽ"]
  SignMap := us!["ʽʽʽ", "𑪛", "𑪜"]
  NumeralMap := us!["0", "1", "2", "3", "4", "5", "6", "7", "8", "9"]
  Aytham := us!["𑪗ʽ"]
  OmMap := us!["𑩐𑩖𑪖"]

/-- ScriptMap/EastIndic/Sundanese.py -/
def Sundanese : Tbl where
  VowelMap := us!["ᮃ", "ᮃʽ", "ᮄ", "ᮄʽ", "ᮅ", "ᮅʽ", "ᮻ", "ᮻʽ", "ᮼ", "ᮼʽ", "ᮈʽ", "ᮃᮄʽ", "ᮇʽ", "ᮃᮅʽ"]
  SouthVowelMap := us!["ᮈ", "ᮇ"]
  ModernVowelMap := us!["ᮆ", "ᮉ"]
  SinhalaVowelMap := us!["ᮆʽ"]
  VowelSignMap := us!["ʽʽ", "ᮤ", "ᮤʽ", "ᮥ", "ᮥʽ", "᮪ᮻ", "᮪ᮻʽ", "᮪ᮼ", "᮪ᮼʽ", "ᮨʽ", "ᮄʽ", "ᮧʽ", "ᮅʽ"]
  SouthVowelSignMap := us!["ᮨ", "ᮧ"]
  ModernVowelSignMap := us!["ᮦ", "ᮩ"]
  SinhalaVowelSignMap := us!["ᮦʽ"]
  ViramaMap := us!["᮪"]
  AyogavahaMap := us!["ᮀʽ", "ᮀ", "ᮂ"]
  NuktaMap := us!["ʽʽʽ"]
  ConsonantMap := us!["ᮊ", "ᮊʽ", "ᮌ", "ᮌʽ", "ᮍ", "ᮎ", "ᮎʽ", "ᮏ", "ᮏʽ", "ᮑ", "ᮒʽ", "ᮒʽ", "ᮓʽ", "ᮓʽ", "ᮔʽ", "ᮒ", "ᮒʽ", "ᮓ", "ᮓʽ", "ᮔ", "ᮕ", "ᮕʽ", "ᮘ", "ᮽ", "ᮙ", "ᮚ", "ᮛ", "ᮜ", "ᮝ", "ᮯ", "ᮯʽ", "ᮞ", "ᮠ"]
  SouthConsonantMap := us!["ᮜʽ", "ᮜʽ", "ᮛʽ", "ᮔʽ"]
  NuktaConsonantMap := us!["ᮋ", "ᮮ", "ᮌʽ", "ᮐ", "ᮓʽ", "ᮓʽ", "ᮖ", "ᮚʽ"]
  SinhalaConsonantMap := us!["ᮀᮌʽ", "ᮀᮏʽ", "ᮀᮓʽ", "ᮀᮓʽ", "ᮀᮘʽ"]
  SignMap := us!["ᮺ", ".", ".."]
  NumeralMap := us!["᮰", "᮱", "᮲", "᮳", "᮴", "᮵", "᮶", "᮷", "᮸", "᮹"]
  Aytham := us!["ᮂʽ"]
  OmMap := us!["ᮇᮀʽ"]

/-- ScriptMap/EastIndic/Tagalog.py -/
def Tagalog : Tbl where
  VowelMap := us!["ᜀ", "ᜀʽ", "ᜁ", "ᜁʽ", "ᜂ", "ᜂʽ", "ᜎᜓʽ", "ᜎᜓʽ", "ᜎᜓʽ", "ᜎᜓʽ", "ᜁʽ", "ᜀᜁʽ", "ᜂʽ", "ᜀᜂʽ"]
  SouthVowelMap := us!["ᜁʽ", "ᜂʽ"]
  ModernVowelMap := us!["ᜁʽ", "ᜀʽ"]
  SinhalaVowelMap := us!["ᜁʽ"]
  VowelSignMap := us!["ʽʽ", "ᜒ", "ᜒʽ", "ᜓ", "ᜓʽ", "᜔ᜎᜓʽ", "᜔ᜎᜓʽ", "᜔ᜎᜓʽ", "᜔ᜎᜓʽ", "ᜒʽ", "ᜁʽ", "ᜓʽ", "ᜂʽ"]
  SouthVowelSignMap := us!["ᜒʽ", "ᜓʽ"]
  ModernVowelSignMap := us!["ᜒʽ", "ʽʽ"]
  SinhalaVowelSignMap := us!["ᜒʽ"]
  ViramaMap := us!["᜔"]
  AyogavahaMap := us!["ᜋ᜔ʽ", "ᜋ᜔ʽ", "ᜑ᜔ʽ"]
  NuktaMap := us!["ʽʽʽʽ"]
  ConsonantMap := us!["ᜃ", "ᜃʽ", "ᜄ", "ᜄʽ", "ᜅ", "ᜐʽ", "ᜐʽ", "ᜇʽ", "ᜇʽ", "ᜈʽ", "ᜆʽ", "ᜆʽ", "ᜇʽ", "ᜇʽ", "ᜈʽ", "ᜆ", "ᜆʽ", "ᜇ", "ᜇʽ", "ᜈ", "ᜉ", "ᜉʽ", "ᜊ", "ᜊʽ", "ᜋ", "ᜌ", "ᜍ", "ᜎ", "ᜏ", "ᜐʽ", "ᜐʽ", "ᜐ", "ᜑ"]
  SouthConsonantMap := us!["ᜎʽ", "ᜎʽ", "ᜍʽ", "ᜈʽ"]
  NuktaConsonantMap := us!["ᜃʽ", "ᜃʽ", "ᜄʽ", "ᜇʽ", "ᜇʽ", "ᜇʽ", "ᜉʽ", "ᜌʽ"]
  SinhalaConsonantMap := us!["ᜅ᜔ᜄʽ", "ᜈᜇᜄʽ", "ᜈᜇᜄʽ", "ᜈᜇᜄʽ", "ᜋᜊᜄʽ"]
  SignMap := us!["ʽʽ", "᜵", "᜶"]
  NumeralMap := us!["0", "1", "2", "3", "4", "5", "6", "7", "8", "9"]
  Aytham := us!["ᜑ᜔ʽʽ"]
  OmMap := us!["ᜂᜋ᜔ʽ"]

/-- ScriptMap/EastIndic/Tagbanwa.py -/
def Tagbanwa : Tbl where
  VowelMap := us!["ᝠ", "ᝠʽ", "ᝡ", "ᝡʽ", "ᝢ", "ᝢʽ", "ᝮᝳʽ", "ᝮᝳʽ", "ᝮᝳʽ", "ᝮᝳʽ", "ᝡʽ", "ᝠᝡʽ", "ᝢʽ", "ᝠᝢʽ"]
  SouthVowelMap := us!["ᝡʽ", "ᝢʽ"]
  ModernVowelMap := us!["ᝡʽ", "ᝠʽ"]
  SinhalaVowelMap := us!["ᝡʽ"]
  VowelSignMap := us!["ʽʽ", "ᝲ", "ᝲʽ", "ᝳ", "ᝳʽ", "ᝮᝳʽ", "ᝮᝳʽ", "ᝮᝳʽ", "ᝮᝳʽ", "ᝲʽ", "ᝡʽ", "ᝳʽ", "ᝢʽ"]
  SouthVowelSignMap := us!["ᝲʽ", "ᝳʽ"]
  ModernVowelSignMap := us!["ᝲʽ", "ʽʽ"]
  SinhalaVowelSignMap := us!["ᝲʽ"]
  ViramaMap := us!["ʽʽ"]
  AyogavahaMap := us!["ᝫʽ", "ᝫʽ", "ᝣʽ"]
  NuktaMap := us!["ʽʽʽʽ"]
  ConsonantMap := us!["ᝣ", "ᝣʽ", "ᝤ", "ᝤʽ", "ᝥ", "ᝰʽ", "ᝰʽ", "ᝧʽ", "ᝧʽ", "ᝨʽ", "ᝦʽ", "ᝦʽ", "ᝧʽ", "ᝧʽ", "ᝨʽ", "ᝦ", "ᝦʽ", "ᝧ", "ᝧʽ", "ᝨ", "ᝩ", "ᝩʽ", "ᝪ", "ᝪʽ", "ᝫ", "ᝬ", "ᝮʽ", "ᝮ", "ᝯ", "ᝰʽ", "ᝰʽ", "ᝰ", "ᝣʽ"]
  SouthConsonantMap := us!["ᝮʽ", "ᝮʽ", "ᝮʽ", "ᝨʽ"]
  NuktaConsonantMap := us!["ᝣʽ", "ᝣʽ", "ᝤʽ", "ᝧʽ", "ᝧʽ", "ᝧʽ", "ᝩʽ", "ᝬʽ"]
  SinhalaConsonantMap := us!["ᝥᝤʽ", "ᝨᝧʽ", "ᝨᝧʽ", "ᝨᝧʽ", "ᝫᝪʽ"]
  SignMap := us!["ʽʽ", "᜵", "᜶"]
  NumeralMap := us!["0", "1", "2", "3", "4", "5", "6", "7", "8", "9"]
  Aytham := us!["ᝣʽʽ"]
  OmMap := us!["ᝢᝫʽ"]

/-- ScriptMap/EastIndic/TaiLaing.py -/
def TaiLaing : Tbl where
  VowelMap := us!["အ", "အႃ", "အိ", "အီ", "အု", "အူ", "ꩺိʽ", "ꩺီʽ", "လိʽ", "လီʽ", "အေ", "အႆ", "အေႃ", "အဝ်ʽ"]
  SouthVowelMap := us!["အေʽ", "အေႃʽ"]
  ModernVowelMap := us!["အေʽ", "အႃʽ"]
  SinhalaVowelMap := us!["အေʽ"]
  VowelSignMap := us!["ႃ", "ိ", "ီ", "ု", "ူ", "်ꩺိʽ", "်ꩺီʽ", "်လိʽ", "်လီʽ", "ေ", "ႆ", "ေႃ", "ဝ်ʽ"]
  SouthVowelSignMap := us!["ေʽ", "ေႃʽ"]
  ModernVowelSignMap := us!["ႄ", "ႃʽ"]
  SinhalaVowelSignMap := us!["ႄʽ"]
  ViramaMap := us!["်"]
  AyogavahaMap := us!["ံʽ", "ံ", "း"]
  NuktaMap := us!["ʽʽʽ"]
  ConsonantMap := us!["က", "ၵ", "ꧩ", "ꧪ", "င", "ၸ", "ꩬ", "ꧫ", "ꧬ", "ꧧ", "ꩦ", "ꩧ", "ꧭ", "ꧮ", "ꧯ", "တ", "ထ", "ꧻ", "ꧼ", "ꩫ", "ပ", "ꧤ", "ꧽ", "ꧾ", "မ", "ယ", "ꩺ", "လ", "ဝ", "ꧬʽ", "ꧬʽ", "ꧬ", "ၯ"]
  SouthConsonantMap := us!["ꧺ", "ꧺʽ", "ꩺʽ", "ꩫʽ"]
  NuktaConsonantMap := us!["ကʽ", "ၵʽ", "ꧩʽ", "ꧫʽ", "ꧭʽ", "ꧮʽ", "ꧨ", "ယʽ"]
  SinhalaConsonantMap := us!["ံၵʽ", "ံꧫʽ", "ံꧭʽ", "ံꧻʽ", "ံꧽʽ"]
  SignMap := us!["'", "၊", "။"]
  NumeralMap := us!["꧰", "꧱", "꧲", "꧳", "꧴", "꧵", "꧶", "꧷", "꧸", "꧹"]
  Aytham := us!["းʽ"]
  OmMap := us!["အေႃံ"]

/-- ScriptMap/EastIndic/TaiTham.py -/
def TaiTham : Tbl where
  VowelMap := us!["ᩋ", "ᩋᩣ", "ᩍ", "ᩎ", "ᩏ", "ᩐ", "ᩂ", "ᩂᩣ", "ᩄ", "ᩄᩣ", "ᩑ", "ᩋᩱ", "ᩒ", "ᩏᩫᩣ"]
  SouthVowelMap := us!["ᩑʽ", "ᩒʽ"]
  ModernVowelMap := us!["ᩑʽ", "ᩋᩣʽ"]
  SinhalaVowelMap := us!["ᩑʽ"]
  VowelSignMap := us!["ᩣ", "ᩥ", "ᩦ", "ᩩ", "ᩪ", "᩺ᩂ", "᩺ᩂᩣ", "᩺ᩄ", "᩺ᩄᩣ", "ᩮ", "ᩱ", "ᩮᩣ", "ᩮᩫᩣ"]
  SouthVowelSignMap := us!["ᩮʽ", "ᩮᩣʽ"]
  ModernVowelSignMap := us!["ᩮʽ", "ᩣʽ"]
  SinhalaVowelSignMap := us!["ᩮʽ"]
  ViramaMap := us!["᩺"]
  AyogavahaMap := us!["ᩴʽ", "ᩴ", "ᩡ"]
  NuktaMap := us!["ʽʽʽʽ"]
  ConsonantMap := us!["ᨠ", "ᨡ", "ᨣ", "ᨥ", "ᨦ", "ᨧ", "ᨨ", "ᨩ", "ᨫ", "ᨬ", "ᨭ", "ᨮ", "ᨯ", "ᨰ", "ᨱ", "ᨲ", "ᨳ", "ᨴ", "ᨵ", "ᨶ", "ᨸ", "ᨹ", "ᨻ", "ᨽ", "ᨾ", "ᨿ", "ᩁ", "ᩃ", "ᩅ", "ᩆ", "ᩇ", "ᩈ", "ᩉ"]
  SouthConsonantMap := us!["ᩊ", "ᩊʽ", "ᩁʽ", "ᨶʽ"]
  NuktaConsonantMap := us!["ᨠʽ", "ᨡʽ", "ᨣʽ", "ᨩʽ", "ᨯʽ", "ᨰʽ", "ᨹʽ", "ᨿʽ"]
  SinhalaConsonantMap := us!["ᩴᨣʽ", "ᩴᨩʽ", "ᩴᨯʽ", "ᩴᨴʽ", "ᩴᨽʽ"]
  SignMap := us!["'", "᪨", "᪩"]
  NumeralMap := us!["᪐", "᪑", "᪒", "᪓", "᪔", "᪕", "᪖", "᪗", "᪘", "᪙"]
  Aytham := us!["ᩡʽ"]
  OmMap := us!["ᩒᩴ"]

/-- ScriptMap/EastIndic/Thaana.py -/
def Thaana : Tbl where
  VowelMap := us!["އަ", "އާ", "އި", "އީ", "އު", "އޫ", "ރު", "ރޫ", "ލު", "ލޫ", "އޭ", "އައިʽ", "އޯ", "އައުʽ"]
  SouthVowelMap := us!["އެ", "އޮ"]
  ModernVowelMap := us!["އެʽ", "އާʽ"]
  SinhalaVowelMap := us!["އޭʽ"]
  VowelSignMap := us!["ާ", "ި", "ީ", "ު", "ޫ", "ްރު", "ްރޫ", "ްލު", "ްލޫ", "ޭ", "ައިʽ", "ޯ", "ައުʽ"]
  SouthVowelSignMap := us!["ެ", "ޮ"]
  ModernVowelSignMap := us!["ެʽ", "ާʽ"]
  SinhalaVowelSignMap := us!["ޭʽ"]
  ViramaMap := us!["ް"]
  AyogavahaMap := us!["މްʽ", "މްʽ", "ހަްʽ"]
  NuktaMap := us!["ʽʽʽ"]
  ConsonantMap := us!["ކަ", "ކʽަ", "ގަ", "ގʽަ", "ނʽަ", "ޗަ", "ޗʽަ", "ޖަ", "ޖʽަ", "ޏަ", "ޓަ", "ޓʽަ", "ޑަ", "ޑʽަ", "ޱަ", "ތަ", "ތʽަ", "ދަ", "ދʽަ", "ނަ", "ޕަ", "ޕʽަ", "ބަ", "ބʽަ", "މަ", "ޔަ", "ރަ", "ލަ", "ވަ", "ޝަ", "ށަ", "ސަ", "ހަ"]
  SouthConsonantMap := us!["ޅަ", "ޅʽަ", "ރʽަ", "ނʽަ"]
  NuktaConsonantMap := us!["ޤަ", "ޚަ", "ޣަ", "ޒަ", "ޑʽަ", "ޑʽަ", "ފަ", "ޔʽަ"]
  SinhalaConsonantMap := us!["ނގަ", "ނޖަ", "ނޑަ", "ނދަ", "ނބަ"]
  SignMap := us!["ʽʽ", "۔", "۔۔"]
  NumeralMap := us!["0", "1", "2", "3", "4", "5", "6", "7", "8", "9"]
  Aytham := us!["ހަްʽʽ"]
  OmMap := us!["އޯމަް"]

/-- ScriptMap/EastIndic/Thai.py -/
def Thai : Tbl where
  VowelMap := us!["อ", "อา", "อิ", "อี", "อุ", "อู", "ฤ", "ฤๅ", "ฦ", "ฦๅ", "อเ", "อไ", "อโ", "อเา"]
  SouthVowelMap := us!["อเะ", "อโะ"]
  ModernVowelMap := us!["อแะ", "อเาะ"]
  SinhalaVowelMap := us!["อแ"]
  VowelSignMap := us!["า", "ิ", "ี", "ุ", "ู", "ฺฤ", "ฺฤๅ", "ฺฦ", "ฺฦๅ", "เ", "ไ", "โ", "เา"]
  SouthVowelSignMap := us!["เะ", "โะ"]
  ModernVowelSignMap := us!["แะ", "เาะ"]
  SinhalaVowelSignMap := us!["แ"]
  ViramaMap := us!["ฺ"]
  AyogavahaMap := us!["ํʽ", "ํ", "ห์"]
  NuktaMap := us!["ʽʽʽʽ"]
  ConsonantMap := us!["ก", "ข", "ค", "ฆ", "ง", "จ", "ฉ", "ช", "ฌ", "ญ", "ฏ", "ฐ", "ฑ", "ฒ", "ณ", "ต", "ถ", "ท", "ธ", "น", "ป", "ผ", "พ", "ภ", "ม", "ย", "ร", "ล", "ว", "ศ", "ษ", "ส", "ห"]
  SouthConsonantMap := us!["ฬ", "ฬʽ", "รʽ", "นʽ"]
  NuktaConsonantMap := us!["กʽ", "ฃ", "ฅ", "ซ", "รʽ", "รฺหʽ", "ฟ", "ยʽ"]
  SinhalaConsonantMap := us!["ํคʽ", "ํชʽ", "ํฑʽ", "ํทʽ", "ํพʽ"]
  SignMap := us!["'", "ฯ", "๚"]
  NumeralMap := us!["๐", "๑", "๒", "๓", "๔", "๕", "๖", "๗", "๘", "๙"]
  Aytham := us!["ห์ʽ"]
  OmMap := us!["โอํ"]

/-- ScriptMap/EastIndic/ThamLoC.py -/
def ThamLoC : Tbl where
  VowelMap := us!["ᩋ", "ᩋᩣ", "ᩍ", "ᩎ", "ᩏ", "ᩐ", "ᩂ", "ᩂᩣ", "ᩄ", "ᩄᩣ", "ᩑ", "ᩋᩱ", "ᩒ", "ᩋ᩿ᩅᩫ"]
  SouthVowelMap := us!["ᩑʽ", "ᩒʽ"]
  ModernVowelMap := us!["ᩋᩯ", "ᩋᩣʽ"]
  SinhalaVowelMap := us!["ᩑʽ"]
  VowelSignMap := us!["ᩣ", "ᩥ", "ᩦ", "ᩩ", "ᩪ", "᩺ᩂ", "᩺ᩂᩣ", "᩺ᩄ", "᩺ᩄᩣ", "ᩮ", "ᩱ", "ᩰ", "᩿ᩅᩫ"]
  SouthVowelSignMap := us!["ᩮʽ", "ᩰʽ"]
  ModernVowelSignMap := us!["ᩯ", "ᩣʽ"]
  SinhalaVowelSignMap := us!["ᩮʽ"]
  ViramaMap := us!["᩺"]
  AyogavahaMap := us!["ᩴʽ", "ᩴ", "ᩡ"]
  NuktaMap := us!["ʽʽʽʽ"]
  ConsonantMap := us!["ᨠ", "ᨡ", "ᨣ", "ᨥ", "ᨦ", "ᨧ", "ᨨ", "ᨩ", "ᨫ", "ᨬ", "ᨭ", "ᨮ", "ᨯ", "ᨰ", "ᨱ", "ᨲ", "ᨳ", "ᨴ", "ᨵ", "ᨶ", "ᨸ", "ᨹ", "ᨻ", "ᨽ", "ᨾ", "ᨿ", "ᩁ", "ᩃ", "ᩅ", "ᩆ", "ᩇ", "ᩈ", "ᩉ"]
  SouthConsonantMap := us!["ᩊ", "ᩊʽ", "ᩁʽ", "ᨶʽ"]
  NuktaConsonantMap := us!["ᨠʽ", "ᨡʽ", "ᨣʽ", "ᨩʽ", "ᨯʽ", "ᨰʽ", "ᨹʽ", "ᨿʽ"]
  SinhalaConsonantMap := us!["ᩴᨣʽ", "ᩴᨩʽ", "ᩴᨯʽ", "ᩴᨴʽ", "ᩴᨽʽ"]
  SignMap := us!["'", "᪨", "᪩"]
  NumeralMap := us!["᪐", "᪑", "᪒", "᪓", "᪔", "᪕", "᪖", "᪗", "᪘", "᪙"]
  Aytham := us!["ᩡʽ"]
  OmMap := us!["ᩒᩴ"]

/-- ScriptMap/EastIndic/Tibetan.py -/
def Tibetan : Tbl where
  VowelMap := us!["ཨ", "ཨཱ", "ཨི", "ཨཱི", "ཨུ", "ཨཱུ", "རྀ", "རཱྀ", "ལྀ", "ལཱྀ", "ཨེ", "ཨཻ", "ཨོ", "ཨཽ"]
  SouthVowelMap := us!["ཨེʽ", "ཨོʽ"]
  ModernVowelMap := us!["ཨེʽ", "ཨཱʽ"]
  SinhalaVowelMap := us!["ཨེʽ"]
  VowelSignMap := us!["ཱ", "ི", "ཱི", "ུ", "ཱུ", "ྲྀ", "ྲཱྀ", "ླྀ", "ླཱྀ", "ེ", "ཻ", "ོ", "ཽ"]
  SouthVowelSignMap := us!["ེʽ", "ོʽ"]
  ModernVowelSignMap := us!["ེʽ", "ཱʽ"]
  SinhalaVowelSignMap := us!["ེʽ"]
  ViramaMap := us!["྄"]
  AyogavahaMap := us!["ྃ", "ཾ", "ཿ"]
  NuktaMap := us!["༹"]
  ConsonantMap := us!["ཀ", "ཁ", "ག", "གྷ", "ང", "ཙ", "ཚ", "ཛ", "ཛྷ", "ཉ", "ཊ", "ཋ", "ཌ", "ཌྷ", "ཎ", "ཏ", "ཐ", "ད", "དྷ", "ན", "པ", "ཕ", "བ", "བྷ", "མ", "ཡ", "ར", "ལ", "ཝ", "ཤ", "ཥ", "ས", "ཧ"]
  SouthConsonantMap := us!["ལ༹", "ཥ༹", "ར༹", "ན༹"]
  NuktaConsonantMap := us!["ཀ༹", "ཁ༹", "ག༹", "ཟ", "ཌ༹", "ཌྷ༹", "ཕ༹", "ཡ༹"]
  SinhalaConsonantMap := us!["ྃཀʽ", "ྃཛʽ", "ྃཌʽ", "ྃདʽ", "ྃབʽ"]
  SignMap := us!["྅", "།", "༎"]
  NumeralMap := us!["༠", "༡", "༢", "༣", "༤", "༥", "༦", "༧", "༨", "༩"]
  Aytham := us!["ཿʽ"]
  OmMap := us!["ༀ"]

/-- ScriptMap/EastIndic/TibetanLoC.py -/
def TibetanLoC : Tbl where
  VowelMap := us!["ཨ", "ཨཱ", "ཨི", "ཨཱི", "ཨུ", "ཨཱུ", "རྀ", "རཱྀ", "ལྀ", "ལཱྀ", "ཨེ", "ཨཻ", "ཨོ", "ཨཽ"]
  SouthVowelMap := us!["ཨེʽ", "ཨོʽ"]
  ModernVowelMap := us!["ཨེʽ", "ཨཱʽ"]
  SinhalaVowelMap := us!["ཨེʽ"]
  VowelSignMap := us!["ཱ", "ི", "ཱི", "ུ", "ཱུ", "ྲྀ", "ྲཱྀ", "ླྀ", "ླཱྀ", "ེ", "ཻ", "ོ", "ཽ"]
  SouthVowelSignMap := us!["ེʽ", "ོʽ"]
  ModernVowelSignMap := us!["ེʽ", "ཱʽ"]
  SinhalaVowelSignMap := us!["ེʽ"]
  ViramaMap := us!["྄"]
  AyogavahaMap := us!["ྃ", "ཾ", "ཿ"]
  NuktaMap := us!["༹"]
  ConsonantMap := us!["ཀ", "ཁ", "ག", "གྷ", "ང", "ཅ", "ཆ", "ཇ", "ཇྷ", "ཉ", "ཊ", "ཋ", "ཌ", "ཌྷ", "ཎ", "ཏ", "ཐ", "ད", "དྷ", "ན", "པ", "ཕ", "བ", "བྷ", "མ", "ཡ", "ར", "ལ", "ཝ", "ཤ", "ཥ", "ས", "ཧ"]
  SouthConsonantMap := us!["ལ༹", "ཥ༹", "ར༹", "ན༹"]
  NuktaConsonantMap := us!["ཙ", "ཚ", "ཛ", "ཛྷ", "འ", "ཞ", "ཟ", "ཡ༹"]
  SinhalaConsonantMap := us!["ྃཀʽ", "ྃཛʽ", "ྃཌʽ", "ྃདʽ", "ྃབʽ"]
  SignMap := us!["྅", "།", "༎"]
  NumeralMap := us!["༠", "༡", "༢", "༣", "༤", "༥", "༦", "༧", "༨", "༩"]
  Aytham := us!["ཿʽ"]
  OmMap := us!["ༀ"]

/-- ScriptMap/EastIndic/ZanabazarSquare.py -/
def ZanabazarSquare : Tbl where
  VowelMap := us!["𑨀", "𑨀𑨊", "𑨀𑨁", "𑨀𑨁𑨊", "𑨀𑨂", "𑨀𑨂𑨊", "𑨫𑨉", "𑨫𑨉𑨊", "𑨬𑨉", "𑨬𑨉𑨊", "𑨀𑨄", "𑨀𑨄𑨊", "𑨀𑨆", "𑨀𑨆𑨊"]
  SouthVowelMap := us!["𑨀𑨄ʽ", "𑨀𑨆ʽ"]
  ModernVowelMap := us!["𑨀𑨄ʽ", "𑨀𑨅"]
  SinhalaVowelMap := us!["𑨀𑨄ʽ"]
  VowelSignMap := us!["𑨊", "𑨁", "𑨁𑨊", "𑨂", "𑨂𑨊", "𑨴𑨫𑨉", "𑨴𑨫𑨉𑨊", "𑨴𑨬𑨉", "𑨴𑨬𑨉𑨊", "𑨄", "𑨄𑨊", "𑨆", "𑨆𑨊"]
  SouthVowelSignMap := us!["𑨄ʽ", "𑨆ʽ"]
  ModernVowelSignMap := us!["𑨄ʽ", "𑨅"]
  SinhalaVowelSignMap := us!["𑨄ʽ"]
  ViramaMap := us!["𑨴"]
  AyogavahaMap := us!["𑨵", "𑨸", "𑨹"]
  NuktaMap := us!["ʽʽʽʽ"]
  ConsonantMap := us!["𑨋", "𑨌", "𑨍", "𑨎", "𑨏", "𑨣", "𑨤", "𑨥", "𑨦", "𑨓", "𑨔", "𑨕", "𑨖", "𑨗", "𑨘", "𑨙", "𑨚", "𑨛", "𑨜", "𑨝", "𑨞", "𑨟", "𑨠", "𑨡", "𑨢", "𑨪", "𑨫", "𑨬", "𑨭", "𑨮", "𑨯", "𑨰", "𑨱"]
  SouthConsonantMap := us!["𑨬ʽ", "𑨬ʽ", "𑨫ʽ", "𑨝ʽ"]
  NuktaConsonantMap := us!["𑨋ʽ", "𑨌ʽ", "𑨍ʽ", "𑨨", "𑨖ʽ", "𑨗ʽ", "𑨟ʽ", "𑨪ʽ"]
  SinhalaConsonantMap := us!["𑨵𑨍ʽ", "𑨵𑨥ʽ", "𑨵𑨖ʽ", "𑨵𑨛ʽ", "𑨵𑨠ʽ"]
  SignMap := us!["ʽʽʽ", "𑩂", "𑩃"]
  NumeralMap := us!["0", "1", "2", "3", "4", "5", "6", "7", "8", "9"]
  Aytham := us!["𑨹ʽ"]
  OmMap := us!["𑨀𑨆𑨵"]

/-- ScriptMap/Roman/Aksharaa.py -/
def Aksharaa : Tbl where
  VowelMap := us!["a", "aa", "i", "ii", "u", "uu", "ru'", "ruu'", "lu'", "luu'", "ee", "ai", "oo", "au"]
  SouthVowelMap := us!["e", "o"]
  ModernVowelMap := us!["e'", "o'"]
  SinhalaVowelMap := us!["ee'"]
  VowelSignMap := us!["aa", "i", "ii", "u", "uu", "ru'", "ruu'", "lu'", "luu'", "ee", "ai", "oo", "au"]
  SouthVowelSignMap := us!["e", "o"]
  ModernVowelSignMap := us!["e'", "o'"]
  SinhalaVowelSignMap := us!["ee'"]
  ViramaMap := us!["×"]
  AyogavahaMap := us!["m;", "m'", "h'"]
  NuktaMap := us!["Q"]
  ConsonantMap := us!["k", "kh", "g", "gh", "ng'", "ch", "chh", "j", "jh", "nj'", "t'", "t'h", "d'", "d'h", "n'", "t", "th", "d", "dh", "n", "p", "ph", "b", "bh", "m", "y", "r", "l", "v", "sh", "shh", "s", "h"]
  SouthConsonantMap := us!["l'", "zh", "r'", "n;"]
  NuktaConsonantMap := us!["q", "qh", "g;", "z", "d;", "d;h", "f", "y;"]
  SinhalaConsonantMap := us!["ng;", "nj;", "nd';", "nd;", "mb;"]
  SignMap := us!["a;", ".", ".."]
  NumeralMap := us!["0", "1", "2", "3", "4", "5", "6", "7", "8", "9"]
  Aytham := us!["_k"]
  OmMap := us!["oom'"]

/-- ScriptMap/Roman/Ariyaka.py -/
def Ariyaka : Tbl where
  VowelMap := us!["a", "A", "i", "I", "u", "U", "ruʽ", "rUʽ", "luʽ", "lUʽ", "e", "ai", "o", "au"]
  SouthVowelMap := us!["eʽ", "oʽ"]
  ModernVowelMap := us!["eʽ", "A"]
  SinhalaVowelMap := us!["eʽ"]
  VowelSignMap := us!["A", "i", "I", "u", "U", "ruʽ", "rUʽ", "luʽ", "lUʽ", "e", "ai", "o", "au"]
  SouthVowelSignMap := us!["eʽ", "oʽ"]
  ModernVowelSignMap := us!["eʽ", "A"]
  SinhalaVowelSignMap := us!["eʽ"]
  ViramaMap := us!["×"]
  AyogavahaMap := us!["Mʽ", "M", "h"]
  NuktaMap := us!["ʽʽ"]
  ConsonantMap := us!["k", "K", "g", "G", "~", "c", "C", "j", "J", "Y", "T", "F", "D", "V", "N", "t", "f", "d", "@", "n", "p", "P", "b", "B", "m", "y", "r", "l", "v", "sʽ", "sʽ", "s", "h"]
  SouthConsonantMap := us!["L", "Lʽ", "rʽ", "nʽ"]
  NuktaConsonantMap := us!["kʽ", "Kʽ", "gʽ", "jʽ", "Dʽ", "Vʽ", "Pʽ", "yʽ"]
  SinhalaConsonantMap := us!["Mgʽ", "Mjʽ", "MDʽ", "Mdʽ", "Mbʽ"]
  SignMap := us!["'", ".", ".."]
  NumeralMap := us!["0", "1", "2", "3", "4", "5", "6", "7", "8", "9"]
  Aytham := us!["hʽ"]
  OmMap := us!["oM"]

/-- ScriptMap/Roman/AssameseRomanLoC.py -/
def AssameseRomanLoC : Tbl where
  VowelMap := us!["a", "ā", "i", "ī", "u", "ū", "r̥", "r̥̄", "l̥", "l̥̄", "e", "ai", "o", "au"]
  SouthVowelMap := us!["ĕ", "ŏ"]
  ModernVowelMap := us!["æ", "ô"]
  SinhalaVowelMap := us!["ǣ"]
  VowelSignMap := us!["ā", "i", "ī", "u", "ū", "r̥", "r̥̄", "l̥", "l̥̄", "e", "ai", "o", "au"]
  SouthVowelSignMap := us!["ĕ", "ŏ"]
  ModernVowelSignMap := us!["æ", "ô"]
  SinhalaVowelSignMap := us!["ǣ"]
  ViramaMap := us!["×"]
  AyogavahaMap := us!["m̐", "ṃ", "ḥ"]
  NuktaMap := us!["̈"]
  ConsonantMap := us!["k", "kh", "g", "gh", "ṅ", "c", "ch", "j", "jh", "ñ", "ṭ", "ṭh", "ḍ", "ḍh", "ṇ", "t", "th", "d", "dh", "n", "p", "ph", "b", "bh", "m", "y", "r", "l", "w", "ś", "sh", "s", "h"]
  SouthConsonantMap := us!["ḷ", "ḻ", "ṟ", "ṉ"]
  NuktaConsonantMap := us!["q", "k͟h", "ġ", "z", "ṛ", "ṛh", "f", "ẏ"]
  SinhalaConsonantMap := us!["n̆g", "n̆j", "n̆ḍ", "n̆d", "m̆b"]
  SignMap := us!["’", ".", ".."]
  NumeralMap := us!["0", "1", "2", "3", "4", "5", "6", "7", "8", "9"]
  Aytham := us!["ḵ"]
  OmMap := us!["ōṃ"]

/-- ScriptMap/Roman/Avestan.py -/
def Avestan : Tbl where
  VowelMap := us!["𐬀", "𐬁", "𐬌", "𐬍", "𐬎", "𐬏", "𐬆𐬭𐬆", "𐬇𐬭𐬇", "𐬆𐬮𐬆", "𐬇𐬮𐬇", "𐬉", "𐬀𐬌", "𐬋", "𐬀𐬎"]
  SouthVowelMap := us!["𐬈", "𐬊"]
  ModernVowelMap := us!["𐬆", "𐬂"]
  SinhalaVowelMap := us!["𐬇"]
  VowelSignMap := us!["𐬁", "𐬌", "𐬍", "𐬎", "𐬏", "𐬆𐬭𐬆", "𐬇𐬭𐬇", "𐬆𐬮𐬆", "𐬇𐬮𐬇", "𐬉", "𐬀𐬌", "𐬋", "𐬀𐬎"]
  SouthVowelSignMap := us!["𐬈", "𐬊"]
  ModernVowelSignMap := us!["𐬆", "𐬂"]
  SinhalaVowelSignMap := us!["𐬇"]
  ViramaMap := us!["×"]
  AyogavahaMap := us!["𐬩ʽ", "𐬩", "𐬵"]
  NuktaMap := us!["ʿ"]
  ConsonantMap := us!["𐬐", "𐬑", "𐬔", "𐬖", "𐬢", "𐬗", "𐬗ʽ", "𐬘", "𐬘ʽ", "𐬦", "𐬙ʽ", "𐬚ʽ", "𐬛ʽ", "𐬛ʽ", "𐬧", "𐬙", "𐬚", "𐬛", "𐬜", "𐬥", "𐬞", "𐬞ʽ", "𐬠", "𐬠ʽ", "𐬨", "𐬫", "𐬭", "𐬮", "𐬬", "𐬱", "𐬴", "𐬯", "𐬵"]
  SouthConsonantMap := us!["𐬮ʽ", "𐬮ʽ", "𐬭ʽ", "𐬥ʽ"]
  NuktaConsonantMap := us!["𐬐ʽ", "𐬓", "𐬕", "𐬰", "𐬛ʽ", "𐬜ʽ", "𐬟", "𐬪"]
  SinhalaConsonantMap := us!["𐬢𐬔ʽ", "𐬣𐬘ʽ", "𐬥𐬛ʽ", "𐬥𐬛ʽ", "𐬨𐬠ʽ"]
  SignMap := us!["ʽ", "𐬼\u200f", "𐬽\u200f"]
  NumeralMap := us!["0", "1", "2", "3", "4", "5", "6", "7", "8", "9"]
  Aytham := us!["𐬑ʽ"]
  OmMap := us!["𐬋𐬨"]

/-- ScriptMap/Roman/BalineseRomanLoC.py -/
def BalineseRomanLoC : Tbl where
  VowelMap := us!["a", "ā", "i", "ī", "u", "ū", "rĕ", "rö", "lĕ", "lö", "e", "ai", "o", "au"]
  SouthVowelMap := us!["ĕʽ", "ŏʽ"]
  ModernVowelMap := us!["ĕ", "ô"]
  SinhalaVowelMap := us!["ö"]
  VowelSignMap := us!["ā", "i", "ī", "u", "ū", "rĕ", "rö", "lĕ", "lö", "e", "ai", "o", "au"]
  SouthVowelSignMap := us!["ĕʽ", "ŏʽ"]
  ModernVowelSignMap := us!["ĕ", "ô"]
  SinhalaVowelSignMap := us!["ö"]
  ViramaMap := us!["×"]
  AyogavahaMap := us!["ng", "ng", "h"]
  NuktaMap := us!["̈"]
  ConsonantMap := us!["k", "kh", "g", "gh", "ng", "c", "ch", "j", "jh", "ñ", "ṭ", "ṭh", "ḍ", "ḍh", "ṇ", "t", "th", "d", "dh", "n", "p", "ph", "b", "bh", "m", "y", "r", "l", "w", "ś", "ṣ", "s", "h"]
  SouthConsonantMap := us!["ḷ", "ḻ", "ṟ", "ṉ"]
  NuktaConsonantMap := us!["khʽ", "k͟h", "ghʽ", "z", "ṛ", "ṛh", "f", "ẏ"]
  SinhalaConsonantMap := us!["n̆g", "n̆j", "n̆ḍ", "n̆d", "m̆b"]
  SignMap := us!["’", ".", ".."]
  NumeralMap := us!["0", "1", "2", "3", "4", "5", "6", "7", "8", "9"]
  Aytham := us!["ḵ"]
  OmMap := us!["ōṁ"]

/-- ScriptMap/Roman/BalineseSimpleRomanLoC.py -/
def BalineseSimpleRomanLoC : Tbl where
  VowelMap := us!["a", "ā", "i", "ī", "u", "ū", "rĕ", "rö", "lĕ", "lö", "e", "ai", "o", "au"]
  SouthVowelMap := us!["ĕʽ", "ŏʽ"]
  ModernVowelMap := us!["ĕ", "ô"]
  SinhalaVowelMap := us!["ö"]
  VowelSignMap := us!["ā", "i", "ī", "u", "ū", "rĕ", "rö", "lĕ", "lö", "e", "ai", "o", "au"]
  SouthVowelSignMap := us!["ĕʽ", "ŏʽ"]
  ModernVowelSignMap := us!["ĕ", "ô"]
  SinhalaVowelSignMap := us!["ö"]
  ViramaMap := us!["×"]
  AyogavahaMap := us!["ng", "ng", "h"]
  NuktaMap := us!["̈"]
  ConsonantMap := us!["k", "kʽ", "g", "gh", "ng", "c", "cʽ", "j", "jʽ", "ñ", "ṭ", "ṭʽ", "ḍ", "ḍʽ", "n", "t", "tʽ", "d", "dh", "n", "p", "pʽ", "b", "bʽ", "m", "y", "r", "l", "w", "s", "s", "s", "h"]
  SouthConsonantMap := us!["ḷ", "ḻ", "ṟ", "ṉ"]
  NuktaConsonantMap := us!["khʽ", "k͟h", "ghʽ", "z", "ṛ", "ṛh", "f", "ẏ"]
  SinhalaConsonantMap := us!["n̆g", "n̆j", "n̆ḍ", "n̆d", "m̆b"]
  SignMap := us!["’", ".", ".."]
  NumeralMap := us!["0", "1", "2", "3", "4", "5", "6", "7", "8", "9"]
  Aytham := us!["ḵ"]
  OmMap := us!["ōṁ"]

end Verif.Base
