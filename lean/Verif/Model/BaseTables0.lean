import Verif.Model.Sec

/-!
# Letter tables as written in /repo/aksharamukha/ScriptMap

Generated by tools/gentables.py.
-/

namespace Verif.Base

/-- ScriptMap/MainIndic/Ahom.py -/
def Ahom : Tbl where
  VowelMap := us!["𑜒", "𑜒𑜡", "𑜒𑜢", "𑜒𑜣", "𑜒𑜤", "𑜒𑜥", "𑜍𑜤ʽ", "𑜍𑜥ʽ", "𑜎𑜤ʽ", "𑜎𑜥ʽ", "𑜒𑜦𑜧", "𑜒𑜩", "𑜒𑜦𑜡", "𑜒𑜧𑜨"]
  SouthVowelMap := us!["𑜒𑜦𑜧ʽ", "𑜒𑜦𑜡ʽ"]
  ModernVowelMap := us!["𑜒𑜠", "𑜒𑜡ʽ"]
  SinhalaVowelMap := us!["𑜒𑜦ʽ"]
  VowelSignMap := us!["𑜡", "𑜢", "𑜣", "𑜤", "𑜥", "𑜞𑜤ʽ", "𑜞𑜥ʽ", "𑜝𑜤ʽ", "𑜝𑜥ʽ", "𑜦𑜧", "𑜩", "𑜦𑜡", "𑜧𑜨"]
  SouthVowelSignMap := us!["𑜦𑜧ʽ", "𑜦𑜡ʽ"]
  ModernVowelSignMap := us!["𑜠", "𑜡ʽ"]
  SinhalaVowelSignMap := us!["𑜦ʽ"]
  ViramaMap := us!["𑜫"]
  AyogavahaMap := us!["𑜪ʽ", "𑜪", "𑜑𑜫ʽ"]
  NuktaMap := us!["ʽʽʽʽ"]
  ConsonantMap := us!["𑜀", "𑜁", "𑜕", "𑜗", "𑜂", "𑝀", "𑜋", "𑜊", "𑜙", "𑜐", "𑝁", "𑝂", "𑝃", "𑝄", "𑝅", "𑜄", "𑜌", "𑜓", "𑜔", "𑜃", "𑜆", "𑜇", "𑜈", "𑜘", "𑜉", "𑜊ʽ", "𑜍", "𑜎", "𑜚", "𑜏ʽ", "𑜏ʽ", "𑜏", "𑜑"]
  SouthConsonantMap := us!["𑝆", "𑝆ʽ", "𑜍ʽ", "𑜃ʽ"]
  NuktaConsonantMap := us!["𑜀ʽ", "𑜁ʽ", "𑜕ʽ", "𑜊ʽ", "𑜓ʽ", "𑜔ʽ", "𑜇ʽ", "𑜊ʽ"]
  SinhalaConsonantMap := us!["𑜪𑜕ʽ", "𑜪𑜊ʽ", "𑜪𑜓ʽ", "𑜪𑜓ʽ", "𑜪𑜈ʽ"]
  SignMap := us!["'", "𑜼", "𑜽"]
  NumeralMap := us!["𑜰", "𑜱", "𑜲", "𑜳", "𑜴", "𑜵", "𑜶", "𑜷", "𑜸", "𑜹"]
  Aytham := us!["𑜑𑜫ʽʽ"]
  OmMap := us!["𑜒𑜪𑜨"]

/-- ScriptMap/MainIndic/Assamese.py -/
def Assamese : Tbl where
  VowelMap := us!["অ", "আ", "ই", "ঈ", "উ", "ঊ", "ঋ", "ৠ", "ঌ", "ৡ", "এ", "ঐ", "ও", "ঔ"]
  SouthVowelMap := us!["এ˘", "ও˘"]
  ModernVowelMap := us!["এʼ", "আʼ"]
  SinhalaVowelMap := us!["এˇ"]
  VowelSignMap := us!["া", "ি", "ী", "ু", "ূ", "ৃ", "ৄ", "ৢ", "ৣ", "ে", "ৈ", "ো", "ৌ"]
  SouthVowelSignMap := us!["ে˘", "ো˘"]
  ModernVowelSignMap := us!["েʼ", "াʼ"]
  SinhalaVowelSignMap := us!["েˇ"]
  ViramaMap := us!["্"]
  AyogavahaMap := us!["ঁ", "ং", "ঃ"]
  NuktaMap := us!["়"]
  ConsonantMap := us!["ক", "খ", "গ", "ঘ", "ঙ", "চ", "ছ", "জ", "ঝ", "ঞ", "ট", "ঠ", "ড", "ঢ", "ণ", "ত", "থ", "দ", "ধ", "ন", "প", "ফ", "ব", "ভ", "ম", "য", "র", "ল", "ৱ", "শ", "ষ", "স", "হ"]
  SouthConsonantMap := us!["ল়", "ষ়", "র়", "ন়"]
  NuktaConsonantMap := us!["ক়", "খ়", "গ়", "জ়", "ড়", "ঢ়", "ফ়", "য়"]
  SinhalaConsonantMap := us!["ঁˆগ", "ঁˆজ", "ঁˆড", "ঁˆদ", "ঁˆব"]
  SignMap := us!["ঽ", "।", "॥"]
  NumeralMap := us!["০", "১", "২", "৩", "৪", "৫", "৬", "৭", "৮", "৯"]
  Aytham := us!["ঃʼ"]
  OmMap := us!["ওঁ"]

/-- ScriptMap/MainIndic/Bengali.py -/
def Bengali : Tbl where
  VowelMap := us!["অ", "আ", "ই", "ঈ", "উ", "ঊ", "ঋ", "ৠ", "ঌ", "ৡ", "এ", "ঐ", "ও", "ঔ"]
  SouthVowelMap := us!["এ˘", "ও˘"]
  ModernVowelMap := us!["এʼ", "আʼ"]
  SinhalaVowelMap := us!["এˇ"]
  VowelSignMap := us!["া", "ি", "ী", "ু", "ূ", "ৃ", "ৄ", "ৢ", "ৣ", "ে", "ৈ", "ো", "ৌ"]
  SouthVowelSignMap := us!["ে˘", "ো˘"]
  ModernVowelSignMap := us!["েʼ", "াʼ"]
  SinhalaVowelSignMap := us!["েˇ"]
  ViramaMap := us!["্"]
  AyogavahaMap := us!["ঁ", "ং", "ঃ"]
  NuktaMap := us!["়"]
  ConsonantMap := us!["ক", "খ", "গ", "ঘ", "ঙ", "চ", "ছ", "জ", "ঝ", "ঞ", "ট", "ঠ", "ড", "ঢ", "ণ", "ত", "থ", "দ", "ধ", "ন", "প", "ফ", "ব", "ভ", "ম", "য", "র", "ল", "ভ়", "শ", "ষ", "স", "হ"]
  SouthConsonantMap := us!["ল়", "ষ়", "র়", "ন়"]
  NuktaConsonantMap := us!["ক়", "খ়", "গ়", "জ়", "ড়", "ঢ়", "ফ়", "য়"]
  SinhalaConsonantMap := us!["ঁˆগ", "ঁˆজ", "ঁˆড", "ঁˆদ", "ঁˆব"]
  SignMap := us!["ঽ", "।", "॥"]
  NumeralMap := us!["০", "১", "২", "৩", "৪", "৫", "৬", "৭", "৮", "৯"]
  Aytham := us!["ঃʼ"]
  OmMap := us!["ওঁ"]

/-- ScriptMap/MainIndic/BengaliRaBa.py -/
def BengaliRaBa : Tbl where
  VowelMap := us!["অ", "আ", "ই", "ঈ", "উ", "ঊ", "ঋ", "ৠ", "ঌ", "ৡ", "এ", "ঐ", "ও", "ঔ"]
  SouthVowelMap := us!["এ˘", "ও˘"]
  ModernVowelMap := us!["এʼ", "আʼ"]
  SinhalaVowelMap := us!["এˇ"]
  VowelSignMap := us!["া", "ি", "ী", "ু", "ূ", "ৃ", "ৄ", "ৢ", "ৣ", "ে", "ৈ", "ো", "ৌ"]
  SouthVowelSignMap := us!["ে˘", "ো˘"]
  ModernVowelSignMap := us!["েʼ", "াʼ"]
  SinhalaVowelSignMap := us!["েˇ"]
  ViramaMap := us!["্"]
  AyogavahaMap := us!["ঁ", "ং", "ঃ"]
  NuktaMap := us!["়"]
  ConsonantMap := us!["ক", "খ", "গ", "ঘ", "ঙ", "চ", "ছ", "জ", "ঝ", "ঞ", "ট", "ঠ", "ড", "ঢ", "ণ", "ত", "থ", "দ", "ধ", "ন", "প", "ফ", "ৰ", "ভ", "ম", "য", "র", "ল", "ব", "শ", "ষ", "স", "হ"]
  SouthConsonantMap := us!["ল়", "ষ়", "র়", "ন়"]
  NuktaConsonantMap := us!["ক়", "খ়", "গ়", "জ়", "ড়", "ঢ়", "ফ়", "য়"]
  SinhalaConsonantMap := us!["ঁˆগ", "ঁˆজ", "ঁˆড", "ঁˆদ", "ঁˆব"]
  SignMap := us!["ঽ", "।", "॥"]
  NumeralMap := us!["০", "১", "২", "৩", "৪", "৫", "৬", "৭", "৮", "৯"]
  Aytham := us!["ঃʼ"]
  OmMap := us!["ওঁ"]

/-- ScriptMap/MainIndic/Bhaiksuki.py -/
def Bhaiksuki : Tbl where
  VowelMap := us!["𑰀", "𑰁", "𑰂", "𑰃", "𑰄", "𑰅", "𑰆", "𑰇", "𑰈", "𑰈ʽ", "𑰊", "𑰋", "𑰌", "𑰍"]
  SouthVowelMap := us!["𑰊ʽ", "𑰌ʽ"]
  ModernVowelMap := us!["𑰊ʽ", "𑰁ʽ"]
  SinhalaVowelMap := us!["𑰊ʽ"]
  VowelSignMap := us!["𑰯", "𑰰", "𑰱", "𑰲", "𑰳", "𑰴", "𑰵", "𑰶", "𑰶ʽ", "𑰸", "𑰹", "𑰺", "𑰻"]
  SouthVowelSignMap := us!["𑰸ʽ", "𑰺ʽ"]
  ModernVowelSignMap := us!["𑰸ʽ", "𑰯ʽ"]
  SinhalaVowelSignMap := us!["𑰸ʽ"]
  ViramaMap := us!["𑰿"]
  AyogavahaMap := us!["𑰼", "𑰽", "𑰾"]
  NuktaMap := us!["ʽʽʽ"]
  ConsonantMap := us!["𑰎", "𑰏", "𑰐", "𑰑", "𑰒", "𑰓", "𑰔", "𑰕", "𑰖", "𑰗", "𑰘", "𑰙", "𑰚", "𑰛", "𑰜", "𑰝", "𑰞", "𑰟", "𑰠", "𑰡", "𑰢", "𑰣", "𑰤", "𑰥", "𑰦", "𑰧", "𑰨", "𑰩", "𑰪", "𑰫", "𑰬", "𑰭", "𑰮"]
  SouthConsonantMap := us!["𑰩ʽ", "𑰩ʽ", "𑰨ʽ", "𑰡ʽ"]
  NuktaConsonantMap := us!["𑰎ʽ", "𑰏ʽ", "𑰐ʽ", "𑰕ʽ", "𑰚ʽ", "𑰛ʽ", "𑰣ʽ", "𑰧ʽ"]
  SinhalaConsonantMap := us!["𑰼ʽ𑰐", "𑰼ʽ𑰕", "𑰼ʽ𑰚", "𑰼ʽ𑰟", "𑰼ʽ𑰤"]
  SignMap := us!["𑱀", "𑱁", "𑱂"]
  NumeralMap := us!["𑱐", "𑱑", "𑱒", "𑱓", "𑱔", "𑱕", "𑱖", "𑱗", "𑱘", "𑱙"]
  Aytham := us!["𑰾ʽ"]
  OmMap := us!["𑰌𑰼"]

/-- ScriptMap/MainIndic/Brahmi.py -/
def Brahmi : Tbl where
  VowelMap := us!["𑀅", "𑀆", "𑀇", "𑀈", "𑀉", "𑀊", "𑀋", "𑀌", "𑀍", "𑀎", "𑀏", "𑀐", "𑀑", "𑀒"]
  SouthVowelMap := us!["𑀏ʽ", "𑀑ʽ"]
  ModernVowelMap := us!["𑀏ʽ", "𑀆ʽ"]
  SinhalaVowelMap := us!["𑀏ʽ"]
  VowelSignMap := us!["𑀸", "𑀺", "𑀻", "𑀼", "𑀽", "𑀾", "𑀿", "𑁀", "𑁁", "𑁂", "𑁃", "𑁄", "𑁅"]
  SouthVowelSignMap := us!["𑁂ʽ", "𑁄ʽ"]
  ModernVowelSignMap := us!["𑁂ʽ", "𑀸ʽ"]
  SinhalaVowelSignMap := us!["𑁂ʽ"]
  ViramaMap := us!["𑁆"]
  AyogavahaMap := us!["𑀀", "𑀁", "𑀂"]
  NuktaMap := us!["ʽʽʽʽ"]
  ConsonantMap := us!["𑀓", "𑀔", "𑀕", "𑀖", "𑀗", "𑀘", "𑀙", "𑀚", "𑀛", "𑀜", "𑀝", "𑀞", "𑀟", "𑀠", "𑀡", "𑀢", "𑀣", "𑀤", "𑀥", "𑀦", "𑀧", "𑀨", "𑀩", "𑀪", "𑀫", "𑀬", "𑀭", "𑀮", "𑀯", "𑀰", "𑀱", "𑀲", "𑀳"]
  SouthConsonantMap := us!["𑀴", "𑀴ʽ", "𑀭ʽ", "𑀦ʽ"]
  NuktaConsonantMap := us!["𑀓ʽ", "𑀔ʽ", "𑀕ʽ", "𑀚ʽ", "𑀟ʽ", "𑀠ʽ", "𑀨ʽ", "𑀬ʽ"]
  SinhalaConsonantMap := us!["𑀀𑀕ʽ", "𑀀𑀚ʽ", "𑀀𑀟ʽ", "𑀀𑀤ʽ", "𑀀𑀩ʽ"]
  SignMap := us!["ʽʽ", "𑁇", "𑁈"]
  NumeralMap := us!["𑁦", "𑁧", "𑁨", "𑁩", "𑁪", "𑁫", "𑁬", "𑁭", "𑁮", "𑁯"]
  Aytham := us!["𑀂ʽ"]
  OmMap := us!["𑀑𑀁"]

/-- ScriptMap/MainIndic/Chakma.py -/
def Chakma : Tbl where
  VowelMap := us!["𑄃", "𑄃𑄧", "𑄃𑄨", "𑄃𑄩", "𑄃𑄪", "𑄃𑄫", "𑄢𑄨ʽ", "𑄢𑄩ʽ", "𑅄𑄨ʽ", "𑅄𑄩ʽ", "𑄃𑄬", "𑄃𑄰", "𑄃𑄮", "𑄃𑄯"]
  SouthVowelMap := us!["𑄃𑄬ʽ", "𑄃𑄮ʽ"]
  ModernVowelMap := us!["𑄃𑄬𑄬ʽ", "𑄃𑅅"]
  SinhalaVowelMap := us!["𑄃𑄬ʽ"]
  VowelSignMap := us!["𑄧", "𑄨", "𑄩", "𑄪", "𑄫", "𑄳𑄢𑄨ʽ", "𑄳𑄢𑄩ʽ", "𑄳𑅄𑄨ʽ", "𑄳𑅄𑄩ʽ", "𑄬", "𑄰", "𑄮", "𑄯"]
  SouthVowelSignMap := us!["𑄬ʽ", "𑄮ʽ"]
  ModernVowelSignMap := us!["𑄬𑄬", "𑅅"]
  SinhalaVowelSignMap := us!["𑄬ʽ"]
  ViramaMap := us!["𑄴"]
  AyogavahaMap := us!["𑄀", "𑄁", "𑄂"]
  NuktaMap := us!["ʽʽʽʽ"]
  ConsonantMap := us!["𑄇", "𑄈", "𑄉", "𑄊", "𑄋", "𑄌", "𑄍", "𑄎", "𑄏", "𑄐", "𑄑", "𑄒", "𑄓", "𑄔", "𑄕", "𑄖", "𑄗", "𑄘", "𑄙", "𑄚", "𑄛", "𑄜", "𑄝", "𑄞", "𑄟", "𑄡", "𑄢", "𑄣", "𑄤", "𑄥ʽ", "𑄥ʽ", "𑄥", "𑄦"]
  SouthConsonantMap := us!["𑄣ʽ", "𑄣ʽ", "𑄢ʽ", "𑄚ʽ"]
  NuktaConsonantMap := us!["𑄇ʽ", "𑄈ʽ", "𑄉ʽ", "𑄎ʽ", "𑄓ʽ", "𑄔ʽ", "𑄜ʽ", "𑄠"]
  SinhalaConsonantMap := us!["𑄀𑄉ʽ", "𑄀𑄎ʽ", "𑄀𑄓ʽ", "𑄀𑄘ʽ", "𑄀𑄝ʽ"]
  SignMap := us!["'", "𑅁", "𑅂"]
  NumeralMap := us!["𑄶", "𑄷", "𑄸", "𑄹", "𑄺", "𑄻", "𑄼", "𑄽", "𑄾", "𑄿"]
  Aytham := us!["𑄂ʼ"]
  OmMap := us!["𑄃𑄮𑄀"]

/-- ScriptMap/MainIndic/Devanagari.py -/
def Devanagari : Tbl where
  VowelMap := us!["अ", "आ", "इ", "ई", "उ", "ऊ", "ऋ", "ॠ", "ऌ", "ॡ", "ए", "ऐ", "ओ", "औ"]
  SouthVowelMap := us!["ऎ", "ऒ"]
  ModernVowelMap := us!["ऍ", "ऑ"]
  SinhalaVowelMap := us!["एॕ"]
  VowelSignMap := us!["ा", "ि", "ी", "ु", "ू", "ृ", "ॄ", "ॢ", "ॣ", "े", "ै", "ो", "ौ"]
  SouthVowelSignMap := us!["ॆ", "ॊ"]
  ModernVowelSignMap := us!["ॅ", "ॉ"]
  SinhalaVowelSignMap := us!["ॕ"]
  ViramaMap := us!["्"]
  AyogavahaMap := us!["ँ", "ं", "ः"]
  NuktaMap := us!["़"]
  ConsonantMap := us!["क", "ख", "ग", "घ", "ङ", "च", "छ", "ज", "झ", "ञ", "ट", "ठ", "ड", "ढ", "ण", "त", "थ", "द", "ध", "न", "प", "फ", "ब", "भ", "म", "य", "र", "ल", "व", "श", "ष", "स", "ह"]
  SouthConsonantMap := us!["ळ", "ऴ", "ऱ", "ऩ"]
  NuktaConsonantMap := us!["क़", "ख़", "ग़", "ज़", "ड़", "ढ़", "फ़", "य़"]
  SinhalaConsonantMap := us!["ँˆग", "ँˆज", "ँˆड", "ँˆद", "ँˆब"]
  SignMap := us!["ऽ", "।", "॥"]
  NumeralMap := us!["०", "१", "२", "३", "४", "५", "६", "७", "८", "९"]
  Aytham := us!["ःʼ"]
  OmMap := us!["ॐ"]

/-- ScriptMap/MainIndic/Dogra.py -/
def Dogra : Tbl where
  VowelMap := us!["𑠀", "𑠁", "𑠂", "𑠃", "𑠄", "𑠅", "𑠤𑠭ʽ", "𑠤𑠮ʽ", "𑠥𑠭ʽ", "𑠥𑠮ʽ", "𑠆", "𑠇", "𑠈", "𑠉"]
  SouthVowelMap := us!["𑠆ʽ", "𑠈ʽ"]
  ModernVowelMap := us!["𑠆ʽ", "𑠁ʽ"]
  SinhalaVowelMap := us!["𑠆ʽ"]
  VowelSignMap := us!["𑠬", "𑠭", "𑠮", "𑠯", "𑠰", "𑠱", "𑠲", "𑠹𑠥𑠭ʽ", "𑠹𑠥𑠮ʽ", "𑠳", "𑠴", "𑠵", "𑠶"]
  SouthVowelSignMap := us!["𑠳ʽ", "𑠵ʽ"]
  ModernVowelSignMap := us!["𑠳ʽ", "𑠬ʽ"]
  SinhalaVowelSignMap := us!["𑠳ʽ"]
  ViramaMap := us!["𑠹"]
  AyogavahaMap := us!["𑠷ʽ", "𑠷", "𑠸"]
  NuktaMap := us!["𑠺"]
  ConsonantMap := us!["𑠊", "𑠋", "𑠌", "𑠍", "𑠎", "𑠏", "𑠐", "𑠑", "𑠒", "𑠓", "𑠔", "𑠕", "𑠖", "𑠗", "𑠘", "𑠙", "𑠚", "𑠛", "𑠜", "𑠝", "𑠞", "𑠟", "𑠠", "𑠡", "𑠢", "𑠣", "𑠤", "𑠥", "𑠦", "𑠧", "𑠨", "𑠩", "𑠪"]
  SouthConsonantMap := us!["𑠥𑠺", "𑠨𑠺", "𑠤𑠺", "𑠝𑠺"]
  NuktaConsonantMap := us!["𑠊𑠺", "𑠋𑠺", "𑠌𑠺", "𑠑𑠺", "𑠫", "𑠗𑠺", "𑠟𑠺", "𑠣𑠺"]
  SinhalaConsonantMap := us!["𑠷𑠌ʽ", "𑠷𑠑ʽ", "𑠷𑠖ʽ", "𑠷𑠛ʽ", "𑠷𑠠ʽ"]
  SignMap := us!["ऽ", "।", "॥"]
  NumeralMap := us!["०", "१", "२", "३", "४", "५", "६", "७", "८", "९"]
  Aytham := us!["𑠸ʽ"]
  OmMap := us!["𑠈𑠷"]

/-- ScriptMap/MainIndic/Grantha.py -/
def Grantha : Tbl where
  VowelMap := us!["𑌅", "𑌆", "𑌇", "𑌈", "𑌉", "𑌊", "𑌋", "𑍠", "𑌌", "𑍡", "𑌏", "𑌐", "𑌓", "𑌔"]
  SouthVowelMap := us!["𑌏𑌀", "𑌓𑌀"]
  ModernVowelMap := us!["𑌏ʽ", "𑌆ʽ"]
  SinhalaVowelMap := us!["𑌏ʽ"]
  VowelSignMap := us!["𑌾", "𑌿", "𑍀", "𑍁", "𑍂", "𑍃", "𑍄", "𑍢", "𑍣", "𑍇", "𑍈", "𑍋", "𑍗"]
  SouthVowelSignMap := us!["𑍇𑌀", "𑍋𑌀"]
  ModernVowelSignMap := us!["𑍇ʽ", "𑌾ʽ"]
  SinhalaVowelSignMap := us!["𑍇ʽ"]
  ViramaMap := us!["𑍍"]
  AyogavahaMap := us!["𑌁", "𑌂", "𑌃"]
  NuktaMap := us!["𑌼"]
  ConsonantMap := us!["𑌕", "𑌖", "𑌗", "𑌘", "𑌙", "𑌚", "𑌛", "𑌜", "𑌝", "𑌞", "𑌟", "𑌠", "𑌡", "𑌢", "𑌣", "𑌤", "𑌥", "𑌦", "𑌧", "𑌨", "𑌪", "𑌫", "𑌬", "𑌭", "𑌮", "𑌯", "𑌰", "𑌲", "𑌵", "𑌶", "𑌷", "𑌸", "𑌹"]
  SouthConsonantMap := us!["𑌳", "𑌳𑌼", "𑌰𑌼", "𑌨𑌼"]
  NuktaConsonantMap := us!["𑌕𑌼", "𑌖𑌼", "𑌗𑌼", "𑌜𑌼", "𑌡𑌼", "𑌢𑌼", "𑌫𑌼", "𑌯𑌼"]
  SinhalaConsonantMap := us!["𑌁ʽ𑌗", "𑌁ʽ𑌜", "𑌁ʽ𑌡", "𑌁ʽ𑌦", "𑌁ʽ𑌬"]
  SignMap := us!["𑌽", "।", "॥"]
  NumeralMap := us!["௦", "௧", "௨", "௩", "௪", "௫", "௬", "௭", "௮", "௯"]
  Aytham := us!["𑌃ʽ"]
  OmMap := us!["𑍐"]

/-- ScriptMap/MainIndic/GranthaGrantamil.py -/
def GranthaGrantamil : Tbl where
  VowelMap := us!["অ", "আ", "ই", "ঈ", "উ", "ঊ", "ঋ", "ৠ", "ঌ", "ৡ", "এ", "ঐ", "ও", "ঔ"]
  SouthVowelMap := us!["এ", "ও"]
  ModernVowelMap := us!["এʼ", "আʼ"]
  SinhalaVowelMap := us!["এˇ"]
  VowelSignMap := us!["া", "ি", "ী", "ু", "ূ", "ৃ", "ৄ", "ৢ", "ৣ", "ে", "ৈ", "ো", "ৌ"]
  SouthVowelSignMap := us!["ে", "ো"]
  ModernVowelSignMap := us!["েʼ", "াʼ"]
  SinhalaVowelSignMap := us!["েˇ"]
  ViramaMap := us!["্"]
  AyogavahaMap := us!["ঁ", "ং", "ঃ"]
  NuktaMap := us!["়"]
  ConsonantMap := us!["ক", "খ", "গ", "ঘ", "ঙ", "চ", "ছ", "জ", "ঝ", "ঞ", "ট", "ঠ", "ড", "ঢ", "ণ", "ত", "থ", "দ", "ধ", "ন", "প", "ফ", "ব", "ভ", "ম", "য", "র", "ল", "ৱ", "শ", "ষ", "স", "হ"]
  SouthConsonantMap := us!["ৰ", "ৰ়", "র়", "ন়"]
  NuktaConsonantMap := us!["ক়", "খ়", "গ়", "জ়", "ড়", "ঢ়", "ফ়", "য়"]
  SinhalaConsonantMap := us!["ঁˆগ", "ঁˆজ", "ঁˆড", "ঁˆদ", "ঁˆব"]
  SignMap := us!["ঽ", "।", "॥"]
  NumeralMap := us!["০", "১", "২", "৩", "৪", "৫", "৬", "৭", "৮", "৯"]
  Aytham := us!["ঃʼ"]
  OmMap := us!["ওং"]

/-- ScriptMap/MainIndic/GranthaPandya.py -/
def GranthaPandya : Tbl where
  VowelMap := us!["അ", "ആ", "ഇ", "ഈ", "ഉ", "ഊ", "ഋ", "ൠ", "ഌ", "ൡ", "ഏ", "ഐ", "ഓ", "ഔ"]
  SouthVowelMap := us!["ഏʽ", "ഓʽ"]
  ModernVowelMap := us!["ഏʽ", "ആʽ"]
  SinhalaVowelMap := us!["ഏʽ"]
  VowelSignMap := us!["ാ", "ി", "ീ", "ു", "ൂ", "ൃ", "ൄ", "ൢ", "ൣ", "േ", "ൈ", "ോ", "ൗ"]
  SouthVowelSignMap := us!["േʽ", "ോʽ"]
  ModernVowelSignMap := us!["േʽ", "ാʽ"]
  SinhalaVowelSignMap := us!["േʽ"]
  ViramaMap := us!["്"]
  AyogavahaMap := us!["ംʽ", "ം", "ഃ"]
  NuktaMap := us!["ʽʽʽʽ"]
  ConsonantMap := us!["ക", "ഖ", "ഗ", "ഘ", "ങ", "ച", "ഛ", "ജ", "ഝ", "ഞ", "ട", "ഠ", "ഡ", "ഢ", "ണ", "ത", "ഥ", "ദ", "ധ", "ന", "പ", "ഫ", "ബ", "ഭ", "മ", "യ", "ര", "ല", "വ", "ശ", "ഷ", "സ", "ഹ"]
  SouthConsonantMap := us!["ള", "ളʽ", "രʽ", "നʽ"]
  NuktaConsonantMap := us!["കʽ", "ഖʽ", "ഗʽ", "ജʽ", "ഡʽ", "ഢʽ", "ഫʽ", "യʽ"]
  SinhalaConsonantMap := us!["ംʽഗ", "ംʽജ", "ംʽഡ", "ംʽദ", "ംʽബ"]
  SignMap := us!["ഽ", "।", "॥"]
  NumeralMap := us!["0", "1", "2", "3", "4", "5", "6", "7", "8", "9"]
  Aytham := us!["ഃʽ"]
  OmMap := us!["ഓം"]

/-- ScriptMap/MainIndic/Gujarati.py -/
def Gujarati : Tbl where
  VowelMap := us!["અ", "આ", "ઇ", "ઈ", "ઉ", "ઊ", "ઋ", "ૠ", "ઌ", "ૡ", "એ", "ઐ", "ઓ", "ઔ"]
  SouthVowelMap := us!["એ˘", "ઓ˘"]
  ModernVowelMap := us!["ઍ", "ઑ"]
  SinhalaVowelMap := us!["ઍˇ"]
  VowelSignMap := us!["ા", "િ", "ી", "ુ", "ૂ", "ૃ", "ૄ", "ૢ", "ૣ", "ે", "ૈ", "ો", "ૌ"]
  SouthVowelSignMap := us!["ે˘", "ો˘"]
  ModernVowelSignMap := us!["ૅ", "ૉ"]
  SinhalaVowelSignMap := us!["ૅˇ"]
  ViramaMap := us!["્"]
  AyogavahaMap := us!["ઁ", "ં", "ઃ"]
  NuktaMap := us!["઼"]
  ConsonantMap := us!["ક", "ખ", "ગ", "ઘ", "ઙ", "ચ", "છ", "જ", "ઝ", "ઞ", "ટ", "ઠ", "ડ", "ઢ", "ણ", "ત", "થ", "દ", "ધ", "ન", "પ", "ફ", "બ", "ભ", "મ", "ય", "ર", "લ", "વ", "શ", "ષ", "સ", "હ"]
  SouthConsonantMap := us!["ળ", "ળ઼", "ર઼", "ન઼"]
  NuktaConsonantMap := us!["ક઼", "ખ઼", "ગ઼", "જ઼", "ડ઼", "ઢ઼", "ફ઼", "ય઼"]
  SinhalaConsonantMap := us!["ઁˆગ", "ઁˆજ", "ઁˆડ", "ઁˆદ", "ઁˆબ"]
  SignMap := us!["ઽ", "।", "॥"]
  NumeralMap := us!["૦", "૧", "૨", "૩", "૪", "૫", "૬", "૭", "૮", "૯"]
  Aytham := us!["ઃʼ"]
  OmMap := us!["ૐ"]

/-- ScriptMap/MainIndic/GunjalaGondi.py -/
def GunjalaGondi : Tbl where
  VowelMap := us!["𑵠", "𑵡", "𑵢", "𑵣", "𑵤", "𑵥", "𑶈𑶍ʽ", "𑶈𑶎ʽ", "𑵵𑶍ʽ", "𑵵𑶎ʽ", "𑵧", "𑵨", "𑵪", "𑵫"]
  SouthVowelMap := us!["𑵧ʽ", "𑵪ʽ"]
  ModernVowelMap := us!["𑵧ʽ", "𑵡ʽ"]
  SinhalaVowelMap := us!["𑵧ʽ"]
  VowelSignMap := us!["𑶊", "𑶋", "𑶌", "𑶍", "𑶎", "𑶗𑶈𑶍ʽ", "𑶗𑶈𑶎ʽ", "𑶗𑵵𑶍ʽ", "𑶗𑵵𑶎ʽ", "𑶐", "𑶑", "𑶓", "𑶔"]
  SouthVowelSignMap := us!["𑶐ʽ", "𑶓ʽ"]
  ModernVowelSignMap := us!["𑶐ʽ", "𑶊ʽ"]
  SinhalaVowelSignMap := us!["𑶐ʽ"]
  ViramaMap := us!["𑶗"]
  AyogavahaMap := us!["𑶕ʽ", "𑶕", "𑶖"]
  NuktaMap := us!["ʽʽ"]
  ConsonantMap := us!["𑵱", "𑵲", "𑵶", "𑵷", "𑶄", "𑵻", "𑵼", "𑶀", "𑶁", "𑵺ʾ", "𑵽", "𑵾", "𑶂", "𑶃", "𑵺ʿ", "𑵳", "𑵴", "𑵸", "𑵹", "𑵺", "𑶅", "𑶆", "𑵮", "𑵯", "𑵰", "𑵬", "𑶈", "𑵵", "𑵭", "𑶉ʽ", "𑶉ʽ", "𑶉", "𑶇"]
  SouthConsonantMap := us!["𑵿", "𑵿ʽ", "𑶈ʽ", "𑵺ʽ"]
  NuktaConsonantMap := us!["𑵱ʽ", "𑵲ʽ", "𑵶ʽ", "𑶀ʽ", "𑶂ʽ", "𑶃ʽ", "𑶆ʽ", "𑵬ʽ"]
  SinhalaConsonantMap := us!["𑶕𑵶ʽ", "𑶕𑶀ʽ", "𑶕𑶂ʽ", "𑶕𑵸ʽ", "𑶕𑵮ʽ"]
  SignMap := us!["ʽʽʽ", ".", ".."]
  NumeralMap := us!["𑶠", "𑶡", "𑶢", "𑶣", "𑶤", "𑶥", "𑶦", "𑶧", "𑶨", "𑶩"]
  Aytham := us!["𑶖ʽ"]
  OmMap := us!["𑶘"]

/-- ScriptMap/MainIndic/Gurmukhi.py -/
def Gurmukhi : Tbl where
  VowelMap := us!["ਅ", "ਆ", "ਇ", "ਈ", "ਉ", "ਊ", "ਰੁʼ", "ਰੂʼ", "ਲੁʼ", "ਲੂʼ", "ਏ", "ਐ", "ਓ", "ਔ"]
  SouthVowelMap := us!["ਏ˘", "ਓ˘"]
  ModernVowelMap := us!["ਏʼ", "ਆʼ"]
  SinhalaVowelMap := us!["ਏˇ"]
  VowelSignMap := us!["ਾ", "ਿ", "ੀ", "ੁ", "ੂ", "੍ਰੁʼ", "੍ਰੂʼ", "੍ਲੁʼ", "੍ਲੂʼ", "ੇ", "ੈ", "ੋ", "ੌ"]
  SouthVowelSignMap := us!["ੇ˘", "ੋ˘"]
  ModernVowelSignMap := us!["ੇʼ", "ਾʼ"]
  SinhalaVowelSignMap := us!["ੇˇ"]
  ViramaMap := us!["੍"]
  AyogavahaMap := us!["ਁ", "ਂ", "ਃ"]
  NuktaMap := us!["਼"]
  ConsonantMap := us!["ਕ", "ਖ", "ਗ", "ਘ", "ਙ", "ਚ", "ਛ", "ਜ", "ਝ", "ਞ", "ਟ", "ਠ", "ਡ", "ਢ", "ਣ", "ਤ", "ਥ", "ਦ", "ਧ", "ਨ", "ਪ", "ਫ", "ਬ", "ਭ", "ਮ", "ਯ", "ਰ", "ਲ", "ਵ", "ਸ਼", "ਸ਼਼", "ਸ", "ਹ"]
  SouthConsonantMap := us!["ਲ਼", "ਲ਼਼", "ਰ਼", "ਨ਼"]
  NuktaConsonantMap := us!["ਕ਼", "ਖ਼", "ਗ਼", "ਜ਼", "ੜ", "ੜ੍ਹ", "ਫ਼", "ਯ਼"]
  SinhalaConsonantMap := us!["ਁˆਗ", "ਁˆਜ", "ਁˆਡ", "ਁˆਦ", "ਁˆਬ"]
  SignMap := us!["(ਅ)", "।", "॥"]
  NumeralMap := us!["੦", "੧", "੨", "੩", "੪", "੫", "੬", "੭", "੮", "੯"]
  Aytham := us!["ਃʼ"]
  OmMap := us!["ੴ"]

/-- ScriptMap/MainIndic/GurmukhiLoC.py -/
def GurmukhiLoC : Tbl where
  VowelMap := us!["ਅ", "ਆ", "ਇ", "ਈ", "ਉ", "ਊ", "ਰੁʼ", "ਰੂʼ", "ਲੁʼ", "ਲੂʼ", "ਏ", "ਐ", "ਓ", "ਔ"]
  SouthVowelMap := us!["ਏ˘", "ਓ˘"]
  ModernVowelMap := us!["ਏʼ", "ਆʼ"]
  SinhalaVowelMap := us!["ਏˇ"]
  VowelSignMap := us!["ਾ", "ਿ", "ੀ", "ੁ", "ੂ", "੍ਰੁʼ", "੍ਰੂʼ", "੍ਲੁʼ", "੍ਲੂʼ", "ੇ", "ੈ", "ੋ", "ੌ"]
  SouthVowelSignMap := us!["ੇ˘", "ੋ˘"]
  ModernVowelSignMap := us!["ੇʼ", "ਾʼ"]
  SinhalaVowelSignMap := us!["ੇˇ"]
  ViramaMap := us!["੍"]
  AyogavahaMap := us!["ੰ", "ਂ", "ਃ"]
  NuktaMap := us!["਼"]
  ConsonantMap := us!["ਕ", "ਖ", "ਗ", "ਘ", "ਙ", "ਚ", "ਛ", "ਜ", "ਝ", "ਞ", "ਟ", "ਠ", "ਡ", "ਢ", "ਣ", "ਤ", "ਥ", "ਦ", "ਧ", "ਨ", "ਪ", "ਫ", "ਬ", "ਭ", "ਮ", "ਯ", "ਰ", "ਲ", "ਵ", "ਸ਼", "ਸ਼਼", "ਸ", "ਹ"]
  SouthConsonantMap := us!["ਲੵ", "ਲ਼਼", "ਰ਼", "ਨ਼"]
  NuktaConsonantMap := us!["ਕ਼", "ਖ਼", "ਗ਼", "ਜ਼", "ੜ", "ੜ੍ਹ", "ਫ਼", "ਯ਼"]
  SinhalaConsonantMap := us!["ਁˆਗ", "ਁˆਜ", "ਁˆਡ", "ਁˆਦ", "ਁˆਬ"]
  SignMap := us!["(ਅ)", "।", "॥"]
  NumeralMap := us!["੦", "੧", "੨", "੩", "੪", "੫", "੬", "੭", "੮", "੯"]
  Aytham := us!["ਃʼ"]
  OmMap := us!["ੴ"]

/-- ScriptMap/MainIndic/Kaithi.py -/
def Kaithi : Tbl where
  VowelMap := us!["𑂃", "𑂄", "𑂅", "𑂆", "𑂇", "𑂈", "𑂩𑂱ʽ", "𑂩𑂲ʽ", "𑂪𑂱ʽ", "𑂪𑂲ʽ", "𑂉", "𑂊", "𑂋", "𑂌"]
  SouthVowelMap := us!["𑂉ʽ", "𑂋ʽ"]
  ModernVowelMap := us!["𑂉ʽ", "𑂄ʽ"]
  SinhalaVowelMap := us!["𑂉ʽ"]
  VowelSignMap := us!["𑂰", "𑂱", "𑂲", "𑂳", "𑂴", "𑃂", "𑂹𑂩𑂲ʽ", "𑂹𑂪𑂱ʽ", "𑂹𑂪𑂲ʽ", "𑂵", "𑂶", "𑂷", "𑂸"]
  SouthVowelSignMap := us!["𑂵ʽ", "𑂷ʽ"]
  ModernVowelSignMap := us!["𑂵ʽ", "𑂰ʽ"]
  SinhalaVowelSignMap := us!["𑂵ʽ"]
  ViramaMap := us!["𑂹"]
  AyogavahaMap := us!["𑂀", "𑂁", "𑂂"]
  NuktaMap := us!["𑂺"]
  ConsonantMap := us!["𑂍", "𑂎", "𑂏", "𑂐", "𑂑", "𑂒", "𑂓", "𑂔", "𑂕", "𑂖", "𑂗", "𑂘", "𑂙", "𑂛", "𑂝", "𑂞", "𑂟", "𑂠", "𑂡", "𑂢", "𑂣", "𑂤", "𑂥", "𑂦", "𑂧", "𑂨", "𑂩", "𑂪", "𑂫", "𑂬", "𑂭", "𑂮", "𑂯"]
  SouthConsonantMap := us!["𑂪𑂺", "𑂭𑂺", "𑂩𑂺", "𑂢𑂺"]
  NuktaConsonantMap := us!["𑂍𑂺", "𑂎𑂺", "𑂏𑂺", "𑂔𑂺", "𑂚", "𑂜", "𑂤𑂺", "𑂨𑂺"]
  SinhalaConsonantMap := us!["𑂀𑂏ʽ", "𑂀𑂔ʽ", "𑂀𑂙ʽ", "𑂀𑂠ʽ", "𑂀𑂥ʽ"]
  SignMap := us!["ऽ", "𑃀", "𑃁"]
  NumeralMap := us!["०", "१", "२", "३", "४", "५", "६", "७", "८", "९"]
  Aytham := us!["𑂂ʽ"]
  OmMap := us!["𑂋𑂁"]

/-- ScriptMap/MainIndic/Kannada.py -/
def Kannada : Tbl where
  VowelMap := us!["ಅ", "ಆ", "ಇ", "ಈ", "ಉ", "ಊ", "ಋ", "ೠ", "ಌ", "ೡ", "ಏ", "ಐ", "ಓ", "ಔ"]
  SouthVowelMap := us!["ಎ", "ಒ"]
  ModernVowelMap := us!["ಎʼ", "ಆʼ"]
  SinhalaVowelMap := us!["ಏˇ"]
  VowelSignMap := us!["ಾ", "ಿ", "ೀ", "ು", "ೂ", "ೃ", "ೄ", "ೢ", "ೣ", "ೇ", "ೈ", "ೋ", "ೌ"]
  SouthVowelSignMap := us!["ೆ", "ೊ"]
  ModernVowelSignMap := us!["ೆʼ", "ಾʼ"]
  SinhalaVowelSignMap := us!["ೇˇ"]
  ViramaMap := us!["್"]
  AyogavahaMap := us!["ಁ", "ಂ", "ಃ"]
  NuktaMap := us!["಼"]
  ConsonantMap := us!["ಕ", "ಖ", "ಗ", "ಘ", "ಙ", "ಚ", "ಛ", "ಜ", "ಝ", "ಞ", "ಟ", "ಠ", "ಡ", "ಢ", "ಣ", "ತ", "ಥ", "ದ", "ಧ", "ನ", "ಪ", "ಫ", "ಬ", "ಭ", "ಮ", "ಯ", "ರ", "ಲ", "ವ", "ಶ", "ಷ", "ಸ", "ಹ"]
  SouthConsonantMap := us!["ಳ", "ೞ", "ಱ", "ನ಼"]
  NuktaConsonantMap := us!["ಕ಼", "ಖ಼", "ಗ಼", "ಜ಼", "ಡ಼", "ಢ಼", "ಫ಼", "ಯ಼"]
  SinhalaConsonantMap := us!["ಂˆಗ", "ಂˆಜ", "ಂˆಡ", "ಂˆದ", "ಂˆಬ"]
  SignMap := us!["ಽ", "।", "॥"]
  NumeralMap := us!["೦", "೧", "೨", "೩", "೪", "೫", "೬", "೭", "೮", "೯"]
  Aytham := us!["ಃʼ"]
  OmMap := us!["ಓಂ"]

/-- ScriptMap/MainIndic/Kharoshthi.py -/
def Kharoshthi : Tbl where
  VowelMap := us!["𐨀", "𐨀𐨌", "𐨀𐨁", "𐨀𐨁𐨌", "𐨀𐨂", "𐨀𐨂𐨌", "𐨀𐨃", "𐨀𐨃𐨌", "𐨫𐨂ʽ", "𐨫𐨂𐨌ʽ", "𐨀𐨅", "𐨀𐨅𐨌", "𐨀𐨆", "𐨀𐨆𐨌"]
  SouthVowelMap := us!["𐨀𐨅ʽ", "𐨀𐨆ʽ"]
  ModernVowelMap := us!["𐨀𐨅ʽ", "𐨀𐨌ʽ"]
  SinhalaVowelMap := us!["𐨀𐨅ʽ"]
  VowelSignMap := us!["𐨌", "𐨁", "𐨁𐨌", "𐨂", "𐨂𐨌", "𐨃", "𐨃𐨌", "𐨿𐨫𐨂ʽ", "𐨿𐨫𐨂𐨌ʽ", "𐨅", "𐨅𐨌", "𐨆", "𐨆𐨌"]
  SouthVowelSignMap := us!["𐨅ʽ", "𐨆ʽ"]
  ModernVowelSignMap := us!["𐨅ʽ", "𐨌ʽ"]
  SinhalaVowelSignMap := us!["𐨅ʽ"]
  ViramaMap := us!["𐨿"]
  AyogavahaMap := us!["𐨎ʽ", "𐨎", "𐨏"]
  NuktaMap := us!["ʽʽʽʽ"]
  ConsonantMap := us!["𐨐", "𐨑", "𐨒", "𐨓", "𐨣ʽ", "𐨕", "𐨖", "𐨗", "𐨗ʽ", "𐨙", "𐨚", "𐨛", "𐨜", "𐨝", "𐨞", "𐨟", "𐨠", "𐨡", "𐨢", "𐨣", "𐨤", "𐨥", "𐨦", "𐨧", "𐨨", "𐨩", "𐨪", "𐨫", "𐨬", "𐨭", "𐨮", "𐨯", "𐨱"]
  SouthConsonantMap := us!["𐨫ʽ", "𐨫ʽ", "𐨪ʽ", "𐨣ʽ"]
  NuktaConsonantMap := us!["𐨲", "𐨑ʽ", "𐨒ʽ", "𐨰", "𐨜ʽ", "𐨝ʽ", "𐨥ʽ", "𐨩ʽ"]
  SinhalaConsonantMap := us!["𐨎𐨒ʽ", "𐨎𐨗ʽ", "𐨎𐨜ʽ", "𐨎𐨡ʽ", "𐨎𐨦ʽ"]
  SignMap := us!["ʽʽ", "𐩖", "𐩗"]
  NumeralMap := us!["0", "1", "2", "3", "4", "5", "6", "7", "8", "9"]
  Aytham := us!["𐨏ʽ"]
  OmMap := us!["𐨀𐨅𐨎"]

/-- ScriptMap/MainIndic/Khojki.py -/
def Khojki : Tbl where
  VowelMap := us!["𑈀", "𑈁", "𑉀", "𑈂", "𑈃", "𑈃ʽ", "𑈦𑈭ʽ", "𑈦𑈮ʽ", "𑈧𑈭ʽ", "𑈧𑈮ʽ", "𑈄", "𑈅", "𑈆", "𑈇"]
  SouthVowelMap := us!["𑈄ʽ", "𑈆ʽ"]
  ModernVowelMap := us!["𑈄ʽ", "𑈁ʽ"]
  SinhalaVowelMap := us!["𑈄ʽ"]
  VowelSignMap := us!["𑈬", "𑈭", "𑈮", "𑈯", "𑈯ʽ", "𑉁", "𑈵𑈦𑈮ʽ", "𑈵𑈧𑈭ʽ", "𑈵𑈧𑈮ʽ", "𑈰", "𑈱", "𑈲", "𑈳"]
  SouthVowelSignMap := us!["𑈰ʽ", "𑈲ʽ"]
  ModernVowelSignMap := us!["𑈰ʽ", "𑈬ʽ"]
  SinhalaVowelSignMap := us!["𑈰ʽ"]
  ViramaMap := us!["𑈵"]
  AyogavahaMap := us!["𑈴ʽ", "𑈴", "𑈪𑈵ʽ"]
  NuktaMap := us!["𑈶"]
  ConsonantMap := us!["𑈈", "𑈉", "𑈊", "𑈌", "𑈍", "𑈎", "𑈏", "𑈐", "𑈐ʽ", "𑈓", "𑈔", "𑈕", "𑈖", "𑈗", "𑈘", "𑈙", "𑈚", "𑈛", "𑈝", "𑈞", "𑈟", "𑈠", "𑈡", "𑈣", "𑈤", "𑈥", "𑈦", "𑈧", "𑈨", "𑈩𑈶", "𑈩𑈶ʽ", "𑈩", "𑈪"]
  SouthConsonantMap := us!["𑈫", "𑈫𑈶", "𑈦𑈶", "𑈞𑈶"]
  NuktaConsonantMap := us!["𑈈𑈶", "𑈉𑈶", "𑈊𑈶", "𑈐𑈶", "𑈖𑈶", "𑈗𑈶", "𑈠𑈶", "𑈥𑈶"]
  SinhalaConsonantMap := us!["𑈴𑈊ʽ", "𑈴𑈐ʽ", "𑈴𑈖ʽ", "𑈴𑈛ʽ", "𑈴𑈡ʽ"]
  SignMap := us!["ʽʽ", "𑈸", "𑈹"]
  NumeralMap := us!["૦", "૧", "૨", "૩", "૪", "૫", "૬", "૭", "૮", "૯"]
  Aytham := us!["𑈪𑈵ʽʽ"]
  OmMap := us!["𑈆𑈴"]

/-- ScriptMap/MainIndic/Khudawadi.py -/
def Khudawadi : Tbl where
  VowelMap := us!["𑊰", "𑊱", "𑊲", "𑊳", "𑊴", "𑊵", "𑋙𑋡ʽ", "𑋙𑋢ʽ", "𑋚𑋡ʽ", "𑋚𑋢ʽ", "𑊶", "𑊷", "𑊸", "𑊹"]
  SouthVowelMap := us!["𑊶ʽ", "𑊸ʽ"]
  ModernVowelMap := us!["𑊶ʽ", "𑊱ʽ"]
  SinhalaVowelMap := us!["𑊶ʽ"]
  VowelSignMap := us!["𑋠", "𑋡", "𑋢", "𑋣", "𑋤", "𑋪𑋙𑋡ʽ", "𑋪𑋙𑋢ʽ", "𑋪𑋚𑋡ʽ", "𑋪𑋚𑋢ʽ", "𑋥", "𑋦", "𑋧", "𑋨"]
  SouthVowelSignMap := us!["𑋥ʽ", "𑋧ʽ"]
  ModernVowelSignMap := us!["𑋥ʽ", "𑋠ʽ"]
  SinhalaVowelSignMap := us!["𑋥ʽ"]
  ViramaMap := us!["𑋪"]
  AyogavahaMap := us!["𑋟ʽ", "𑋟", "𑋞𑋪ʽ"]
  NuktaMap := us!["𑋩"]
  ConsonantMap := us!["𑊺", "𑊻", "𑊼", "𑊾", "𑊿", "𑋀", "𑋁", "𑋂", "𑋄", "𑋅", "𑋆", "𑋇", "𑋈", "𑋋", "𑋌", "𑋍", "𑋎", "𑋏", "𑋐", "𑋑", "𑋒", "𑋓", "𑋔", "𑋖", "𑋗", "𑋘", "𑋙", "𑋚", "𑋛", "𑋜", "𑋜𑋩", "𑋝", "𑋞"]
  SouthConsonantMap := us!["𑋚𑋩", "𑋚𑋩ʽ", "𑋙𑋩", "𑋑𑋩"]
  NuktaConsonantMap := us!["𑊺𑋩", "𑊻𑋩", "𑊼𑋩", "𑋂𑋩", "𑋊", "𑋋𑋩", "𑋓𑋩", "𑋘𑋩"]
  SinhalaConsonantMap := us!["𑋟𑊼ʽ", "𑋟𑋂ʽ", "𑋟𑋈ʽ", "𑋟𑋏ʽ", "𑋟𑋔ʽ"]
  SignMap := us!["ऽ", "।", "॥"]
  NumeralMap := us!["𑋰", "𑋱", "𑋲", "𑋳", "𑋴", "𑋵", "𑋶", "𑋷", "𑋸", "𑋹"]
  Aytham := us!["𑋞𑋪ʽʽ"]
  OmMap := us!["𑊸𑋟"]

/-- ScriptMap/MainIndic/Lepcha.py -/
def Lepcha : Tbl where
  VowelMap := us!["ᰣ", "ᰣᰦ", "ᰣᰧ", "ᰣᰧᰶ", "ᰣᰪ", "ᰣᰫ", "ᰛᰪʽ", "ᰛᰫʽ", "ᰜᰪʽ", "ᰜᰫʽ", "ᰣᰬ", "ᰣᰬʽ", "ᰣᰨ", "ᰣᰩ"]
  SouthVowelMap := us!["ᰣᰬʽ", "ᰣᰨʽ"]
  ModernVowelMap := us!["ᰣᰬʽ", "ᰣᰦʽ"]
  SinhalaVowelMap := us!["ᰣᰬʽ"]
  VowelSignMap := us!["ᰦ", "ᰧ", "ᰧᰶ", "ᰪ", "ᰫ", "ʾᰛᰪʽ", "ʾᰛᰫʽ", "ʾᰜᰪʽ", "ʾᰜᰫʽ", "ᰬ", "ᰬʽ", "ᰨ", "ᰩ"]
  SouthVowelSignMap := us!["ᰬʽ", "ᰨʽ"]
  ModernVowelSignMap := us!["ᰬʽ", "ᰦʽ"]
  SinhalaVowelSignMap := us!["ᰬʽ"]
  ViramaMap := us!["ʾ"]
  AyogavahaMap := us!["ᰴʽ", "ᰴ", "ᰝʽ"]
  NuktaMap := us!["᰷"]
  ConsonantMap := us!["ᰀ", "ᰂ", "ᰃ", "ᰃʽ", "ᰅ", "ᰆ", "ᰇ", "ᰈ", "ᰈʽ", "ᰉ", "ᱍ", "ᱎ", "ᱏ", "ᱏʽ", "ᰍʽ", "ᰊ", "ᰋ", "ᰌ", "ᰌʽ", "ᰍ", "ᰎ", "ᰐ", "ᰓ", "ᰓʽ", "ᰕ", "ᰚ", "ᰛ", "ᰜ", "ᰟ", "ᰡ", "ᰡ᰷", "ᰠ", "ᰝ"]
  SouthConsonantMap := us!["ᰜ᰷", "ᰜ᰷ʽ", "ᰛ᰷", "ᰍ᰷"]
  NuktaConsonantMap := us!["ᰀ᰷", "ᰂ᰷", "ᰃ᰷", "ᰈ᰷", "ᱏ᰷", "ᱏ᰷ʽ", "ᰑ", "ᰚ᰷"]
  SinhalaConsonantMap := us!["ᰵᰃʽ", "ᰰᰈʽ", "ᰰᰌʽ", "ᰰᰌʽ", "ᰮᰓʽ"]
  SignMap := us!["'", "᰻", "᰼"]
  NumeralMap := us!["᱀", "᱁", "᱂", "᱃", "᱄", "᱅", "᱆", "᱇", "᱈", "᱉"]
  Aytham := us!["ᰝʽʼ"]
  OmMap := us!["ᰣᰨᰴ"]

/-- ScriptMap/MainIndic/Limbu.py -/
def Limbu : Tbl where
  VowelMap := us!["ᤀ", "ᤀᤠ", "ᤀᤡ", "ᤀᤡ᤺", "ᤀᤢ", "ᤀᤢ᤺", "ᤖᤢʽ", "ᤖᤢ᤺ʽ", "ᤗᤢʽ", "ᤗᤢ᤺ʽ", "ᤀᤣ", "ᤀᤤ", "ᤀᤥ", "ᤀᤦ"]
  SouthVowelMap := us!["ᤀᤧ", "ᤀᤨ"]
  ModernVowelMap := us!["ᤀᤧʽ", "ᤀᤨʽ"]
  SinhalaVowelMap := us!["ᤀᤣʽ"]
  VowelSignMap := us!["ᤠ", "ᤡ", "ᤡ᤺", "ᤢ", "ᤢ᤺", "᤻ᤖᤢʽ", "᤻ᤖᤢ᤺ʽ", "᤻ᤗᤢʽ", "᤻ᤗᤢ᤺ʽ", "ᤣ", "ᤤ", "ᤥ", "ᤦ"]
  SouthVowelSignMap := us!["ᤧ", "ᤨ"]
  ModernVowelSignMap := us!["ᤧʽ", "ᤨʽ"]
  SinhalaVowelSignMap := us!["ᤣʽ"]
  ViramaMap := us!["᤻"]
  AyogavahaMap := us!["ᤲʽ", "ᤲ", "ᤜ᤻ʽ"]
  NuktaMap := us!["ʽʽʽʽ"]
  ConsonantMap := us!["ᤁ", "ᤂ", "ᤃ", "ᤄ", "ᤅ", "ᤆ", "ᤇ", "ᤈ", "ᤉ", "ᤊ", "ᤋʽ", "ᤌʽ", "ᤍʽ", "ᤎʽ", "ᤏʽ", "ᤋ", "ᤌ", "ᤍ", "ᤎ", "ᤏ", "ᤐ", "ᤑ", "ᤒ", "ᤓ", "ᤔ", "ᤕ", "ᤖ", "ᤗ", "ᤘ", "ᤙ", "ᤚ", "ᤛ", "ᤜ"]
  SouthConsonantMap := us!["ᤗʽ", "ᤗʽ", "ᤖʽ", "ᤏʽ"]
  NuktaConsonantMap := us!["ᤁʽ", "ᤂʽ", "ᤃʽ", "ᤈʽ", "ᤍʽ", "ᤎʽ", "ᤑʽ", "ᤕʽ"]
  SinhalaConsonantMap := us!["ᤲᤃʽ", "ᤲᤈʽ", "ᤲᤍʽ", "ᤲᤍʽ", "ᤲᤒʽ"]
  SignMap := us!["'", "।", "॥"]
  NumeralMap := us!["᥆", "᥇", "᥈", "᥉", "᥊", "᥋", "᥌", "᥍", "᥎", "᥏"]
  Aytham := us!["ᤜ᤻ʽʼ"]
  OmMap := us!["ᤀᤥᤲ"]

/-- ScriptMap/MainIndic/LimbuLoC.py -/
def LimbuLoC : Tbl where
  VowelMap := us!["ᤀ", "ᤀᤠ", "ᤀᤡ", "ᤀᤡʽ", "ᤀᤢ", "ᤀᤢʽ", "ᤖᤢʽ", "ᤖᤢʽʽ", "ᤗᤢʽ", "ᤗᤢʽʽ", "ᤀᤣ", "ᤀᤤ", "ᤀᤥ", "ᤀᤦ"]
  SouthVowelMap := us!["ᤀᤧ", "ᤀᤨ"]
  ModernVowelMap := us!["ᤀᤧʽ", "ᤀᤨʽ"]
  SinhalaVowelMap := us!["ᤀᤣʽ"]
  VowelSignMap := us!["ᤠ", "ᤡ", "ᤡʽ", "ᤢ", "ᤢʽ", "᤻ᤖᤢʽ", "᤻ᤖᤢʽʽ", "᤻ᤗᤢʽ", "᤻ᤗᤢʽʽ", "ᤣ", "ᤤ", "ᤥ", "ᤦ"]
  SouthVowelSignMap := us!["ᤧ", "ᤨ"]
  ModernVowelSignMap := us!["ᤧʽ", "ᤨʽ"]
  SinhalaVowelSignMap := us!["ᤣʽ"]
  ViramaMap := us!["᤻"]
  AyogavahaMap := us!["ᤲʽ", "ᤲ", "᤹"]
  NuktaMap := us!["ʽʽʽʽ"]
  ConsonantMap := us!["ᤁ", "ᤂ", "ᤃ", "ᤄ", "ᤅ", "ᤆ", "ᤇ", "ᤈ", "ᤉ", "ᤊ", "ᤋʽ", "ᤌʽ", "ᤍʽ", "ᤎʽ", "ᤏʽ", "ᤋ", "ᤌ", "ᤍ", "ᤎ", "ᤏ", "ᤐ", "ᤑ", "ᤒ", "ᤓ", "ᤔ", "ᤕ", "ᤖ", "ᤗ", "ᤘ", "ᤙ", "ᤚ", "ᤛ", "ᤜ"]
  SouthConsonantMap := us!["ᤗʽ", "ᤗʽ", "ᤖʽ", "ᤏʽ"]
  NuktaConsonantMap := us!["ᤁʽ", "ᤂʽ", "ᤃʽ", "ᤈʽ", "ᤍʽ", "ᤎʽ", "ᤑʽ", "ᤕʽ"]
  SinhalaConsonantMap := us!["ᤲᤃʽ", "ᤲᤈʽ", "ᤲᤍʽ", "ᤲᤍʽ", "ᤲᤒʽ"]
  SignMap := us!["᤺", "।", "॥"]
  NumeralMap := us!["᥆", "᥇", "᥈", "᥉", "᥊", "᥋", "᥌", "᥍", "᥎", "᥏"]
  Aytham := us!["᤹ʼ"]
  OmMap := us!["ᤀᤥᤲ"]

/-- ScriptMap/MainIndic/Mahajani.py -/
def Mahajani : Tbl where
  VowelMap := us!["𑅐", "𑅐ʽ", "𑅑", "𑅑ʽ", "𑅒", "𑅒ʽ", "𑅭𑅒ʽ", "𑅭𑅒ʽ", "𑅮𑅒ʽ", "𑅮𑅒ʽ", "𑅓", "𑅑ʽ", "𑅔", "𑅒ʽ"]
  SouthVowelMap := us!["𑅓ʽ", "𑅔ʽ"]
  ModernVowelMap := us!["𑅓ʽ", "𑅐ʽ"]
  SinhalaVowelMap := us!["𑅓ʽ"]
  VowelSignMap := us!["𑅐ʽ", "𑅑ʽ", "ʿ𑅑", "𑅒ʽ", "𑅒ʽ", "𑅭𑅒ʽ", "𑅭𑅒ʽ", "𑅮𑅒ʽ", "𑅮𑅒ʽ", "𑅓ʽ", "𑅑ʽ", "𑅔ʽ", "𑅒ʽ"]
  SouthVowelSignMap := us!["𑅓ʽ", "𑅔ʽ"]
  ModernVowelSignMap := us!["𑅓ʽ", "𑅐ʽ"]
  SinhalaVowelSignMap := us!["𑅓ʽ"]
  ViramaMap := us!["ʾ"]
  AyogavahaMap := us!["𑅧ʽ", "𑅧ʽ", "𑅱ʽ"]
  NuktaMap := us!["𑅳"]
  ConsonantMap := us!["𑅕", "𑅖", "𑅗", "𑅘", "𑅧ʽ", "𑅙", "𑅚", "𑅛", "𑅜", "𑅝", "𑅞", "𑅟", "𑅠", "𑅡", "𑅢", "𑅣", "𑅤", "𑅥", "𑅦", "𑅧", "𑅨", "𑅩", "𑅪", "𑅫", "𑅬", "𑅛ʽ", "𑅭", "𑅮", "𑅯", "𑅰𑅳", "𑅖𑅳ʽ", "𑅰", "𑅱"]
  SouthConsonantMap := us!["𑅮𑅳", "𑅮𑅳ʽ", "𑅭𑅳", "𑅧𑅳"]
  NuktaConsonantMap := us!["𑅕𑅳", "𑅖𑅳", "𑅗𑅳", "𑅛𑅳", "𑅲", "𑅡𑅳", "𑅩𑅳", "𑅛ʽ"]
  SinhalaConsonantMap := us!["𑅧𑅗ʽ", "𑅧𑅛ʽ", "𑅧𑅠ʽ", "𑅧𑅥ʽ", "𑅧𑅪ʽ"]
  SignMap := us!["ʽʽ", "।", "॥"]
  NumeralMap := us!["०", "१", "२", "३", "४", "५", "६", "७", "८", "९"]
  Aytham := us!["𑅱ʽʽ"]
  OmMap := us!["𑅔𑅬"]

end Verif.Base
