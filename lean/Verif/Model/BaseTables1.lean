import Verif.Model.Sec

/-!
# Letter tables as written in /repo/aksharamukha/ScriptMap

Generated by tools/gentables.py.
-/

namespace Verif.Base

/-- ScriptMap/MainIndic/Malayalam.py -/
def Malayalam : Tbl where
  VowelMap := us!["അ", "ആ", "ഇ", "ഈ", "ഉ", "ഊ", "ഋ", "ൠ", "ഌ", "ൡ", "ഏ", "ഐ", "ഓ", "ഔ"]
  SouthVowelMap := us!["എ", "ഒ"]
  ModernVowelMap := us!["എʼ", "ആʼ"]
  SinhalaVowelMap := us!["ഏˇ"]
  VowelSignMap := us!["ാ", "ി", "ീ", "ു", "ൂ", "ൃ", "ൄ", "ൢ", "ൣ", "േ", "ൈ", "ോ", "ൗ"]
  SouthVowelSignMap := us!["െ", "ൊ"]
  ModernVowelSignMap := us!["െʼ", "ാʼ"]
  SinhalaVowelSignMap := us!["േˇ"]
  ViramaMap := us!["്"]
  AyogavahaMap := us!["ഁ", "ം", "ഃ"]
  NuktaMap := us!["·"]
  ConsonantMap := us!["ക", "ഖ", "ഗ", "ഘ", "ങ", "ച", "ഛ", "ജ", "ഝ", "ഞ", "ട", "ഠ", "ഡ", "ഢ", "ണ", "ത", "ഥ", "ദ", "ധ", "ന", "പ", "ഫ", "ബ", "ഭ", "മ", "യ", "ര", "ല", "വ", "ശ", "ഷ", "സ", "ഹ"]
  SouthConsonantMap := us!["ള", "ഴ", "റ", "ഩ"]
  NuktaConsonantMap := us!["ക·", "ഖ·", "ഗ·", "ജ·", "ഡ·", "ഢ·", "ഫ·", "യ·"]
  SinhalaConsonantMap := us!["ംˆഗ", "ംˆജ", "ംˆഡ", "ംˆദ", "ംˆബ"]
  SignMap := us!["ഽ", "।", "॥"]
  NumeralMap := us!["൦", "൧", "൨", "൩", "൪", "൫", "൬", "൭", "൮", "൯"]
  Aytham := us!["ഃʼ"]
  OmMap := us!["ഓം"]

/-- ScriptMap/MainIndic/MasaramGondi.py -/
def MasaramGondi : Tbl where
  VowelMap := us!["𑴀", "𑴁", "𑴂", "𑴃", "𑴄", "𑴅", "𑴦𑴶", "𑴦𑴵ʽ", "𑴧𑴴ʽ", "𑴧𑴵ʽ", "𑴆", "𑴈", "𑴉", "𑴋"]
  SouthVowelMap := us!["𑴆ʽ", "𑴉ʽ"]
  ModernVowelMap := us!["𑴆𑵃", "𑴁𑵃"]
  SinhalaVowelMap := us!["𑴆𑵃ʽ"]
  VowelSignMap := us!["𑴱", "𑴲", "𑴳", "𑴴", "𑴵", "𑴶", "𑵅𑴦𑴵ʽ", "𑵅𑴧𑴴ʽ", "𑵅𑴧𑴵ʽ", "𑴺", "𑴼", "𑴽", "𑴿"]
  SouthVowelSignMap := us!["𑴺ʽ", "𑴽ʽ"]
  ModernVowelSignMap := us!["𑴺𑵃", "𑴱𑵃"]
  SinhalaVowelSignMap := us!["𑴺𑵃ʽ"]
  ViramaMap := us!["𑵅"]
  AyogavahaMap := us!["𑵀ʽ", "𑵀", "𑵁"]
  NuktaMap := us!["ʽʽ"]
  ConsonantMap := us!["𑴌", "𑴍", "𑴎", "𑴏", "𑴐", "𑴑", "𑴒", "𑴓", "𑴔", "𑴕", "𑴖", "𑴗", "𑴘", "𑴙", "𑴚", "𑴛", "𑴜", "𑴝", "𑴞", "𑴟", "𑴠", "𑴡", "𑴢", "𑴣", "𑴤", "𑴥", "𑴦", "𑴧", "𑴨", "𑴩", "𑴪", "𑴫", "𑴬"]
  SouthConsonantMap := us!["𑴭", "𑴭𑵂", "𑴦𑵂", "𑴟𑵂"]
  NuktaConsonantMap := us!["𑴌𑵂", "𑴍𑵂", "𑴎𑵂", "𑴓𑵂", "𑴘𑵂", "𑴙𑵂", "𑴡𑵂", "𑴥𑵂"]
  SinhalaConsonantMap := us!["𑵀𑴎ʽ", "𑵀𑴓ʽ", "𑵀𑴘ʽ", "𑵀𑴝ʽ", "𑵀𑴢ʽ"]
  SignMap := us!["ʽʽʽ", "।", "॥"]
  NumeralMap := us!["𑵐", "𑵑", "𑵒", "𑵓", "𑵔", "𑵕", "𑵖", "𑵗", "𑵘", "𑵙"]
  Aytham := us!["𑵁ʽ"]
  OmMap := us!["𑴉𑵀"]

/-- ScriptMap/MainIndic/MeeteiMayek.py -/
def MeeteiMayek : Tbl where
  VowelMap := us!["ꯑ", "ꯑꯥ", "ꯏ", "ꯑꫫ", "ꯎ", "ꯑꫬ", "ꯔꯨʽ", "ꯔꫬʽ", "ꯂꯨʽ", "ꯂꫬʽ", "ꯑꯦ", "ꯑꯩ", "ꯑꯣ", "ꯑꯧ"]
  SouthVowelMap := us!["ꯑꯦʽ", "ꯑꯣʽ"]
  ModernVowelMap := us!["ꯑꯦʽ", "ꯑꯥʽ"]
  SinhalaVowelMap := us!["ꯑꯦʽ"]
  VowelSignMap := us!["ꯥ", "ꯤ", "ꫫ", "ꯨ", "ꫬ", "꯭ꯔꯨʽ", "꯭ꯔꫬʽ", "꯭ꯂꯨʽ", "꯭ꯂꫬʽ", "ꯦ", "ꯩ", "ꯣ", "ꯧ"]
  SouthVowelSignMap := us!["ꯦʽ", "ꯣʽ"]
  ModernVowelSignMap := us!["ꯦʽ", "ꯥʽ"]
  SinhalaVowelSignMap := us!["ꯦʽ"]
  ViramaMap := us!["꯭"]
  AyogavahaMap := us!["ꯪʽ", "ꯪ", "ꫵ"]
  NuktaMap := us!["ʽʽʽʽ"]
  ConsonantMap := us!["ꯀ", "ꯈ", "ꯒ", "ꯘ", "ꯉ", "ꯆ", "ꫢ", "ꯖ", "ꯓ", "ꫣ", "ꫤ", "ꫥ", "ꫦ", "ꫧ", "ꫨ", "ꯇ", "ꯊ", "ꯗ", "ꯙ", "ꯅ", "ꯄ", "ꯐ", "ꯕ", "ꯚ", "ꯃ", "ꯌ", "ꯔ", "ꯂ", "ꯋ", "ꫩ", "ꫪ", "ꯁ", "ꯍ"]
  SouthConsonantMap := us!["ꯂʽ", "ꯂʽ", "ꯔʽ", "ꯅʽ"]
  NuktaConsonantMap := us!["ꯀʽ", "ꯈʽ", "ꯒʽ", "ꯖʽ", "ꯗʽ", "ꯙʽ", "ꯐʽ", "ꯌʽ"]
  SinhalaConsonantMap := us!["ꯪꯒʽ", "ꯪꯖʽ", "ꯪꯗʽ", "ꯪꯗʽ", "ꯪꯕʽ"]
  SignMap := us!["'", "꯫", "꯫꯫"]
  NumeralMap := us!["꯰", "꯱", "꯲", "꯳", "꯴", "꯵", "꯶", "꯷", "꯸", "꯹"]
  Aytham := us!["ꫵʼ"]
  OmMap := us!["ꯑꯣꯪ"]

/-- ScriptMap/MainIndic/Modi.py -/
def Modi : Tbl where
  VowelMap := us!["𑘀", "𑘁", "𑘂", "𑘃", "𑘄", "𑘅", "𑘆", "𑘇", "𑘈", "𑘉", "𑘊", "𑘋", "𑘌", "𑘍"]
  SouthVowelMap := us!["𑘊ʽ", "𑘌ʽ"]
  ModernVowelMap := us!["𑘀𑙀", "𑘁ʽ"]
  SinhalaVowelMap := us!["𑘊ʽ"]
  VowelSignMap := us!["𑘰", "𑘱", "𑘲", "𑘳", "𑘴", "𑘵", "𑘶", "𑘷", "𑘸", "𑘹", "𑘺", "𑘻", "𑘼"]
  SouthVowelSignMap := us!["𑘹ʽ", "𑘻ʽ"]
  ModernVowelSignMap := us!["𑙀", "𑘰ʽ"]
  SinhalaVowelSignMap := us!["𑘹ʽ"]
  ViramaMap := us!["𑘿"]
  AyogavahaMap := us!["𑘽ʽ", "𑘽", "𑘾"]
  NuktaMap := us!["ʽʽʽʽ"]
  ConsonantMap := us!["𑘎", "𑘏", "𑘐", "𑘑", "𑘒", "𑘓", "𑘔", "𑘕", "𑘖", "𑘗", "𑘘", "𑘙", "𑘚", "𑘛", "𑘜", "𑘝", "𑘞", "𑘟", "𑘠", "𑘡", "𑘢", "𑘣", "𑘤", "𑘥", "𑘦", "𑘧", "𑘨", "𑘩", "𑘪", "𑘫", "𑘬", "𑘭", "𑘮"]
  SouthConsonantMap := us!["𑘯", "𑘯ʽ", "𑘬ʽ", "𑘡ʽ"]
  NuktaConsonantMap := us!["𑘎ʽ", "𑘏ʽ", "𑘐ʽ", "𑘕ʽ", "𑘚ʽ", "𑘛ʽ", "𑘣ʽ", "𑘧ʽ"]
  SinhalaConsonantMap := us!["𑘽𑘐ʽ", "𑘽𑘕ʽ", "𑘽𑘚ʽ", "𑘽𑘟ʽ", "𑘽𑘤ʽ"]
  SignMap := us!["ऽ", "𑙁", "𑙂"]
  NumeralMap := us!["𑙐", "𑙑", "𑙒", "𑙓", "𑙔", "𑙕", "𑙖", "𑙗", "𑙘", "𑙙"]
  Aytham := us!["𑘾ʽ"]
  OmMap := us!["𑘌𑘽"]

/-- ScriptMap/MainIndic/Multani.py -/
def Multani : Tbl where
  VowelMap := us!["𑊀", "𑊀ʽ", "𑊁", "𑊁ʽ", "𑊂", "𑊂ʽ", "𑊢𑊂ʽ", "𑊢𑊂ʽ", "𑊣𑊂ʽ", "𑊣𑊂ʽ", "𑊃", "𑊃ʽ", "𑊂ʽ", "𑊂ʽ"]
  SouthVowelMap := us!["𑊃ʽ", "𑊂ʽ"]
  ModernVowelMap := us!["𑊃ʽ", "𑊀ʽ"]
  SinhalaVowelMap := us!["𑊃ʽ"]
  VowelSignMap := us!["𑊀ʿ", "𑊁ʿ", "𑊁ʿ", "𑊂ʿ", "𑊂ʿ", "𑊢𑊂ʿ", "𑊢𑊂ʿ", "𑊣𑊂ʿ", "𑊣𑊂ʿ", "𑊃ʿ", "𑊃ʿ", "𑊂ʿ", "𑊂ʿ"]
  SouthVowelSignMap := us!["𑊃ʿ", "𑊂ʿ"]
  ModernVowelSignMap := us!["𑊃ʿ", "𑊀ʿ"]
  SinhalaVowelSignMap := us!["𑊃ʿ"]
  ViramaMap := us!["ʾ"]
  AyogavahaMap := us!["𑊚ʽ", "𑊚ʽ", "𑊦ʽ"]
  NuktaMap := us!["ʽʽʽ"]
  ConsonantMap := us!["𑊄", "𑊅", "𑊆", "𑊈", "𑊚ʽ", "𑊊", "𑊋", "𑊌", "𑊌ʽ", "𑊏", "𑊐", "𑊑", "𑊒", "𑊔", "𑊕", "𑊖", "𑊗", "𑊘", "𑊙", "𑊚", "𑊛", "𑊜", "𑊝", "𑊟", "𑊠", "𑊡", "𑊢", "𑊣", "𑊤", "𑊥ʽ", "𑊥ʽ", "𑊥", "𑊦"]
  SouthConsonantMap := us!["𑊣ʽ", "𑊣ʽ", "𑊢ʽ", "𑊚ʽ"]
  NuktaConsonantMap := us!["𑊄ʽ", "𑊅ʽ", "𑊆ʽ", "𑊌ʽ", "𑊧", "𑊨", "𑊜ʽ", "𑊡ʽ"]
  SinhalaConsonantMap := us!["𑊚𑊆ʽ", "𑊚𑊌ʽ", "𑊚𑊒ʽ", "𑊚𑊘ʽ", "𑊠𑊝ʽ"]
  SignMap := us!["ʽʽ", "।", "॥"]
  NumeralMap := us!["੦", "੧", "੨", "੩", "੪", "੫", "੬", "੭", "੮", "੯"]
  Aytham := us!["𑊦ʽʽ"]
  OmMap := us!["𑊂𑊠ʽ"]

/-- ScriptMap/MainIndic/Nandinagari.py -/
def Nandinagari : Tbl where
  VowelMap := us!["𑦠", "𑦡", "𑦢", "𑦣", "𑦤", "𑦥", "𑦦", "𑦧", "𑧉𑧔ʽ", "𑧉𑧕ʽ", "𑦪", "𑦫", "𑦬", "𑦭"]
  SouthVowelMap := us!["𑦪ʽ", "𑦬ʽ"]
  ModernVowelMap := us!["𑦪ʽ", "𑦡ʽ"]
  SinhalaVowelMap := us!["𑦪ʽ"]
  VowelSignMap := us!["𑧑", "𑧒", "𑧓", "𑧔", "𑧕", "𑧖", "𑧗", "𑧠𑧉𑧔ʽ", "𑧠𑧉𑧕ʽ", "𑧚", "𑧛", "𑧜", "𑧝"]
  SouthVowelSignMap := us!["𑧚ʽ", "𑧜ʽ"]
  ModernVowelSignMap := us!["𑧑ʽ", "𑧚ʽ"]
  SinhalaVowelSignMap := us!["𑧚ʽ"]
  ViramaMap := us!["𑧠"]
  AyogavahaMap := us!["𑧞ʽ", "𑧞", "𑧟"]
  NuktaMap := us!["ʽʽ"]
  ConsonantMap := us!["𑦮", "𑦯", "𑦰", "𑦱", "𑦲", "𑦳", "𑦴", "𑦵", "𑦶", "𑦷", "𑦸", "𑦹", "𑦺", "𑦻", "𑦼", "𑦽", "𑦾", "𑦿", "𑧀", "𑧁", "𑧂", "𑧃", "𑧄", "𑧅", "𑧆", "𑧇", "𑧈", "𑧉", "𑧊", "𑧋", "𑧌", "𑧍", "𑧎"]
  SouthConsonantMap := us!["𑧏ʽ", "𑧏", "𑧐", "𑧁ʽ"]
  NuktaConsonantMap := us!["𑦮ʽ", "𑦯ʽ", "𑦰ʽ", "𑦵ʽ", "𑦺ʽ", "𑦻ʽ", "𑧃ʽ", "𑧇ʽ"]
  SinhalaConsonantMap := us!["𑧞ʽ𑦰", "𑧞ʽ𑦵", "𑧞ʽ𑦺", "𑧞ʽ𑦿", "𑧞ʽ𑧄"]
  SignMap := us!["𑧡", "।", "॥"]
  NumeralMap := us!["೦", "೧", "೨", "೩", "೪", "೫", "೬", "೭", "೮", "೯"]
  Aytham := us!["𑧟ʽ"]
  OmMap := us!["𑦬𑧞"]

/-- ScriptMap/MainIndic/Newa.py -/
def Newa : Tbl where
  VowelMap := us!["𑐀", "𑐁", "𑐂", "𑐃", "𑐄", "𑐅", "𑐆", "𑐇", "𑐈", "𑐉", "𑐊", "𑐋", "𑐌", "𑐍"]
  SouthVowelMap := us!["𑐊ʽ", "𑐌ʽ"]
  ModernVowelMap := us!["𑐊ʽ", "𑐁ʽ"]
  SinhalaVowelMap := us!["𑐊ʽ"]
  VowelSignMap := us!["𑐵", "𑐶", "𑐷", "𑐸", "𑐹", "𑐺", "𑐻", "𑐼", "𑐽", "𑐾", "𑐿", "𑑀", "𑑁"]
  SouthVowelSignMap := us!["𑐾ʽ", "𑑀ʽ"]
  ModernVowelSignMap := us!["𑐾ʽ", "𑐶ʽ"]
  SinhalaVowelSignMap := us!["𑐾ʽ"]
  ViramaMap := us!["𑑂"]
  AyogavahaMap := us!["𑑃", "𑑄", "𑑅"]
  NuktaMap := us!["𑑆"]
  ConsonantMap := us!["𑐎", "𑐏", "𑐐", "𑐑", "𑐒", "𑐔", "𑐕", "𑐖", "𑐗", "𑐘", "𑐚", "𑐛", "𑐜", "𑐝", "𑐞", "𑐟", "𑐠", "𑐡", "𑐢", "𑐣", "𑐥", "𑐦", "𑐧", "𑐨", "𑐩", "𑐫", "𑐬", "𑐮", "𑐰", "𑐱", "𑐲", "𑐳", "𑐴"]
  SouthConsonantMap := us!["𑐮𑑆", "𑐲𑑆", "𑐬𑑆", "𑐣𑑆"]
  NuktaConsonantMap := us!["𑐎𑑆", "𑐏𑑆", "𑐐𑑆", "𑐖𑑆", "𑐜𑑆", "𑐝𑑆", "𑐦𑑆", "𑐫𑑆"]
  SinhalaConsonantMap := us!["𑑃𑐐ʽ", "𑑃𑐖ʽ", "𑑃𑐜ʽ", "𑑃𑐡ʽ", "𑑃𑐧ʽ"]
  SignMap := us!["𑑇", "𑑋", "𑑌"]
  NumeralMap := us!["𑑐", "𑑑", "𑑒", "𑑓", "𑑔", "𑑕", "𑑖", "𑑗", "𑑘", "𑑙"]
  Aytham := us!["𑑅ʽ"]
  OmMap := us!["𑑉"]

/-- ScriptMap/MainIndic/Oriya.py -/
def Oriya : Tbl where
  VowelMap := us!["ଅ", "ଆ", "ଇ", "ଈ", "ଉ", "ଊ", "ଋ", "ୠ", "ଌ", "ୡ", "ଏ", "ଐ", "ଓ", "ଔ"]
  SouthVowelMap := us!["ଏ˘", "ଓ˘"]
  ModernVowelMap := us!["ଏʼ", "ଆʼ"]
  SinhalaVowelMap := us!["ଏˇ"]
  VowelSignMap := us!["ା", "ି", "ୀ", "ୁ", "ୂ", "ୃ", "ୄ", "ୢ", "ୣ", "େ", "ୈ", "ୋ", "ୌ"]
  SouthVowelSignMap := us!["େ˘", "ୋ˘"]
  ModernVowelSignMap := us!["େʼ", "ାʼ"]
  SinhalaVowelSignMap := us!["େˇ"]
  ViramaMap := us!["୍"]
  AyogavahaMap := us!["ଁ", "ଂ", "ଃ"]
  NuktaMap := us!["଼"]
  ConsonantMap := us!["କ", "ଖ", "ଗ", "ଘ", "ଙ", "ଚ", "ଛ", "ଜ", "ଝ", "ଞ", "ଟ", "ଠ", "ଡ", "ଢ", "ଣ", "ତ", "ଥ", "ଦ", "ଧ", "ନ", "ପ", "ଫ", "ବ", "ଭ", "ମ", "ଯ", "ର", "ଲ", "ୱ", "ଶ", "ଷ", "ସ", "ହ"]
  SouthConsonantMap := us!["ଳ", "ଳ଼", "ର଼", "ନ଼"]
  NuktaConsonantMap := us!["କ଼", "ଖ଼", "ଗ଼", "ଜ଼", "ଡ଼", "ଢ଼", "ଫ଼", "ୟ"]
  SinhalaConsonantMap := us!["ଁˆଗ", "ଁˆଜ", "ଁˆଡ", "ଁˆଦ", "ଁˆବ"]
  SignMap := us!["ଽ", "।", "॥"]
  NumeralMap := us!["୦", "୧", "୨", "୩", "୪", "୫", "୬", "୭", "୮", "୯"]
  Aytham := us!["ଃʼ"]
  OmMap := us!["ଓଁ"]

/-- ScriptMap/MainIndic/Ranjana.py -/
def Ranjana : Tbl where
  VowelMap := us!["अ", "आ", "इ", "ई", "उ", "ऊ", "ऋ", "ॠ", "ऌ", "ॡ", "ए", "ऐ", "ओ", "औ"]
  SouthVowelMap := us!["एʽ", "ओʽ"]
  ModernVowelMap := us!["एʽ", "आʽ"]
  SinhalaVowelMap := us!["एʽ"]
  VowelSignMap := us!["ा", "ि", "ी", "ु", "ू", "ृ", "ॄ", "ॢ", "ॣ", "े", "ै", "ो", "ौ"]
  SouthVowelSignMap := us!["ेʽ", "ोʽ"]
  ModernVowelSignMap := us!["ेʽ", "ाʽ"]
  SinhalaVowelSignMap := us!["ेʽ"]
  ViramaMap := us!["्"]
  AyogavahaMap := us!["ँ", "ं", "ः"]
  NuktaMap := us!["़"]
  ConsonantMap := us!["क", "ख", "ग", "घ", "ङ", "च", "छ", "ज", "झ", "ञ", "ट", "ठ", "ड", "ढ", "ण", "त", "थ", "द", "ध", "न", "प", "फ", "ब", "भ", "म", "य", "र", "ल", "व", "श", "ष", "स", "ह"]
  SouthConsonantMap := us!["लʽ", "लʽ", "रʽ", "नʽ"]
  NuktaConsonantMap := us!["कʽ", "खʽ", "गʽ", "जʽ", "डʽ", "ढʽ", "फʽ", "यʽ"]
  SinhalaConsonantMap := us!["ँʽग", "ँʽज", "ँʽड", "ँʽद", "ँʽब"]
  SignMap := us!["ऽ", "।", "॥"]
  NumeralMap := us!["०", "१", "२", "३", "४", "५", "६", "७", "८", "९"]
  Aytham := us!["ःʽ"]
  OmMap := us!["ॐ"]

/-- ScriptMap/MainIndic/Saurashtra.py -/
def Saurashtra : Tbl where
  VowelMap := us!["ꢂ", "ꢃ", "ꢄ", "ꢅ", "ꢆ", "ꢇ", "ꢈ", "ꢉ", "ꢊ", "ꢋ", "ꢍ", "ꢎ", "ꢐ", "ꢑ"]
  SouthVowelMap := us!["ꢌ", "ꢏ"]
  ModernVowelMap := us!["ꢌʽ", "ꢃʽ"]
  SinhalaVowelMap := us!["ꢌʽ"]
  VowelSignMap := us!["ꢵ", "ꢶ", "ꢷ", "ꢸ", "ꢹ", "ꢺ", "ꢻ", "ꢼ", "ꢽ", "ꢿ", "ꣀ", "ꣂ", "ꣃ"]
  SouthVowelSignMap := us!["ꢾ", "ꣁ"]
  ModernVowelSignMap := us!["ꢾʽ", "ꢵʽ"]
  SinhalaVowelSignMap := us!["ꢿʽ"]
  ViramaMap := us!["꣄"]
  AyogavahaMap := us!["ꣅ", "ꢀ", "ꢁ"]
  NuktaMap := us!["ʽʽʽʽ"]
  ConsonantMap := us!["ꢒ", "ꢓ", "ꢔ", "ꢕ", "ꢖ", "ꢗ", "ꢘ", "ꢙ", "ꢚ", "ꢛ", "ꢜ", "ꢝ", "ꢞ", "ꢟ", "ꢠ", "ꢡ", "ꢢ", "ꢣ", "ꢤ", "ꢥ", "ꢦ", "ꢧ", "ꢨ", "ꢩ", "ꢪ", "ꢫ", "ꢬ", "ꢭ", "ꢮ", "ꢯ", "ꢰ", "ꢱ", "ꢲ"]
  SouthConsonantMap := us!["ꢳ", "ꢳʽ", "ꢬʽ", "ꢥʽ"]
  NuktaConsonantMap := us!["ꢒʽ", "ꢓʽ", "ꢔʽ", "ꢙʽ", "ꢞʽ", "ꢟʽ", "ꢧʽ", "ꢫʽ"]
  SinhalaConsonantMap := us!["ꢀʽꢔ", "ꢀʽꢙ", "ꢀʽꢞ", "ꢀʽꢣ", "ꢀʽꢨ"]
  SignMap := us!["ఽ", "꣎", "꣏"]
  NumeralMap := us!["꣐", "꣑", "꣒", "꣓", "꣔", "꣕", "꣖", "꣗", "꣘", "꣙"]
  Aytham := us!["ꢁʼ"]
  OmMap := us!["ꢐꢀ"]

/-- ScriptMap/MainIndic/Shahmukhi.py -/
def Shahmukhi : Tbl where
  VowelMap := us!["اَ", "آ", "اِ", "اِی", "اُ", "اُو", "رِʽ", "رِیʽ", "لِʽ", "لِیʽ", "ای", "اََی", "او", "اََو"]
  SouthVowelMap := us!["ایʽ", "اوʽ"]
  ModernVowelMap := us!["ایʽ", "آʽ"]
  SinhalaVowelMap := us!["اےʽ"]
  VowelSignMap := us!["ا", "ِ", "ِی", "ُ", "ُو", "ْرِʽ", "ْرِیʽ", "ْلِʽ", "ْلِیʽ", "ی", "ََی", "و", "ََو"]
  SouthVowelSignMap := us!["یʽ", "وʽ"]
  ModernVowelSignMap := us!["یʽ", "اʽ"]
  SinhalaVowelSignMap := us!["یʽ"]
  ViramaMap := us!["ْ"]
  AyogavahaMap := us!["ںʽ", "ں", "ہ"]
  NuktaMap := us!["ʽʽʽʽ"]
  ConsonantMap := us!["کَ", "کھَ", "گَ", "گھَ", "نʽَ", "چَ", "چھَ", "جَ", "جھَ", "نʽَ", "ٹَ", "ٹھَ", "ڈَ", "ڈھَ", "ݨَ", "تَ", "تھَ", "دَ", "دھَ", "نَ", "پَ", "پھَ", "بَ", "بھَ", "مَ", "یَ", "رَ", "لَ", "وَ", "شَ", "شَʽ", "سَ", "ہَ"]
  SouthConsonantMap := us!["ࣇَ", "لʽَ", "رʽَ", "نʽَ"]
  NuktaConsonantMap := us!["قَ", "خَ", "غَ", "زَ", "ڑَ", "ڑھَ", "فَ", "یَʽ"]
  SinhalaConsonantMap := us!["ںگʽَ", "ںجʽَ", "ںڈʽَ", "ںدʽَ", "ںبʽَ"]
  SignMap := us!["ʽʽ", "۔", "۔۔"]
  NumeralMap := us!["۰", "۱", "۲", "۳", "۴", "۵", "۶", "۷", "۸", "۹"]
  Aytham := us!["ہʽ"]
  OmMap := us!["اومْ"]

/-- ScriptMap/MainIndic/Sharada.py -/
def Sharada : Tbl where
  VowelMap := us!["𑆃", "𑆄", "𑆅", "𑆆", "𑆇", "𑆈", "𑆉", "𑆊", "𑆋", "𑆌", "𑆍", "𑆎", "𑆏", "𑆐"]
  SouthVowelMap := us!["𑆍𑇌", "𑆏𑇌"]
  ModernVowelMap := us!["𑆃𑆾𑇋", "𑆃𑆾𑇋𑆳"]
  SinhalaVowelMap := us!["𑆃𑆾𑇋ʽ"]
  VowelSignMap := us!["𑆳", "𑆴", "𑆵", "𑆶", "𑆷", "𑆸", "𑆹", "𑆺", "𑆻", "𑆼", "𑆽", "𑆾", "𑆿"]
  SouthVowelSignMap := us!["𑆼𑇌", "𑆾𑇌"]
  ModernVowelSignMap := us!["𑆾𑇋", "𑆾𑇋𑆳"]
  SinhalaVowelSignMap := us!["𑆾𑇋ʽ"]
  ViramaMap := us!["𑇀"]
  AyogavahaMap := us!["𑆀", "𑆁", "𑆂"]
  NuktaMap := us!["𑇊"]
  ConsonantMap := us!["𑆑", "𑆒", "𑆓", "𑆔", "𑆕", "𑆖", "𑆗", "𑆘", "𑆙", "𑆚", "𑆛", "𑆜", "𑆝", "𑆞", "𑆟", "𑆠", "𑆡", "𑆢", "𑆣", "𑆤", "𑆥", "𑆦", "𑆧", "𑆨", "𑆩", "𑆪", "𑆫", "𑆬", "𑆮", "𑆯", "𑆰", "𑆱", "𑆲"]
  SouthConsonantMap := us!["𑆭", "𑆭𑇊", "𑆫𑇊", "𑆤𑇊"]
  NuktaConsonantMap := us!["𑆑𑇊", "𑆒𑇊", "𑆓𑇊", "𑆘𑇊", "𑆝𑇊", "𑆞𑇊", "𑆦𑇊", "𑆪𑇊"]
  SinhalaConsonantMap := us!["𑆀ʽ𑆓", "𑆀ʽ𑆘", "𑆀ʽ𑆝", "𑆀ʽ𑆢", "𑆀ʽ𑆧"]
  SignMap := us!["𑇁", "𑇅", "𑇆"]
  NumeralMap := us!["𑇐", "𑇑", "𑇒", "𑇓", "𑇔", "𑇕", "𑇖", "𑇗", "𑇘", "𑇙"]
  Aytham := us!["𑆂ʽ"]
  OmMap := us!["𑆏𑆀"]

/-- ScriptMap/MainIndic/SiddhamDevanagari.py -/
def SiddhamDevanagari : Tbl where
  VowelMap := us!["अ", "आ", "इ", "ई", "उ", "ऊ", "ऋ", "ॠ", "ऌ", "ॡ", "ए", "ऐ", "ओ", "औ"]
  SouthVowelMap := us!["एʽ", "ओʽ"]
  ModernVowelMap := us!["एʽ", "आʽ"]
  SinhalaVowelMap := us!["एʽ"]
  VowelSignMap := us!["ा", "ि", "ी", "ु", "ू", "ृ", "ॄ", "ॢ", "ॣ", "े", "ै", "ो", "ौ"]
  SouthVowelSignMap := us!["ेʽ", "ोʽ"]
  ModernVowelSignMap := us!["ेʽ", "ाʽ"]
  SinhalaVowelSignMap := us!["ेʽ"]
  ViramaMap := us!["्"]
  AyogavahaMap := us!["ँ", "ं", "ः"]
  NuktaMap := us!["़"]
  ConsonantMap := us!["क", "ख", "ग", "घ", "ङ", "च", "छ", "ज", "झ", "ञ", "ट", "ठ", "ड", "ढ", "ण", "त", "थ", "द", "ध", "न", "प", "फ", "ब", "भ", "म", "य", "र", "ल", "व", "श", "ष", "स", "ह"]
  SouthConsonantMap := us!["ल़", "ष़", "ऱ", "ऩ"]
  NuktaConsonantMap := us!["क़", "ख़", "ग़", "ज़", "ड़", "ढ़", "फ़", "य़"]
  SinhalaConsonantMap := us!["ँʽग", "ँʽज", "ँʽड", "ँʽद", "ँʽब"]
  SignMap := us!["ऽ", "।", "॥"]
  NumeralMap := us!["०", "१", "२", "३", "४", "५", "६", "७", "८", "९"]
  Aytham := us!["ःʽ"]
  OmMap := us!["ॐ"]

/-- ScriptMap/MainIndic/Sinhala.py -/
def Sinhala : Tbl where
  VowelMap := us!["අ", "ආ", "ඉ", "ඊ", "උ", "ඌ", "ඍ", "ඎ", "ඏ", "ඐ", "ඒ", "ඓ", "ඕ", "ඖ"]
  SouthVowelMap := us!["එ", "ඔ"]
  ModernVowelMap := us!["ඇ", "ආʼ"]
  SinhalaVowelMap := us!["ඈ"]
  VowelSignMap := us!["ා", "ි", "ී", "ු", "ූ", "ෘ", "ෲ", "ෟ", "ෳ", "ේ", "ෛ", "ෝ", "ෞ"]
  SouthVowelSignMap := us!["ෙ", "ො"]
  ModernVowelSignMap := us!["ැ", "ාʼ"]
  SinhalaVowelSignMap := us!["ෑ"]
  ViramaMap := us!["්"]
  AyogavahaMap := us!["ඁ", "ං", "ඃ"]
  NuktaMap := us!["·"]
  ConsonantMap := us!["ක", "ඛ", "ග", "ඝ", "ඞ", "ච", "ඡ", "ජ", "ඣ", "ඤ", "ට", "ඨ", "ඩ", "ඪ", "ණ", "ත", "ථ", "ද", "ධ", "න", "ප", "ඵ", "බ", "භ", "ම", "ය", "ර", "ල", "ව", "ශ", "ෂ", "ස", "හ"]
  SouthConsonantMap := us!["ළ", "ළ·", "ර·", "න·"]
  NuktaConsonantMap := us!["ක·", "ඛ·", "ග·", "ජ·", "ඩ·", "ඪ·", "ෆ", "ය·"]
  SinhalaConsonantMap := us!["ඟ", "ඦ", "ඬ", "ඳ", "ඹ"]
  SignMap := us!["(අ)", ".", ".."]
  NumeralMap := us!["෦", "෧", "෨", "෩", "෪", "෫", "෬", "෭", "෮", "෯"]
  Aytham := us!["ඃʼ"]
  OmMap := us!["ඕං"]

/-- ScriptMap/MainIndic/SylotiNagri.py -/
def SylotiNagri : Tbl where
  VowelMap := us!["ꠅ", "ꠀ", "ꠁ", "ꠁʽ", "ꠃ", "ꠃʽ", "ꠞꠤʽ", "ꠞꠤʽ", "ꠟꠤʽ", "ꠟꠤʽ", "ꠄ", "ꠅꠂ", "ꠅʽ", "ꠅꠃ"]
  SouthVowelMap := us!["ꠄʽ", "ꠅʽ"]
  ModernVowelMap := us!["ꠄʽ", "ꠀʽ"]
  SinhalaVowelMap := us!["ꠄʽ"]
  VowelSignMap := us!["ꠣ", "ꠤ", "ꠤʽ", "ꠥ", "ꠥʽ", "꠆ꠞꠤʽ", "꠆ꠞꠤʽ", "꠆ꠟꠤʽ", "꠆ꠟꠤʽ", "ꠦ", "ꠂ", "ꠧ", "ꠃʽʽ"]
  SouthVowelSignMap := us!["ꠦʽ", "ꠧʽ"]
  ModernVowelSignMap := us!["ꠦʽ", "ꠣʽ"]
  SinhalaVowelSignMap := us!["ꠦʽ"]
  ViramaMap := us!["꠆"]
  AyogavahaMap := us!["ꠋʽ", "ꠋ", "ꠢ꠆ʽ"]
  NuktaMap := us!["ʽʽʽ"]
  ConsonantMap := us!["ꠇ", "ꠈ", "ꠉ", "ꠊ", "ꠘʽ", "ꠌ", "ꠍ", "ꠎ", "ꠏ", "ꠘʽ", "ꠐ", "ꠑ", "ꠒ", "ꠓ", "ꠘʽ", "ꠔ", "ꠕ", "ꠖ", "ꠗ", "ꠘ", "ꠙ", "ꠚ", "ꠛ", "ꠜ", "ꠝ", "ꠎʽ", "ꠞ", "ꠟ", "ꠛʽ", "ꠡʽ", "ꠡʽ", "ꠡ", "ꠢ"]
  SouthConsonantMap := us!["ꠟʽ", "ꠟʽ", "ꠞʽ", "ꠘʽ"]
  NuktaConsonantMap := us!["ꠇʽ", "ꠈʽ", "ꠉʽ", "ꠎʽ", "ꠠ", "ꠓʽ", "ꠚʽ", "ꠎʽ"]
  SinhalaConsonantMap := us!["ꠋꠉʽ", "ꠋꠎʽ", "ꠋꠒʽ", "ꠋꠖʽ", "ꠋꠛʽ"]
  SignMap := us!["ঽ", "।", "॥"]
  NumeralMap := us!["০", "১", "২", "৩", "৪", "৫", "৬", "৭", "৮", "৯"]
  Aytham := us!["ꠢ꠆ʽʽ"]
  OmMap := us!["ꠅꠋ"]

/-- ScriptMap/MainIndic/Takri.py -/
def Takri : Tbl where
  VowelMap := us!["𑚀", "𑚁", "𑚂", "𑚃", "𑚄", "𑚅", "𑚤𑚮ʽ", "𑚤𑚯ʽ", "𑚥𑚮ʽ", "𑚥𑚯ʽ", "𑚆", "𑚇", "𑚈", "𑚉"]
  SouthVowelMap := us!["𑚆", "𑚈"]
  ModernVowelMap := us!["𑚆ʽ", "𑚁ʽ"]
  SinhalaVowelMap := us!["𑚆ʽ"]
  VowelSignMap := us!["𑚭", "𑚮", "𑚯", "𑚰", "𑚱", "𑚶𑚤𑚮ʽ", "𑚶𑚤𑚯ʽ", "𑚶𑚥𑚮ʽ", "𑚶𑚥𑚯ʽ", "𑚲", "𑚳", "𑚴", "𑚵"]
  SouthVowelSignMap := us!["𑚳ʽ", "𑚴ʽ"]
  ModernVowelSignMap := us!["𑚳ʽ", "𑚭ʽ"]
  SinhalaVowelSignMap := us!["𑚳ʽ"]
  ViramaMap := us!["𑚶"]
  AyogavahaMap := us!["𑚫ʽ", "𑚫", "𑚬"]
  NuktaMap := us!["𑚷"]
  ConsonantMap := us!["𑚊", "𑚸", "𑚌", "𑚍", "𑚎", "𑚏", "𑚐", "𑚑", "𑚒", "𑚓", "𑚔", "𑚕", "𑚖", "𑚗", "𑚘", "𑚙", "𑚚", "𑚛", "𑚜", "𑚝", "𑚞", "𑚟", "𑚠", "𑚡", "𑚢", "𑚣", "𑚤", "𑚥", "𑚦", "𑚧", "𑚋", "𑚨", "𑚩"]
  SouthConsonantMap := us!["𑚥𑚷", "𑚥𑚷ʽ", "𑚤𑚷", "𑚝𑚷"]
  NuktaConsonantMap := us!["𑚊𑚷", "𑚋𑚷", "𑚌𑚷", "𑚑𑚷", "𑚪", "𑚗𑚷", "𑚟𑚷", "𑚣𑚷"]
  SinhalaConsonantMap := us!["𑚫𑚌ʽ", "𑚫𑚑ʽ", "𑚫𑚖ʽ", "𑚫𑚛ʽ", "𑚫𑚠ʽ"]
  SignMap := us!["ऽ", "।", "॥"]
  NumeralMap := us!["𑛀", "𑛁", "𑛂", "𑛃", "𑛄", "𑛅", "𑛆", "𑛇", "𑛈", "𑛉"]
  Aytham := us!["𑚬ʽ"]
  OmMap := us!["𑚈𑚫"]

/-- ScriptMap/MainIndic/Tamil.py -/
def Tamil : Tbl where
  VowelMap := us!["அ", "ஆ", "இ", "ஈ", "உ", "ஊ", "ருʼ", "ரூʼ", "லுʼ", "லூʼ", "ஏ", "ஐ", "ஓ", "ஔ"]
  SouthVowelMap := us!["எ", "ஒ"]
  ModernVowelMap := us!["எʼ", "ஆʼ"]
  SinhalaVowelMap := us!["ஏˇ"]
  VowelSignMap := us!["ா", "ி", "ீ", "ு", "ூ", "்ருʼ", "்ரூʼ", "்லுʼ", "்லூʼ", "ே", "ை", "ோ", "ௌ"]
  SouthVowelSignMap := us!["ெ", "ொ"]
  ModernVowelSignMap := us!["ெʼ", "ாʼ"]
  SinhalaVowelSignMap := us!["ேˇ"]
  ViramaMap := us!["்"]
  AyogavahaMap := us!["ம்ˮ", "ம்ʼ", "꞉"]
  NuktaMap := us!["·"]
  ConsonantMap := us!["க", "க²", "க³", "க⁴", "ங", "ச", "ச²", "ஜ", "ஜ²", "ஞ", "ட", "ட²", "ட³", "ட⁴", "ண", "த", "த²", "த³", "த⁴", "ந", "ப", "ப²", "ப³", "ப⁴", "ம", "ய", "ர", "ல", "வ", "ஶ", "ஷ", "ஸ", "ஹ"]
  SouthConsonantMap := us!["ள", "ழ", "ற", "ன"]
  NuktaConsonantMap := us!["ஃʼக", "ஃக²", "ஃக³", "ஃஜ", "ஃட²", "ஃட³", "ஃப", "ஃய"]
  SinhalaConsonantMap := us!["ங்ˆக³", "ஞ்ˆஜ³", "ண்ˆட³", "ந்ˆத³", "ம்ˆப³"]
  SignMap := us!["(அ)", "।", "॥"]
  NumeralMap := us!["௦", "௧", "௨", "௩", "௪", "௫", "௬", "௭", "௮", "௯"]
  Aytham := us!["ஃ"]
  OmMap := us!["ௐ"]

/-- ScriptMap/MainIndic/TamilBrahmi.py -/
def TamilBrahmi : Tbl where
  VowelMap := us!["𑀅", "𑀆", "𑀇", "𑀈", "𑀉", "𑀊", "𑀭𑀼ʽ", "𑀭𑀽ʽ", "𑀮𑀼ʽ", "𑀮𑀽ʽ", "𑀏", "𑀐", "𑀑", "𑀒"]
  SouthVowelMap := us!["𑀏𑁆", "𑀑𑁆"]
  ModernVowelMap := us!["𑀏𑁆ʽ", "𑀆ʽ"]
  SinhalaVowelMap := us!["𑀏ʽ"]
  VowelSignMap := us!["𑀸", "𑀺", "𑀻", "𑀼", "𑀽", "𑁆𑀭𑀼ʽ", "𑁆𑀭𑀽ʽ", "𑁆𑀮𑀼ʽ", "𑁆𑀮𑀽ʽ", "𑁂", "𑁃", "𑁄", "𑁅"]
  SouthVowelSignMap := us!["𑁂𑁆", "𑁄𑁆"]
  ModernVowelSignMap := us!["𑁂𑁆ʽ", "𑀸ʽ"]
  SinhalaVowelSignMap := us!["𑁂ʽ"]
  ViramaMap := us!["𑁆"]
  AyogavahaMap := us!["𑀫𑁆ʽ", "𑀫𑁆ʽ", "𑀂ʽ"]
  NuktaMap := us!["ʽʽʽʽ"]
  ConsonantMap := us!["𑀓", "𑀓ʽ", "𑀓ʽ", "𑀓ʽ", "𑀗", "𑀘", "𑀘ʽ", "𑀚", "𑀚ʽ", "𑀜", "𑀝", "𑀝ʽ", "𑀝ʽ", "𑀝ʽ", "𑀡", "𑀢", "𑀢ʽ", "𑀢ʽ", "𑀥", "𑀦", "𑀧", "𑀧ʽ", "𑀧ʽ", "𑀧ʽ", "𑀫", "𑀬", "𑀭", "𑀮", "𑀯", "𑀰", "𑀱", "𑀲", "𑀳"]
  SouthConsonantMap := us!["𑀴", "𑀵", "𑀶", "𑀷"]
  NuktaConsonantMap := us!["𑀓ʽ", "𑀓ʽ", "𑀓ʽ", "𑀚ʽ", "𑀝ʽ", "𑀝ʽ", "𑀧ʽ", "𑀬ʽ"]
  SinhalaConsonantMap := us!["𑀗𑁆𑀓ʽ", "𑀜𑁆𑀚ʽ", "𑀡𑁆𑀝ʽ", "𑀦𑁆𑀢ʽ", "𑀫𑁆𑀧ʽ"]
  SignMap := us!["'", ".", ".."]
  NumeralMap := us!["0", "1", "2", "3", "4", "5", "6", "7", "8", "9"]
  Aytham := us!["𑀂"]
  OmMap := us!["𑀑𑀫𑁆"]

/-- ScriptMap/MainIndic/TamilExtended.py -/
def TamilExtended : Tbl where
  VowelMap := us!["അ", "ആ", "ഇ", "ഈ", "ഉ", "ഊ", "ഋ", "ൠ", "ഌ", "ൡ", "ഏ", "ഐ", "ഓ", "ഔ"]
  SouthVowelMap := us!["എ", "ഒ"]
  ModernVowelMap := us!["എʼ", "ആʼ"]
  SinhalaVowelMap := us!["ഏˇ"]
  VowelSignMap := us!["ാ", "ി", "ീ", "ു", "ൂ", "ൃ", "ൄ", "ൢ", "ൣ", "േ", "ൈ", "ോ", "ൗ"]
  SouthVowelSignMap := us!["െ", "ൊ"]
  ModernVowelSignMap := us!["െʼ", "ാʼ"]
  SinhalaVowelSignMap := us!["േˇ"]
  ViramaMap := us!["്\u200c"]
  AyogavahaMap := us!["ഁ", "ം", "ഃ"]
  NuktaMap := us!["·"]
  ConsonantMap := us!["ക", "ഖ", "ഗ", "ഘ", "ങ", "ച", "ഛ", "ജ", "ഝ", "ഞ", "ട", "ഠ", "ഡ", "ഢ", "ണ", "ത", "ഥ", "ദ", "ധ", "ന", "പ", "ഫ", "ബ", "ഭ", "മ", "യ", "ര", "ല", "വ", "ശ", "ഷ", "സ", "ഹ"]
  SouthConsonantMap := us!["ള", "ഴ", "റ", "ഩ"]
  NuktaConsonantMap := us!["ക·", "ഖ·", "ഗ·", "ജ·", "ഡ·", "ഢ·", "ഫ·", "യ·"]
  SinhalaConsonantMap := us!["ംˆഗ", "ംˆജ", "ംˆഡ", "ംˆദ", "ംˆബ"]
  SignMap := us!["ഽ", ".", ".."]
  NumeralMap := us!["0", "1", "2", "3", "4", "5", "6", "7", "8", "9"]
  Aytham := us!["ஃ"]
  OmMap := us!["ௐ"]

/-- ScriptMap/MainIndic/TamilGrantha.py -/
def TamilGrantha : Tbl where
  VowelMap := us!["அ", "ஆ", "இ", "ஈ", "உ", "ஊ", "ঋ", "ৠ", "ঌ", "ৡ", "ஏ", "ஐ", "ஓ", "ஔ"]
  SouthVowelMap := us!["எ", "ஒ"]
  ModernVowelMap := us!["எʼ", "ஆʼ"]
  SinhalaVowelMap := us!["ஏˇ"]
  VowelSignMap := us!["ா", "ி", "ீ", "ு", "ூ", "ৃ", "ৄ", "ৢ", "ৣ", "ே", "ை", "ோ", "ௌ"]
  SouthVowelSignMap := us!["ெ", "ொ"]
  ModernVowelSignMap := us!["ெʼ", "ாʼ"]
  SinhalaVowelSignMap := us!["ேˇ"]
  ViramaMap := us!["்"]
  AyogavahaMap := us!["ঁ", "ং", "ঃ"]
  NuktaMap := us!["়"]
  ConsonantMap := us!["க", "খ", "গ", "ঘ", "ங", "ச", "ছ", "ஜ", "ঝ", "ஞ", "ட", "ঠ", "ড", "ঢ", "ண", "த", "থ", "দ", "ধ", "ந", "ப", "ফ", "ব", "ভ", "ம", "ய", "ர", "ல", "வ", "ஶ", "ஷ", "ஸ", "ஹ"]
  SouthConsonantMap := us!["ள", "ழ", "ற", "ன"]
  NuktaConsonantMap := us!["க়", "খ়", "গ়", "ஜ়", "ড়", "ঢ়", "ফ়", "ய়"]
  SinhalaConsonantMap := us!["ங்ˆগ", "ஞ்ˆஜ", "ண்ˆড", "ந்ˆদ", "ம்ˆব"]
  SignMap := us!["ঽ", "।", "॥"]
  NumeralMap := us!["০", "১", "২", "৩", "৪", "৫", "৬", "৭", "৮", "৯"]
  Aytham := us!["ঃʼ"]
  OmMap := us!["ௐ"]

/-- ScriptMap/MainIndic/Telugu.py -/
def Telugu : Tbl where
  VowelMap := us!["అ", "ఆ", "ఇ", "ఈ", "ఉ", "ఊ", "ఋ", "ౠ", "ఌ", "ౡ", "ఏ", "ఐ", "ఓ", "ఔ"]
  SouthVowelMap := us!["ఎ", "ఒ"]
  ModernVowelMap := us!["ఎ॒\u200b", "ఒ॒\u200b"]
  SinhalaVowelMap := us!["ఏ॒\u200b"]
  VowelSignMap := us!["ా", "ి", "ీ", "ు", "ూ", "ృ", "ౄ", "ౢ", "ౣ", "ే", "ై", "ో", "ౌ"]
  SouthVowelSignMap := us!["ె", "ొ"]
  ModernVowelSignMap := us!["ె॒\u200b", "ొ॒\u200b"]
  SinhalaVowelSignMap := us!["ే॒\u200b"]
  ViramaMap := us!["్"]
  AyogavahaMap := us!["ఀ", "ం", "ః"]
  NuktaMap := us!["఼"]
  ConsonantMap := us!["క", "ఖ", "గ", "ఘ", "ఙ", "చ", "ఛ", "జ", "ఝ", "ఞ", "ట", "ఠ", "డ", "ఢ", "ణ", "త", "థ", "ద", "ధ", "న", "ప", "ఫ", "బ", "భ", "మ", "య", "ర", "ల", "వ", "శ", "ష", "స", "హ"]
  SouthConsonantMap := us!["ళ", "ఴ", "ఱ", "న఼"]
  NuktaConsonantMap := us!["క఼", "ఖ఼", "గ఼", "జ఼", "డ఼", "ఢ఼", "ఫ఼", "య఼"]
  SinhalaConsonantMap := us!["ఁˆగ", "ఁˆజ", "ఁˆడ", "ఁˆద", "ఁˆబ"]
  SignMap := us!["ఽ", "।", "॥"]
  NumeralMap := us!["౦", "౧", "౨", "౩", "౪", "౫", "౬", "౭", "౮", "౯"]
  Aytham := us!["ఃʼ"]
  OmMap := us!["ఓం"]

/-- ScriptMap/MainIndic/Tirhuta.py -/
def Tirhuta : Tbl where
  VowelMap := us!["𑒁", "𑒂", "𑒃", "𑒄", "𑒅", "𑒆", "𑒇", "𑒈", "𑒉", "𑒊", "𑒋", "𑒌", "𑒍", "𑒎"]
  SouthVowelMap := us!["𑒁𑒺", "𑒁𑒽"]
  ModernVowelMap := us!["𑒋ʽ", "𑒂ʽ"]
  SinhalaVowelMap := us!["𑒋ʽ"]
  VowelSignMap := us!["𑒰", "𑒱", "𑒲", "𑒳", "𑒴", "𑒵", "𑒶", "𑒷", "𑒸", "𑒹", "𑒻", "𑒼", "𑒾"]
  SouthVowelSignMap := us!["𑒺", "𑒽"]
  ModernVowelSignMap := us!["𑒹ʽ", "𑒰ʽ"]
  SinhalaVowelSignMap := us!["𑒹ʽ"]
  ViramaMap := us!["𑓂"]
  AyogavahaMap := us!["𑒿", "𑓀", "𑓁"]
  NuktaMap := us!["𑓃"]
  ConsonantMap := us!["𑒏", "𑒐", "𑒑", "𑒒", "𑒓", "𑒔", "𑒕", "𑒖", "𑒗", "𑒘", "𑒙", "𑒚", "𑒛", "𑒜", "𑒝", "𑒞", "𑒟", "𑒠", "𑒡", "𑒢", "𑒣", "𑒤", "𑒥", "𑒦", "𑒧", "𑒨", "𑒩", "𑒪", "𑒫", "𑒬", "𑒭", "𑒮", "𑒯"]
  SouthConsonantMap := us!["𑒝𑓃", "𑒭𑓃", "𑒩ʽ", "𑒪𑓃"]
  NuktaConsonantMap := us!["𑒏𑓃", "𑒐𑓃", "𑒑𑓃", "𑒖𑓃", "𑒛𑓃", "𑒜𑓃", "𑒤𑓃", "𑒨𑓃"]
  SinhalaConsonantMap := us!["𑒿𑒑ʽ", "𑒿𑒖ʽ", "𑒿𑒛ʽ", "𑒿𑒠ʽ", "𑒿𑒥ʽ"]
  SignMap := us!["𑓄", "।", "॥"]
  NumeralMap := us!["𑓐", "𑓑", "𑓒", "𑓓", "𑓔", "𑓕", "𑓖", "𑓗", "𑓘", "𑓙"]
  Aytham := us!["𑓁ʽ"]
  OmMap := us!["𑓇"]

/-- ScriptMap/MainIndic/Urdu.py -/
def Urdu : Tbl where
  VowelMap := us!["اَ", "آ", "اِ", "اِی", "اُ", "اُو", "رِʽ", "رِیʽ", "لِʽ", "لِیʽ", "ای", "اََی", "او", "اََو"]
  SouthVowelMap := us!["ایʽ", "اوʽ"]
  ModernVowelMap := us!["ایʽ", "آʽ"]
  SinhalaVowelMap := us!["اےʽ"]
  VowelSignMap := us!["ا", "ِ", "ِی", "ُ", "ُو", "ْرِʽ", "ْرِیʽ", "ْلِʽ", "ْلِیʽ", "ی", "ََی", "و", "ََو"]
  SouthVowelSignMap := us!["یʽ", "وʽ"]
  ModernVowelSignMap := us!["یʽ", "اʽ"]
  SinhalaVowelSignMap := us!["یʽ"]
  ViramaMap := us!["ْ"]
  AyogavahaMap := us!["ںʽ", "ں", "ہ"]
  NuktaMap := us!["ʽʽʽʽ"]
  ConsonantMap := us!["کَ", "کھَ", "گَ", "گھَ", "نʽَ", "چَ", "چھَ", "جَ", "جھَ", "نʽَ", "ٹَ", "ٹھَ", "ڈَ", "ڈھَ", "نʽَ", "تَ", "تھَ", "دَ", "دھَ", "نَ", "پَ", "پھَ", "بَ", "بھَ", "مَ", "یَ", "رَ", "لَ", "وَ", "شَ", "شَʽ", "سَ", "ہَ"]
  SouthConsonantMap := us!["لʽَ", "لʽَ", "رʽَ", "نʽَ"]
  NuktaConsonantMap := us!["قَ", "خَ", "غَ", "زَ", "ڑَ", "ڑھَ", "فَ", "یَʽ"]
  SinhalaConsonantMap := us!["ںگʽَ", "ںجʽَ", "ںڈʽَ", "ںدʽَ", "ںبʽَ"]
  SignMap := us!["ʽʽ", "۔", "۔۔"]
  NumeralMap := us!["۰", "۱", "۲", "۳", "۴", "۵", "۶", "۷", "۸", "۹"]
  Aytham := us!["ہʽ"]
  OmMap := us!["اومْ"]

/-- ScriptMap/MainIndic/Vatteluttu.py -/
def Vatteluttu : Tbl where
  VowelMap := us!["அ", "ஆ", "இ", "ஈ", "உ", "ஊ", "ருʽ", "ரூʽ", "லுʽ", "லூʽ", "ஏ", "ஐ", "ஓ", "ஔ"]
  SouthVowelMap := us!["எ", "ஒ"]
  ModernVowelMap := us!["எʽ", "ஆʽ"]
  SinhalaVowelMap := us!["ஏʽ"]
  VowelSignMap := us!["ா", "ி", "ீ", "ு", "ூ", "்ருʽ", "்ரூʽ", "்லுʽ", "்லூʽ", "ே", "ை", "ோ", "ௌ"]
  SouthVowelSignMap := us!["ெ", "ொ"]
  ModernVowelSignMap := us!["ெʽ", "ாʽ"]
  SinhalaVowelSignMap := us!["ேʽ"]
  ViramaMap := us!["்"]
  AyogavahaMap := us!["ம்ʽ", "ம்ʽ", "꞉"]
  NuktaMap := us!["ʽʽ"]
  ConsonantMap := us!["க", "கʽ", "கʽ", "கʽ", "ங", "ச", "சʽ", "சʽ", "சʽ", "ஞ", "ட", "டʽ", "டʽ", "டʽ", "ண", "த", "தʽ", "தʽ", "தʽ", "ந", "ப", "பʽ", "பʽ", "பʽ", "ம", "ய", "ர", "ல", "வ", "சʽ", "சʽ", "சʽ", "கʽ"]
  SouthConsonantMap := us!["ள", "ழ", "ற", "ன"]
  NuktaConsonantMap := us!["ʽக", "ʽக", "ʽக", "ʽச", "ʽட", "ʽட", "ʽப", "ʽய"]
  SinhalaConsonantMap := us!["ங்ʽக", "ஞ்ʽச", "ண்ʽட", "ந்ʽத", "ம்ʽப"]
  SignMap := us!["ʽʽ", ".", ".."]
  NumeralMap := us!["0", "1", "2", "3", "4", "5", "6", "7", "8", "9"]
  Aytham := us!["ஃ"]
  OmMap := us!["ஓம்"]

/-- ScriptMap/EastIndic/Balinese.py -/
def Balinese : Tbl where
  VowelMap := us!["ᬅ", "ᬆ", "ᬇ", "ᬈ", "ᬉ", "ᬊ", "ᬋ", "ᬌ", "ᬍ", "ᬎ", "ᬏ", "ᬐ", "ᬑ", "ᬒ"]
  SouthVowelMap := us!["ᬏʽ", "ᬑʽ"]
  ModernVowelMap := us!["ᬅᭂ", "ᬆʽ"]
  SinhalaVowelMap := us!["ᬅᭃ"]
  VowelSignMap := us!["ᬵ", "ᬶ", "ᬷ", "ᬸ", "ᬹ", "ᬺ", "ᬻ", "ᬼ", "ᬽ", "ᬾ", "ᬿ", "ᭀ", "ᭁ"]
  SouthVowelSignMap := us!["ᬾʽ", "ᭀʽ"]
  ModernVowelSignMap := us!["ᭂ", "ᬵʽ"]
  SinhalaVowelSignMap := us!["ᭃ"]
  ViramaMap := us!["᭄"]
  AyogavahaMap := us!["ᬁ", "ᬂ", "ᬄ"]
  NuktaMap := us!["᬴"]
  ConsonantMap := us!["ᬓ", "ᬔ", "ᬕ", "ᬖ", "ᬗ", "ᬘ", "ᬙ", "ᬚ", "ᬛ", "ᬜ", "ᬝ", "ᬞ", "ᬟ", "ᬠ", "ᬡ", "ᬢ", "ᬣ", "ᬤ", "ᬥ", "ᬦ", "ᬧ", "ᬨ", "ᬩ", "ᬪ", "ᬫ", "ᬬ", "ᬭ", "ᬮ", "ᬯ", "ᬰ", "ᬱ", "ᬲ", "ᬳ"]
  SouthConsonantMap := us!["ᬮ᬴", "ᬱ᬴", "ᬭ᬴", "ᬦ᬴"]
  NuktaConsonantMap := us!["ᬓ᬴", "ᬔ᬴", "ᬕ᬴", "ᬚ᬴", "ᬟ᬴", "ᬠ᬴", "ᬧ᬴", "ᬬ᬴"]
  SinhalaConsonantMap := us!["ᬁᬕʽ", "ᬁᬚʽ", "ᬁᬟʽ", "ᬁᬤʽ", "ᬁᬩʽ"]
  SignMap := us!["'", "᭞", "᭟"]
  NumeralMap := us!["᭐", "᭑", "᭒", "᭓", "᭔", "᭕", "᭖", "᭗", "᭘", "᭙"]
  Aytham := us!["ᬄʽ"]
  OmMap := us!["ᬒᬁ"]

end Verif.Base
