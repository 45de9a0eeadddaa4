import Verif.Spec.Core

/-!
# Core letters and forbidden sequences

Found by a search (`tools/core_search.txt`), checked by the kernel in `Verif.Lib.Checks.Core*`.
-/

namespace Verif

def coreDivesAkuru : CoreEntry where
  script := u! "DivesAkuru"
  letters := u! "𑥆𑤼𑤻𑥃𑤽𑤰𑤱𑤲𑤳𑤴𑤵𑤷𑤸𑤀𑤁𑤂𑤃𑤄𑤅𑤆𑤉𑤌𑤍𑤎𑤏𑤐𑤑𑤒𑤓𑤕𑤖𑤘𑤙𑤚𑤛𑤜𑤝𑤞𑤟𑤠𑤡𑤢𑤣𑤤𑤥𑤧𑤨𑤩𑤪𑤫𑤬𑤭𑤮𑤯𑥐𑥑𑥒𑥓𑥔𑥕𑥖𑥗𑥘𑥙"
  notPlain := u! ""
  forbid := us!["𑤉𑤼", "𑤧𑤳", "𑤧𑤴", "𑤨𑤳", "𑤨𑤴", "𑤆𑤵", "𑤛𑥃", "𑤮𑥃", "𑤧𑥃", "𑤟𑥃", "𑤌𑥃", "𑤍𑥃", "𑤎𑥃", "𑤘𑥃", "𑤙𑥃", "𑤡𑥃", "𑤥𑥃", "𑤽𑤌", "𑤽𑤍", "𑤽𑤎", "𑤽𑤏", "𑤽𑤐", "𑤽𑤑", "𑤽𑤒", "𑤽𑤓", "𑤽𑤕", "𑤽𑤖", "𑤽𑤘", "𑤽𑤙", "𑤽𑤚", "𑤽𑤛", "𑤽𑤜", "𑤽𑤝", "𑤽𑤞", "𑤽𑤟", "𑤽𑤠", "𑤽𑤡", "𑤽𑤢", "𑤽𑤣", "𑤽𑤤", "𑤽𑤥", "𑤽𑤧", "𑤽𑤨", "𑤽𑤩", "𑤽𑤪", "𑤽𑤫", "𑤽𑤬", "𑤽𑤭", "𑤽𑤮", "𑤽𑤯"]
  natDrop := u! ""
  natForbid := []

def coreTibetanLoC : CoreEntry where
  script := u! "TibetanLoC"
  letters := u! "྅།༎ྃཾཿ྄ཱིེཻོཽུ༹ཨཀཁགགྷངཅཆཇཉཊཋཌཌྷཎཏཐདདྷནཔཕབབྷམཡརལཝཤཥསཧཙཚཛཛྷའཞཟ༠༡༢༣༤༥༦༧༨༩"
  notPlain := u! " ()"
  forbid := us!["ཱི", "ཱུ", "ཨཱ", "ཨི", "ཨུ", "ཨེ", "ཨཻ", "ཨོ", "ཨཽ", "ཏ༹", "ལ༹", "ཥ༹", "ར༹", "ན༹", "ཡ༹", "྄ཀ", "྄ཁ", "྄ག", "྄གྷ", "྄ང", "྄ཅ", "྄ཆ", "྄ཇ", "྄ཉ", "྄ཊ", "྄ཋ", "྄ཌ", "྄ཌྷ", "྄ཎ", "྄ཏ", "྄ཐ", "྄ད", "྄དྷ", "྄ན", "྄པ", "྄ཕ", "྄བ", "྄བྷ", "྄མ", "྄ཙ", "྄ཚ", "྄ཛ", "྄ཛྷ", "྄ཝ", "྄ཞ", "྄ཟ", "྄འ", "྄ཡ", "྄ར", "྄ལ", "྄ཤ", "྄ཥ", "྄ས", "྄ཧ", "ཛྷ༹"]
  natDrop := u! ""
  natForbid := []

def coreGurmukhiLoC : CoreEntry where
  script := u! "GurmukhiLoC"
  letters := u! "ੰਂਃ਼੍ਾਿੀੁੂੇੈੋੌਅਆਇਈਉਊਏਐਓਔਕਖਗਘਙਚਛਜਝਞਟਠਡਢਣਤਥਦਧਨਪਫਬਭਮਯਰਲਵਸ਼ਸਹਖ਼ਗ਼ਜ਼ੜਫ਼"
  notPlain := u! "0123456789"
  forbid := us!["ਲ਼", "ਸ਼", "ਖ਼", "ਗ਼", "ਜ਼", "ਫ਼", "(ਆ)", "(ਅ)", "ਸ਼਼", "ਤ਼", "ਰ਼", "ਨ਼", "ਕ਼", "ੜ੍ਹ", "ਯ਼", "ਕ੍", "ਗ੍", "ਚ੍", "ਜ੍", "ਟ੍", "ਡ੍", "ਤ੍", "ਦ੍", "ਪ੍", "ਬ੍", "ਙ੍", "ਞ੍", "ਣ੍", "ਨ੍", "ਮ੍", "ਯ੍", "ਰ੍", "ਲ੍", "ਵ੍", "ਸ਼੍", "ਸ੍", "ਹ੍", "ਖ਼੍", "ਗ਼੍", "ਜ਼੍", "ੜ੍", "ਫ਼੍"]
  natDrop := u! ""
  natForbid := []

def coreLimbuLoC : CoreEntry where
  script := u! "LimbuLoC"
  letters := u! "᤺ᤲᤠᤡᤢᤣᤤᤥᤦᤧᤨᤀᤁᤂᤃᤄᤅᤆᤇᤈᤉᤊᤋᤌᤍᤎᤏᤐᤑᤒᤓᤔᤕᤖᤗᤘᤙᤚᤛᤜ᥆᥇᥈᥉᥊᥋᥌᥍᥎᥏"
  notPlain := u! "!?"
  forbid := us!["ᤀᤥᤲ", "ᤠ᤺ᤣ", "᤺ᤣ", "ᤠᤣ", "ᤀ᤺", "ᤁ᤺", "ᤂ᤺", "ᤃ᤺", "ᤄ᤺", "ᤅ᤺", "ᤆ᤺", "ᤇ᤺", "ᤈ᤺", "ᤉ᤺", "ᤊ᤺", "ᤋ᤺", "ᤌ᤺", "ᤍ᤺", "ᤎ᤺", "ᤏ᤺", "ᤐ᤺", "ᤑ᤺", "ᤒ᤺", "ᤓ᤺", "ᤔ᤺", "ᤕ᤺", "ᤖ᤺", "ᤗ᤺", "ᤘ᤺", "ᤚ᤺", "ᤛ᤺", "ᤜ᤺", "ᤠ᤺", "ᤣ᤺", "ᤥ᤺", "ᤧ᤺", "ᤨ᤺", "ᤀᤠ", "ᤀᤡ", "ᤀᤢ", "ᤀᤣ", "ᤀᤤ", "ᤀᤥ", "ᤀᤦ", "ᤀᤧ", "ᤀᤨ"]
  natDrop := u! ""
  natForbid := []

def coreThamLoC : CoreEntry where
  script := u! "ThamLoC"
  letters := u! "᪨᪩ᩴᩡ᩵᩶᩷᩸᩹ᩣᩥᩦᩩᩪᩮᩱᩰᩢᩫᩳᩬᩧᩨᩭᩯᩋᩍᩎᩏᩐᩂᩄᩑᩒᨠᨡᨥᨦᨧᨨᨩᨫᨬᨭᨮᨯᨰᨱᨲᨳᨶᨸᨹᨻᨽᨾᨿᩁᩃᩆᩇᩈᩉᨷᨤᨺᨪᩌᩀᩊ᪐᪑᪒᪓᪔᪕᪖᪗᪘᪙"
  notPlain := u! ""
  forbid := us!["ᩒᩴ", "᩺ᩂ", "᩺ᩄ", "ᩰᩬᩡ", "ᩮᩢᩣ", "ᩮᩨᩬ", "ᩮᩨ", "ᩋᩣ", "ᩂᩣ", "ᩄᩣ", "ᩋᩱ", "ᩋᩢ", "ᩋᩫ", "ᩋᩳ", "ᩋᩬ", "ᩋᩧ", "ᩋᩨ", "ᩋᩭ", "ᩋᩯ", "᩺ᩁ", "᩺ᩃ", "ᨦ᩺ᨠ", "ᨦ᩺ᨡ", "ᨦ᩺ᨣ", "ᨦ᩺ᨥ", "ᨦ᩺ᨦ", "ᨦ᩺ᨧ", "ᨦ᩺ᨨ", "ᨦ᩺ᨩ", "ᨦ᩺ᨫ", "ᨦ᩺ᨬ", "ᨦ᩺ᨭ", "ᨦ᩺ᨮ", "ᨦ᩺ᨯ", "ᨦ᩺ᨰ", "ᨦ᩺ᨱ", "ᨦ᩺ᨲ", "ᨦ᩺ᨳ", "ᨦ᩺ᨴ", "ᨦ᩺ᨵ", "ᨦ᩺ᨶ", "ᨦ᩺ᨸ", "ᨦ᩺ᨹ", "ᨦ᩺ᨻ", "ᨦ᩺ᨽ", "ᨦ᩺ᨾ", "ᨦ᩺ᨿ", "ᨦ᩺ᩅ", "ᨦ᩺ᩆ", "ᨦ᩺ᩇ", "ᨦ᩺ᩈ", "ᨦ᩺ᩉ", "ᨦ᩺ᨷ", "ᨦ᩺ᨤ", "ᨦ᩺ᨺ", "ᨦ᩺ᨪ", "ᨦ᩺ᩌ", "ᨦ᩺ᩀ", "ᨦ᩺ᩊ", "᩺ᨠ", "᩺ᨡ", "᩺ᨣ", "᩺ᨥ", "᩺ᨦ", "᩺ᨧ", "᩺ᨨ", "᩺ᨩ", "᩺ᨫ", "᩺ᨬ", "᩺ᨭ", "᩺ᨮ", "᩺ᨯ", "᩺ᨰ", "᩺ᨱ", "᩺ᨲ", "᩺ᨳ", "᩺ᨴ", "᩺ᨵ", "᩺ᨶ", "᩺ᨸ", "᩺ᨹ", "᩺ᨻ", "᩺ᨽ", "᩺ᨾ", "᩺ᨿ", "᩺ᩅ", "᩺ᩆ", "᩺ᩇ", "᩺ᩈ", "᩺ᩉ", "᩺ᨷ", "᩺ᨤ", "᩺ᨺ", "᩺ᨪ", "᩺ᩌ", "᩺ᩀ", "᩺ᩊ"]
  natDrop := u! ""
  natForbid := []

def coreKhmerLoC : CoreEntry where
  script := u! "KhmerLoC"
  letters := u! "ៜ។៕៖ំះ៍៎៏័ៈ់៑ាិីុូេៃោៅឺួើឿៀែឥឦឧឩឫឬឭឮឰឱឳឪឯកខគឃងចឆជឈញដឋឌឍណតថទធនបផពភមយរលវឝឞសហអឡ០១២៣៤៥៦៧៨៩"
  notPlain := u! ""
  forbid := us!["ឱំ", "៑ឫ", "៑ឬ", "៑ឭ", "៑ឮ", "ា់", "៑ក", "៑ខ", "៑គ", "៑ឃ", "៑ង", "៑ច", "៑ឆ", "៑ជ", "៑ឈ", "៑ញ", "៑ដ", "៑ឋ", "៑ឌ", "៑ឍ", "៑ណ", "៑ត", "៑ថ", "៑ទ", "៑ធ", "៑ន", "៑ប", "៑ផ", "៑ព", "៑ភ", "៑ម", "៑យ", "៑រ", "៑ល", "៑វ", "៑ឝ", "៑ឞ", "៑ស", "៑ហ", "៑អ", "៑ឡ", "ិំ"]
  natDrop := u! ""
  natForbid := []

def coreShanLoC : CoreEntry where
  script := u! "ShanLoC"
  letters := u! "၊။႟႞ံးႇႈႉႊ်ႃိီုူေႆွဵႄႅဢၵၶၷꧠငၸꧡꩡꧢၺꩦꩧꩨꩩꧣတထၻꩪၼပၽၿꧤမယရလဝသႁႀꩮၹၾ႐႑႒႓႔႕႖႗႘႙"
  notPlain := u! ""
  forbid := us!["ဢေႃံ", "ေႃ", "ို", "ိူ", "ွႆ", "ူဝ်", "ေေ", "ဢႃ", "ဢိ", "ဢီ", "ဢု", "ဢူ", "ဢေ", "ဢႆ", "ဢွ", "ဢဵ", "ဢႄ", "ဢႅ", "သ်ယ"]
  natDrop := u! ""
  natForbid := []

def coreBengaliRaBa : CoreEntry where
  script := u! "BengaliRaBa"
  letters := u! "ঽঁংঃ়্ািীুূৃৄৢৣেৈোৌঅআইঈউঊঋৠঌৡএঐওঔকখগঘঙচছজঝঞটঠডঢণতথদধনপফৰভমযরলবশষসহড়ঢ়য়০১২৩৪৫৬৭৮৯"
  notPlain := u! ""
  forbid := us!["ওঁ", "ড়", "ঢ়", "য়", "ো", "াে", "ত়", "ল়", "ষ়", "র়", "ন়", "ক়", "খ়", "গ়", "জ়", "ফ়"]
  natDrop := u! ""
  natForbid := []

def coreMakasar : CoreEntry where
  script := u! "Makasar"
  letters := u! "𑻷𑻳𑻴𑻵𑻶𑻱۰۱۲۳۴۵۶۷۸۹"
  notPlain := u! ""
  forbid := us!["𑻱𑻶𑻥ʽ", "𑻷𑻷", "𑻱𑻳", "𑻱𑻴", "𑻱𑻵", "𑻱𑻶"]
  natDrop := u! ""
  natForbid := []

def coreNandinagari : CoreEntry where
  script := u! "Nandinagari"
  letters := u! "𑧡𑧞𑧟𑧠𑧑𑧒𑧓𑧔𑧕𑧖𑧗𑧚𑧛𑧜𑧝𑦠𑦡𑦢𑦣𑦤𑦥𑦦𑦧𑦪𑦫𑦬𑦭𑦮𑦯𑦰𑦱𑦲𑦳𑦴𑦵𑦶𑦷𑦸𑦹𑦺𑦻𑦼𑦽𑦾𑦿𑧀𑧁𑧂𑧃𑧄𑧅𑧆𑧇𑧈𑧉𑧊𑧋𑧌𑧍𑧎𑧏𑧐೦೧೨೩೪೫೬೭೮೯"
  notPlain := u! ""
  forbid := us!["𑦬𑧞"]
  natDrop := u! ""
  natForbid := us!["𑦲𑧠𑦮", "𑦲𑧠𑦯", "𑦲𑧠𑦰", "𑦲𑧠𑦱", "𑦷𑧠𑦳", "𑦷𑧠𑦴", "𑦷𑧠𑦵", "𑦷𑧠𑦶", "𑦼𑧠𑦸", "𑦼𑧠𑦹", "𑦼𑧠𑦺", "𑦼𑧠𑦻", "𑧁𑧠𑦽", "𑧁𑧠𑦾", "𑧁𑧠𑦿", "𑧁𑧠𑧀", "𑧆𑧠𑧂", "𑧆𑧠𑧃", "𑧆𑧠𑧄", "𑧆𑧠𑧅"]

def coreKawi : CoreEntry where
  script := u! "Kawi"
  letters := u! "𑽃𑽄𑼀𑼁𑼃𑽁𑼴𑼶𑼷𑼸𑼹𑼺𑼾𑼿𑽀𑼄𑼅𑼆𑼇𑼈𑼉𑼊𑼋𑼌𑼍𑼎𑼏𑼐𑼒𑼓𑼔𑼕𑼗𑼘𑼙𑼚𑼛𑼝𑼞𑼟𑼠𑼡𑼢𑼣𑼤𑼥𑼧𑼨𑼩𑼪𑼫𑼬𑼭𑼮𑼯𑼰𑼱𑼲𑽐𑽑𑽒𑽓𑽔𑽕𑽖𑽗𑽘𑽙"
  notPlain := u! ""
  forbid := us!["𑼐𑼀", "𑼄𑼴", "𑼆𑼴", "𑼈𑼴", "𑼾𑼾", "𑼾𑼴", "𑼿𑼴", "𑽀𑼴", "𑼐𑼴", "𑼄𑽀", "𑽁𑼒", "𑽁𑼓", "𑽁𑼔", "𑽁𑼕", "𑽁𑼖", "𑽁𑼗", "𑽁𑼘", "𑽁𑼙", "𑽁𑼚", "𑽁𑼛", "𑽁𑼜", "𑽁𑼝", "𑽁𑼞", "𑽁𑼟", "𑽁𑼠", "𑽁𑼡", "𑽁𑼢", "𑽁𑼣", "𑽁𑼤", "𑽁𑼥", "𑽁𑼦", "𑽁𑼧", "𑽁𑼨", "𑽁𑼩", "𑽁𑼪", "𑽁𑼫", "𑽁𑼬", "𑽁𑼭", "𑽁𑼮", "𑽁𑼯", "𑽁𑼰", "𑽁𑼱", "𑽁𑼲"]
  natDrop := u! ""
  natForbid := []

def corePallava : CoreEntry where
  script := u! "Pallava"
  letters := u! "ꦁꦃ꧀ꦴꦶꦷꦸꦹꦺꦻꦄꦆꦇꦈꦌꦍꦎꦏꦑꦒꦓꦔꦕꦖꦗꦙꦚꦛꦜꦝꦞꦟꦠꦡꦢꦣꦤꦥꦦꦧꦨꦩꦪꦫꦭꦮꦯꦰꦱꦲ"
  notPlain := u! "0123456789"
  forbid := us!["ꦎꦁ", "ꦺꦴ", "ꦻꦴ", "ꦄꦴ", "ꦈꦴ", "ꦎꦴ"]
  natDrop := u! ""
  natForbid := []

def coreLaoTham : CoreEntry where
  script := u! "LaoTham"
  letters := u! "᪨᪩ᩴᩡ᩵᩶᩷᩸᩹᩺ᩣᩥᩦᩩᩪᩮᩱᩢᩳᩬᩧᩨᩭᩋᩍᩎᩏᩐᩂᩄᩑᩒᨠᨡᨥᨦᨧᨨᨩᨫᨬᨭᨮᨯᨰᨱᨲᨳᨶᨸᨹᨻᨽᨾᨿᩁᩃᩆᩇᩈᩉᨷᨤᨺᨪᩌᩀᩊ᪐᪑᪒᪓᪔᪕᪖᪗᪘᪙"
  notPlain := u! ""
  forbid := us!["ᩒᩴ", "᩺ᩂ", "᩺ᩄ", "ᩮᩣ", "ᩮᩨᩬ", "ᩮᩨ", "ᩋᩣ", "ᩂᩣ", "ᩄᩣ", "ᩋᩱ", "ᩋᩢ", "ᩋᩳ", "ᩋᩬ", "ᩋᩧ", "ᩋᩨ", "ᩋᩭ", "ᩋᩮᩢᩣ", "᩺ᩁ", "᩺ᩃ", "ᨦ᩺ᨠ", "ᨦ᩺ᨡ", "ᨦ᩺ᨣ", "ᨦ᩺ᨥ", "ᨦ᩺ᨦ", "ᨦ᩺ᨧ", "ᨦ᩺ᨨ", "ᨦ᩺ᨩ", "ᨦ᩺ᨫ", "ᨦ᩺ᨬ", "ᨦ᩺ᨭ", "ᨦ᩺ᨮ", "ᨦ᩺ᨯ", "ᨦ᩺ᨰ", "ᨦ᩺ᨱ", "ᨦ᩺ᨲ", "ᨦ᩺ᨳ", "ᨦ᩺ᨴ", "ᨦ᩺ᨵ", "ᨦ᩺ᨶ", "ᨦ᩺ᨸ", "ᨦ᩺ᨹ", "ᨦ᩺ᨻ", "ᨦ᩺ᨽ", "ᨦ᩺ᨾ", "ᨦ᩺ᨿ", "ᨦ᩺ᩅ", "ᨦ᩺ᩆ", "ᨦ᩺ᩇ", "ᨦ᩺ᩈ", "ᨦ᩺ᩉ", "ᨦ᩺ᨷ", "ᨦ᩺ᨤ", "ᨦ᩺ᨺ", "ᨦ᩺ᨪ", "ᨦ᩺ᩌ", "ᨦ᩺ᩀ", "ᨦ᩺ᩊ", "᩺ᨠ", "᩺ᨡ", "᩺ᨣ", "᩺ᨥ", "᩺ᨦ", "᩺ᨧ", "᩺ᨨ", "᩺ᨩ", "᩺ᨫ", "᩺ᨬ", "᩺ᨭ", "᩺ᨮ", "᩺ᨯ", "᩺ᨰ", "᩺ᨱ", "᩺ᨲ", "᩺ᨳ", "᩺ᨴ", "᩺ᨵ", "᩺ᨶ", "᩺ᨸ", "᩺ᨹ", "᩺ᨻ", "᩺ᨽ", "᩺ᨾ", "᩺ᨿ", "᩺ᩅ", "᩺ᩆ", "᩺ᩇ", "᩺ᩈ", "᩺ᩉ", "᩺ᨷ", "᩺ᨤ", "᩺ᨺ", "᩺ᨪ", "᩺ᩌ", "᩺ᩀ", "᩺ᩊ"]
  natDrop := u! ""
  natForbid := []

def coreLueTham : CoreEntry where
  script := u! "LueTham"
  letters := u! "᪨᪩ᩴᩡ᩵᩶᩷᩸᩹᩺ᩣᩥᩦᩩᩪᩮᩱᩢᩳᩬᩧᩨᩭᩋᩍᩎᩏᩐᩂᩄᩑᩒᨠᨡᨥᨦᨧᨨᨩᨫᨬᨭᨮᨯᨰᨱᨲᨳᨶᨸᨹᨻᨽᨾᨿᩁᩃᩆᩇᩈᩉᨷᨤᨺᨪᩌᩀᩊ᪐᪑᪒᪓᪔᪕᪖᪗᪘᪙"
  notPlain := u! ""
  forbid := us!["ᩒᩴ", "᩺ᩂ", "᩺ᩄ", "ᩮᩣ", "ᩮᩨᩬ", "ᩮᩨ", "ᩋᩣ", "ᩂᩣ", "ᩄᩣ", "ᩋᩱ", "ᩋᩢ", "ᩋᩳ", "ᩋᩬ", "ᩋᩧ", "ᩋᩨ", "ᩋᩭ", "ᩋᩮᩢᩣ", "᩺ᩁ", "᩺ᩃ", "ᨦ᩺ᨠ", "ᨦ᩺ᨡ", "ᨦ᩺ᨣ", "ᨦ᩺ᨥ", "ᨦ᩺ᨦ", "ᨦ᩺ᨧ", "ᨦ᩺ᨨ", "ᨦ᩺ᨩ", "ᨦ᩺ᨫ", "ᨦ᩺ᨬ", "ᨦ᩺ᨭ", "ᨦ᩺ᨮ", "ᨦ᩺ᨯ", "ᨦ᩺ᨰ", "ᨦ᩺ᨱ", "ᨦ᩺ᨲ", "ᨦ᩺ᨳ", "ᨦ᩺ᨴ", "ᨦ᩺ᨵ", "ᨦ᩺ᨶ", "ᨦ᩺ᨸ", "ᨦ᩺ᨹ", "ᨦ᩺ᨻ", "ᨦ᩺ᨽ", "ᨦ᩺ᨾ", "ᨦ᩺ᨿ", "ᨦ᩺ᩅ", "ᨦ᩺ᩆ", "ᨦ᩺ᩇ", "ᨦ᩺ᩈ", "ᨦ᩺ᩉ", "ᨦ᩺ᨷ", "ᨦ᩺ᨤ", "ᨦ᩺ᨺ", "ᨦ᩺ᨪ", "ᨦ᩺ᩌ", "ᨦ᩺ᩀ", "ᨦ᩺ᩊ", "᩺ᨠ", "᩺ᨡ", "᩺ᨣ", "᩺ᨥ", "᩺ᨦ", "᩺ᨧ", "᩺ᨨ", "᩺ᨩ", "᩺ᨫ", "᩺ᨬ", "᩺ᨭ", "᩺ᨮ", "᩺ᨯ", "᩺ᨰ", "᩺ᨱ", "᩺ᨲ", "᩺ᨳ", "᩺ᨴ", "᩺ᨵ", "᩺ᨶ", "᩺ᨸ", "᩺ᨹ", "᩺ᨻ", "᩺ᨽ", "᩺ᨾ", "᩺ᨿ", "᩺ᩅ", "᩺ᩆ", "᩺ᩇ", "᩺ᩈ", "᩺ᩉ", "᩺ᨷ", "᩺ᨤ", "᩺ᨺ", "᩺ᨪ", "᩺ᩌ", "᩺ᩀ", "᩺ᩊ"]
  natDrop := u! ""
  natForbid := []

def coreKhuenTham : CoreEntry where
  script := u! "KhuenTham"
  letters := u! "᪨᪩ᩴᩡ᩵᩶᩷᩸᩹ᩣᩥᩦᩩᩪᩮᩱᩢᩳᩬᩧᩨᩭᩋᩍᩎᩏᩐᩂᩄᩑᩒᨠᨡᨥᨦᨧᨨᨩᨫᨬᨭᨮᨯᨰᨱᨲᨳᨶᨸᨹᨻᨽᨾᨿᩁᩃᩆᩇᩈᩉᨷᨤᨺᨪᩌᩀᩊ᪐᪑᪒᪓᪔᪕᪖᪗᪘᪙"
  notPlain := u! ""
  forbid := us!["ᩒᩴ", "᩺ᩂ", "᩺ᩄ", "ᩮᩣ", "ᩮᩨᩬ", "ᩮᩨ", "ᩋᩣ", "ᩂᩣ", "ᩄᩣ", "ᩋᩱ", "ᩋᩢ", "ᩋᩳ", "ᩋᩬ", "ᩋᩧ", "ᩋᩨ", "ᩋᩭ", "ᩋᩮᩢᩣ", "᩺ᩁ", "᩺ᩃ", "ᨦ᩺ᨠ", "ᨦ᩺ᨡ", "ᨦ᩺ᨣ", "ᨦ᩺ᨥ", "ᨦ᩺ᨦ", "ᨦ᩺ᨧ", "ᨦ᩺ᨨ", "ᨦ᩺ᨩ", "ᨦ᩺ᨫ", "ᨦ᩺ᨬ", "ᨦ᩺ᨭ", "ᨦ᩺ᨮ", "ᨦ᩺ᨯ", "ᨦ᩺ᨰ", "ᨦ᩺ᨱ", "ᨦ᩺ᨲ", "ᨦ᩺ᨳ", "ᨦ᩺ᨴ", "ᨦ᩺ᨵ", "ᨦ᩺ᨶ", "ᨦ᩺ᨸ", "ᨦ᩺ᨹ", "ᨦ᩺ᨻ", "ᨦ᩺ᨽ", "ᨦ᩺ᨾ", "ᨦ᩺ᨿ", "ᨦ᩺ᩅ", "ᨦ᩺ᩆ", "ᨦ᩺ᩇ", "ᨦ᩺ᩈ", "ᨦ᩺ᩉ", "ᨦ᩺ᨷ", "ᨦ᩺ᨤ", "ᨦ᩺ᨺ", "ᨦ᩺ᨪ", "ᨦ᩺ᩌ", "ᨦ᩺ᩀ", "ᨦ᩺ᩊ", "᩺ᨠ", "᩺ᨡ", "᩺ᨣ", "᩺ᨥ", "᩺ᨦ", "᩺ᨧ", "᩺ᨨ", "᩺ᨩ", "᩺ᨫ", "᩺ᨬ", "᩺ᨭ", "᩺ᨮ", "᩺ᨯ", "᩺ᨰ", "᩺ᨱ", "᩺ᨲ", "᩺ᨳ", "᩺ᨴ", "᩺ᨵ", "᩺ᨶ", "᩺ᨸ", "᩺ᨹ", "᩺ᨻ", "᩺ᨽ", "᩺ᨾ", "᩺ᨿ", "᩺ᩅ", "᩺ᩆ", "᩺ᩇ", "᩺ᩈ", "᩺ᩉ", "᩺ᨷ", "᩺ᨤ", "᩺ᨺ", "᩺ᨪ", "᩺ᩌ", "᩺ᩀ", "᩺ᩊ"]
  natDrop := u! ""
  natForbid := []

def coreTamilExtended : CoreEntry where
  script := u! "TamilExtended"
  letters := u! "ஃഽഁംഃാിീുൂൃൄൢൣേൈോെൊഅആഇഈഉഊഋൠഌൡഏഐഓഔഎഒകഖഗഘങചഛജഝഞടഠഡഢണതഥദധനപഫബഭമയരലവശഷസഹളഴറഩ"
  notPlain := u! ".0123456789"
  forbid := us!["ൊ", "ാെ", "ോ", "ാേ"]
  natDrop := u! ""
  natForbid := []

def coreMarchen : CoreEntry where
  script := u! "Marchen"
  letters := u! "𑱱𑲶𑲵𑲰𑲱𑲲𑲳𑲴𑲏𑱲𑱳𑱴𑱵𑲂𑲃𑲄𑱹𑱺𑱻𑱼𑱽𑱾𑱿𑲀𑲁𑲉𑲊𑲋𑲅𑲌𑲍𑲎𑲇༠༡༢༣༤༥༦༧༨༩"
  notPlain := u! ""
  forbid := us!["𑲏𑲴𑲶", "𑱱𑱱", "𑲱𑲰", "𑲲𑲰", "𑲳𑲰", "𑲰𑲴", "𑲏𑲰", "𑲏𑲱", "𑲏𑲲", "𑲏𑲳", "𑲏𑲴"]
  natDrop := u! ""
  natForbid := []

def coreMasaramGondi : CoreEntry where
  script := u! "MasaramGondi"
  letters := u! "𑵀𑵁𑴱𑴲𑴳𑴴𑴵𑴶𑴺𑴼𑴽𑴿𑴀𑴁𑴂𑴃𑴄𑴅𑴆𑴈𑴉𑴋𑴌𑴍𑴎𑴏𑴐𑴑𑴒𑴓𑴔𑴕𑴖𑴗𑴘𑴙𑴚𑴛𑴜𑴝𑴞𑴟𑴠𑴡𑴢𑴣𑴤𑴥𑴦𑴧𑴨𑴩𑴪𑴫𑴬𑴭𑵐𑵑𑵒𑵓𑵔𑵕𑵖𑵗𑵘𑵙"
  notPlain := u! ""
  forbid := us!["𑴉𑵀", "𑴦𑴶", "𑴌𑵅𑴪", "𑴓𑵅𑴕", "𑴛𑵅𑴦", "𑵅𑴦", "𑴦𑵅𑴌", "𑴦𑵅𑴍", "𑴦𑵅𑴎", "𑴦𑵅𑴏", "𑴦𑵅𑴐", "𑴦𑵅𑴑", "𑴦𑵅𑴒", "𑴦𑵅𑴓", "𑴦𑵅𑴔", "𑴦𑵅𑴕", "𑴦𑵅𑴖", "𑴦𑵅𑴗", "𑴦𑵅𑴘", "𑴦𑵅𑴙", "𑴦𑵅𑴚", "𑴦𑵅𑴛", "𑴦𑵅𑴜", "𑴦𑵅𑴝", "𑴦𑵅𑴞", "𑴦𑵅𑴟", "𑴦𑵅𑴠", "𑴦𑵅𑴡", "𑴦𑵅𑴢", "𑴦𑵅𑴣", "𑴦𑵅𑴤", "𑴦𑵅𑴥", "𑴦𑵅𑴧", "𑴦𑵅𑴨", "𑴦𑵅𑴩", "𑴦𑵅𑴪", "𑴦𑵅𑴫", "𑴦𑵅𑴬", "𑴦𑵅𑴭"]
  natDrop := u! ""
  natForbid := []

def coreGunjalaGondi : CoreEntry where
  script := u! "GunjalaGondi"
  letters := u! "𑶕𑶖𑶊𑶋𑶌𑶍𑶎𑶐𑶑𑶓𑶔𑵠𑵡𑵢𑵣𑵤𑵥𑵧𑵨𑵪𑵫𑵱𑵲𑵶𑵷𑶄𑵻𑵼𑶀𑶁𑵽𑵾𑶂𑶃𑵳𑵴𑵸𑵹𑵺𑶅𑶆𑵮𑵯𑵰𑵬𑶈𑵵𑵭𑶉𑶇𑵿𑶠𑶡𑶢𑶣𑶤𑶥𑶦𑶧𑶨𑶩"
  notPlain := u! "."
  forbid := []
  natDrop := u! ""
  natForbid := []

def coreSoyombo : CoreEntry where
  script := u! "Soyombo"
  letters := u! "𑪛𑪜𑪖𑪗𑪄𑪅𑩛𑩑𑩒𑩙𑩚𑩔𑩗𑩖𑩘𑩕𑩐𑩜𑩝𑩞𑩟𑩠𑩵𑩶𑩷𑩤𑩥𑩦𑩧𑩨𑩩𑩪𑩫𑩬𑩭𑩮𑩯𑩰𑩱𑩲𑩳𑩴𑩻𑩼𑩽𑩾𑩿𑪀𑪁𑪂𑩹"
  notPlain := u! "0123456789"
  forbid := us!["𑩐𑩖𑪖", "𑩑𑩛", "𑩒𑩛", "𑩙𑩛", "𑩚𑩛", "𑩐𑩛", "𑩐𑩑", "𑩐𑩒", "𑩐𑩙", "𑩐𑩚", "𑩐𑩔", "𑩐𑩗", "𑩐𑩖", "𑩐𑩘", "𑩐𑩕"]
  natDrop := u! ""
  natForbid := []

def coreDogra : CoreEntry where
  script := u! "Dogra"
  letters := u! "ऽ𑠷𑠸𑠺𑠹𑠬𑠭𑠮𑠯𑠰𑠱𑠲𑠳𑠴𑠵𑠶𑠀𑠁𑠂𑠃𑠄𑠅𑠆𑠇𑠈𑠉𑠊𑠋𑠌𑠍𑠎𑠏𑠐𑠑𑠒𑠓𑠔𑠕𑠖𑠗𑠘𑠙𑠚𑠛𑠜𑠝𑠞𑠟𑠠𑠡𑠢𑠣𑠤𑠥𑠦𑠧𑠨𑠩𑠪𑠫०१२३४५६७८९"
  notPlain := u! ""
  forbid := us!["𑠈𑠷", "𑠙𑠺", "𑠥𑠺", "𑠨𑠺", "𑠤𑠺", "𑠝𑠺", "𑠊𑠺", "𑠋𑠺", "𑠌𑠺", "𑠑𑠺", "𑠗𑠺", "𑠟𑠺", "𑠣𑠺"]
  natDrop := u! ""
  natForbid := []

def coreKhomThai : CoreEntry where
  script := u! "KhomThai"
  letters := u! "ฯ๚ํฺาิีุูแอกขคฆงจฉชฌญฏฐฑฒณตถทธนปผพภมยรลวสหฬ๐๑๒๓๔๕๖๗๘๙"
  notPlain := u! ""
  forbid := us!["อโํ", "ํา", "ฺร", "โก", "โข", "โค", "โฆ", "โง", "โจ", "โฉ", "โช", "โฌ", "โญ", "โฏ", "โฐ", "โฑ", "โฒ", "โณ", "โต", "โถ", "โท", "โธ", "โน", "โป", "โผ", "โพ", "โภ", "โม", "โย", "โร", "โล", "โว", "โส", "โห", "โฬ", "โอ", "แก", "แข", "แค", "แฆ", "แง", "แจ", "แฉ", "แช", "แฌ", "แญ", "แฏ", "แฐ", "แฑ", "แฒ", "แณ", "แต", "แถ", "แท", "แธ", "แน", "แป", "แผ", "แพ", "แภ", "แม", "แย", "แร", "แล", "แว", "แส", "แห", "แฬ", "แอ", "อา", "อิ", "อี", "อุ", "อู", "อโ", "อแ", "กแ", "ขแ", "คแ", "ฆแ", "งแ", "จแ", "ฉแ", "ชแ", "ฌแ", "ญแ", "ฏแ", "ฐแ", "ฑแ", "ฒแ", "ณแ", "ตแ", "ถแ", "ทแ", "ธแ", "นแ", "ปแ", "ผแ", "พแ", "ภแ", "มแ", "ยแ", "รแ", "ลแ", "วแ", "สแ", "หแ", "ฬแ", "าํ", "ิํ"]
  natDrop := u! ""
  natForbid := []

def coreKhamtiShan : CoreEntry where
  script := u! "KhamtiShan"
  letters := u! "၊။ံး်ႃိီုူေႆႄဢကၵꩠၷငꩡꩢꩣꩤꩥꩦꩧꩨꩩꧣတထၻꩪꩫပၸၿၹမယရလဝꩬꩭꩮꩱꩲꩯ႐႑႒႓႔႕႖႗႘႙"
  notPlain := u! ""
  forbid := us!["ဢေႃံ", "ေႃ", "ဢႃ", "ဢိ", "ဢီ", "ဢု", "ဢူ", "ဢေ", "ဢႆ", "ဢႄ", "်ရ", "်ယ", "်ဝ"]
  natDrop := u! ""
  natForbid := []

def coreTaiLaing : CoreEntry where
  script := u! "TaiLaing"
  letters := u! "၊။ံး်ႃိီုူေႆႄအကၵꧩꧪငၸꩬꧫꧧꩦꩧꧭꧮꧯတထꧻꧼꩫပꧤꧽꧾမယꩺလဝၯꧺꧨ꧰꧱꧲꧳꧴꧵꧶꧷꧸꧹"
  notPlain := u! ""
  forbid := us!["အေႃံ", "ေႃ", "အႃ", "အိ", "အီ", "အု", "အူ", "အေ", "အႆ", "်ꩺ", "်ယ", "်ဝ"]
  natDrop := u! ""
  natForbid := []

def coreMon : CoreEntry where
  script := u! "Mon"
  letters := u! "၊။ံး်ာိဳုူၖၗၘၙေဲအဣဥၒၓၔၕဨဩဪကဃစဆဇဋဌဍဎဏတထဓနဖဗဘမယရလၐၑသဟဠ၀၁၂၃၄၅၆၇၈၉"
  notPlain := u! ""
  forbid := us!["ဥုံ", "ရ််", "ော", "အာ", "ဣဳ", "ဥူ", "အဲ", "်က", "်ခ", "်ဂ", "်ဃ", "်စ", "်ဆ", "်ဇ", "်ဋ", "်ဌ", "်ဍ", "်ဎ", "်ဏ", "်တ", "်ထ", "်ဒ", "်ဓ", "်န", "်ပ", "်ဖ", "်ဗ", "်ဘ", "်မ", "်ယ", "်ရ", "်လ", "်ဝ", "်ၐ", "်ၑ", "်သ", "်ဟ", "်ဠ"]
  natDrop := u! ""
  natForbid := []

def coreKhojki : CoreEntry where
  script := u! "Khojki"
  letters := u! "𑈸𑈹𑈴𑈶𑈵𑈬𑈭𑈮𑈯𑉁𑈰𑈱𑈲𑈳𑈀𑈁𑉀𑈂𑈃𑈄𑈅𑈆𑈇𑈈𑈉𑈊𑈌𑈍𑈎𑈏𑈐𑈓𑈔𑈕𑈖𑈗𑈘𑈙𑈚𑈛𑈝𑈞𑈟𑈠𑈡𑈣𑈤𑈥𑈦𑈧𑈨𑈩𑈪𑈫૦૧૨૩૪૫૬૭૮૯"
  notPlain := u! " "
  forbid := us!["𑈆𑈴", "𑈩𑈶", "𑈙𑈶", "𑈫𑈶", "𑈦𑈶", "𑈞𑈶", "𑈈𑈶", "𑈉𑈶", "𑈊𑈶", "𑈐𑈶", "𑈖𑈶", "𑈗𑈶", "𑈠𑈶", "𑈥𑈶", "𑈈𑈵", "𑈊𑈵", "𑈎𑈵", "𑈐𑈵", "𑈔𑈵", "𑈖𑈵", "𑈙𑈵", "𑈛𑈵", "𑈟𑈵", "𑈡𑈵", "𑈍𑈵", "𑈓𑈵", "𑈘𑈵", "𑈞𑈵", "𑈤𑈵", "𑈥𑈵", "𑈦𑈵", "𑈧𑈵", "𑈨𑈵", "𑈩𑈵", "𑈪𑈵", "𑈫𑈵"]
  natDrop := u! "𑉁𑉀"
  natForbid := []

def coreShan : CoreEntry where
  script := u! "Shan"
  letters := u! "၊။႟႞ံးႇႈႉႊ်ႃိီုူေႆဵႄႅဢၵၶၷꧠငၸꧡꩡꧢၺꩦꩧꩨꩩꧣတထၻꩪၼပၽၿꧤမယရလဝသႁႀꩮၹၾ႐႑႒႓႔႕႖႗႘႙"
  notPlain := u! ""
  forbid := us!["ဢေႃံ", "ေႃ", "ို", "ိူ", "ူဝ်", "ေေ", "ဢႃ", "ဢိ", "ဢီ", "ဢု", "ဢူ", "ဢေ", "ဢႆ", "ဢဵ", "ဢႄ", "ဢႅ", "သ်ယ", "်ရ", "်ယ", "်ဝ"]
  natDrop := u! ""
  natForbid := []

def coreRanjana : CoreEntry where
  script := u! "Ranjana"
  letters := u! "ऽँंः़्ािीुूृॄॢॣेैोौअआइईउऊऋॠऌॡएऐओऔकखगघङचछजझञटठडढणतथदधनपफबभमयरलवशषसह०१२३४५६७८९"
  notPlain := u! ""
  forbid := us!["क़", "ख़", "ग़", "ज़", "ड़", "ढ़", "फ़", "य़", "त़"]
  natDrop := u! ""
  natForbid := []

def coreZanabazarSquare : CoreEntry where
  script := u! "ZanabazarSquare"
  letters := u! "𑩂𑩃𑨵𑨸𑨹𑨴𑨊𑨁𑨂𑨄𑨆𑨅𑨀𑨋𑨌𑨍𑨎𑨏𑨣𑨤𑨥𑨦𑨓𑨔𑨕𑨖𑨗𑨘𑨙𑨚𑨛𑨜𑨝𑨞𑨟𑨠𑨡𑨢𑨪𑨫𑨬𑨭𑨮𑨯𑨰𑨱𑨨"
  notPlain := u! "0123456789"
  forbid := us!["𑨀𑨆𑨵", "𑨁𑨊", "𑨂𑨊", "𑨄𑨊", "𑨆𑨊", "𑨀𑨊", "𑨀𑨁", "𑨀𑨂", "𑨀𑨄", "𑨀𑨆", "𑨀𑨅", "𑨴𑨋", "𑨴𑨌", "𑨴𑨍", "𑨴𑨎", "𑨴𑨏", "𑨴𑨣", "𑨴𑨤", "𑨴𑨥", "𑨴𑨦", "𑨴𑨓", "𑨴𑨔", "𑨴𑨕", "𑨴𑨖", "𑨴𑨗", "𑨴𑨘", "𑨴𑨙", "𑨴𑨚", "𑨴𑨛", "𑨴𑨜", "𑨴𑨝", "𑨴𑨞", "𑨴𑨟", "𑨴𑨠", "𑨴𑨡", "𑨴𑨢", "𑨴𑨪", "𑨴𑨫", "𑨴𑨬", "𑨴𑨭", "𑨴𑨮", "𑨴𑨯", "𑨴𑨰", "𑨴𑨱", "𑨴𑨨"]
  natDrop := u! ""
  natForbid := []

def coreRejang : CoreEntry where
  script := u! "Rejang"
  letters := u! "ꥏꥒ꥓ꥇꥈꥊꥌꥉꥋꥎꥍꥆꤰꤱꤲꤹꤺꤻꤳꤴꤵꤶꤷꤸꤿꤽꤾꥀꤼꥁꥃꥅꥄꥂ"
  notPlain := u! ".0123456789"
  forbid := us!["ꥆꥋꥏʽ", "ꥆꥇ", "ꥆꥈ", "ꥆꥊ", "ꥆꥌ", "ꥆꥉ", "ꥆꥋ", "ꥆꥎ", "ꥆꥍ", "ꤽ꥓", "ꤵ꥓"]
  natDrop := u! ""
  natForbid := []

def coreGranthaGrantamil : CoreEntry where
  script := u! "GranthaGrantamil"
  letters := u! "ঽঁংঃ়্ািীুূৃৄৢৣেৈোৌঅআইঈউঊঋৠঌৡএঐওঔকখগঘঙচছজঝঞটঠডঢণতথদধনপফবভমযরলৱশষসহৰ০১২৩৪৫৬৭৮৯"
  notPlain := u! ""
  forbid := us!["ওং", "ড়", "ঢ়", "য়", "ো", "াে", "ত়", "ৰ়", "র়", "ন়", "ক়", "খ়", "গ়", "জ়", "ফ়"]
  natDrop := u! ""
  natForbid := []

def coreDevanagari : CoreEntry where
  script := u! "Devanagari"
  letters := u! "ऽँंःᳵᳶ़्ािीुूृॄॢॣेैोौॖॗऺऻॆॊॅॉॕअआइईउऊऋॠऌॡएऐओऔॶॷॳॴऎऒऍऑकखगघङचछजझञटठडढणतथदधनपफबभमयरलवशषसहळऴऱऩक़ख़ग़ज़ड़ढ़फ़य़०१२३४५६७८९"
  notPlain := u! ""
  forbid := us!["क़", "ख़", "ग़", "ज़", "ड़", "ढ़", "फ़", "य़", "एॕ", "त़", "ज़़", "श़", "ऱ्"]
  natDrop := u! ""
  natForbid := []

def coreMultani : CoreEntry where
  script := u! "Multani"
  letters := u! "𑊀𑊁𑊂𑊃𑊄𑊅𑊆𑊈𑊊𑊋𑊌𑊏𑊐𑊑𑊒𑊔𑊕𑊖𑊗𑊘𑊙𑊚𑊛𑊜𑊝𑊟𑊠𑊡𑊢𑊣𑊤𑊥𑊦𑊧𑊨੦੧੨੩੪੫੬੭੮੯"
  notPlain := u! ""
  forbid := us!["𑊂𑊠ʽ"]
  natDrop := u! "𑊄𑊅𑊆𑊈𑊊𑊋𑊌𑊏𑊐𑊑𑊒𑊔𑊕𑊖𑊗𑊘𑊙𑊚𑊛𑊜𑊝𑊟𑊠𑊡𑊢𑊣𑊤𑊥𑊦𑊧𑊨"
  natForbid := us!["𑊀𑊄", "𑊀𑊅", "𑊀𑊆", "𑊀𑊈", "𑊀𑊊", "𑊀𑊋", "𑊀𑊌", "𑊀𑊏", "𑊀𑊐", "𑊀𑊑", "𑊀𑊒", "𑊀𑊔", "𑊀𑊕", "𑊀𑊖", "𑊀𑊗", "𑊀𑊘", "𑊀𑊙", "𑊀𑊚", "𑊀𑊛", "𑊀𑊜", "𑊀𑊝", "𑊀𑊟", "𑊀𑊠", "𑊀𑊡", "𑊀𑊢", "𑊀𑊣", "𑊀𑊤", "𑊀𑊥", "𑊀𑊦", "𑊀𑊧", "𑊀𑊨", "𑊁𑊄", "𑊁𑊅", "𑊁𑊆", "𑊁𑊈", "𑊁𑊊", "𑊁𑊋", "𑊁𑊌", "𑊁𑊏", "𑊁𑊐", "𑊁𑊑", "𑊁𑊒", "𑊁𑊔", "𑊁𑊕", "𑊁𑊖", "𑊁𑊗", "𑊁𑊘", "𑊁𑊙", "𑊁𑊚", "𑊁𑊛", "𑊁𑊜", "𑊁𑊝", "𑊁𑊟", "𑊁𑊠", "𑊁𑊡", "𑊁𑊢", "𑊁𑊣", "𑊁𑊤", "𑊁𑊥", "𑊁𑊦", "𑊁𑊧", "𑊁𑊨", "𑊂𑊄", "𑊂𑊅", "𑊂𑊆", "𑊂𑊈", "𑊂𑊊", "𑊂𑊋", "𑊂𑊌", "𑊂𑊏", "𑊂𑊐", "𑊂𑊑", "𑊂𑊒", "𑊂𑊔", "𑊂𑊕", "𑊂𑊖", "𑊂𑊗", "𑊂𑊘", "𑊂𑊙", "𑊂𑊚", "𑊂𑊛", "𑊂𑊜", "𑊂𑊝", "𑊂𑊟", "𑊂𑊠", "𑊂𑊡", "𑊂𑊢", "𑊂𑊣", "𑊂𑊤", "𑊂𑊥", "𑊂𑊦", "𑊂𑊧", "𑊂𑊨", "𑊃𑊄", "𑊃𑊅", "𑊃𑊆", "𑊃𑊈", "𑊃𑊊", "𑊃𑊋", "𑊃𑊌", "𑊃𑊏", "𑊃𑊐", "𑊃𑊑", "𑊃𑊒", "𑊃𑊔", "𑊃𑊕", "𑊃𑊖", "𑊃𑊗", "𑊃𑊘", "𑊃𑊙", "𑊃𑊚", "𑊃𑊛", "𑊃𑊜", "𑊃𑊝", "𑊃𑊟", "𑊃𑊠", "𑊃𑊡", "𑊃𑊢", "𑊃𑊣", "𑊃𑊤", "𑊃𑊥", "𑊃𑊦", "𑊃𑊧", "𑊃𑊨"]

def coreAhom : CoreEntry where
  script := u! "Ahom"
  letters := u! "𑜼𑜽𑜪𑜫𑜡𑜢𑜣𑜤𑜥𑜩𑜠𑜒𑜀𑜁𑜕𑜗𑜂𑝀𑜋𑜊𑜙𑜐𑝁𑝂𑝃𑝄𑝅𑜄𑜌𑜓𑜔𑜃𑜆𑜇𑜈𑜘𑜉𑜍𑜎𑜚𑜏𑜑𑝆𑜰𑜱𑜲𑜳𑜴𑜵𑜶𑜷𑜸𑜹"
  notPlain := u! ""
  forbid := us!["𑜒𑜪𑜨", "𑜪𑜡", "𑜪𑜢", "𑜪𑜣", "𑜪𑜤", "𑜪𑜥", "𑜪𑜩", "𑜪𑜠", "𑜒𑜡", "𑜒𑜢", "𑜒𑜣", "𑜒𑜤", "𑜒𑜥", "𑜒𑜩", "𑜒𑜠", "𑜫𑜍", "𑜫𑜎", "𑜡𑜪", "𑜢𑜪", "𑜣𑜪", "𑜤𑜪", "𑜥𑜪", "𑜩𑜪", "𑜠𑜪"]
  natDrop := u! "𑜢𑜣𑜤𑜥"
  natForbid := []

def coreMahajani : CoreEntry where
  script := u! "Mahajani"
  letters := u! "𑅳𑅐𑅑𑅒𑅓𑅔𑅕𑅖𑅗𑅘𑅙𑅚𑅛𑅜𑅝𑅞𑅟𑅠𑅡𑅢𑅣𑅤𑅥𑅦𑅧𑅨𑅩𑅪𑅫𑅬𑅭𑅮𑅯𑅰𑅱𑅲०१२३४५६७८९"
  notPlain := u! ""
  forbid := us!["𑅔𑅬", "𑅰𑅳", "𑅣𑅳", "𑅮𑅳", "𑅭𑅳", "𑅧𑅳", "𑅕𑅳", "𑅖𑅳", "𑅗𑅳", "𑅛𑅳", "𑅡𑅳", "𑅩𑅳"]
  natDrop := u! ""
  natForbid := []

def coreHanunoo : CoreEntry where
  script := u! "Hanunoo"
  letters := u! "᜵᜶᜴ᜲᜳᜠᜡᜢᜣᜤᜥᜦᜧᜨᜩᜪᜫᜬᜭᜮᜯᜰ"
  notPlain := u! "0123456789"
  forbid := us!["ᜢᜫ᜴ʽ"]
  natDrop := u! ""
  natForbid := []

def coreBuhid : CoreEntry where
  script := u! "Buhid"
  letters := u! "᜵᜶ᝒᝓᝀᝁᝂᝃᝄᝅᝆᝇᝈᝉᝊᝋᝌᝍᝎᝏᝐ"
  notPlain := u! "0123456789"
  forbid := us!["ᝂᝋʽ"]
  natDrop := u! ""
  natForbid := []

def coreSiddham : CoreEntry where
  script := u! "Siddham"
  letters := u! "𑗂𑗃𑖼𑖽𑖾𑗀𑖿𑖯𑖰𑖱𑖲𑖳𑖴𑖵𑖸𑖹𑖺𑖻𑖀𑖁𑖂𑖃𑖄𑖅𑖆𑖇𑖈𑖉𑖊𑖋𑖌𑖍𑖎𑖏𑖐𑖑𑖒𑖓𑖔𑖕𑖖𑖗𑖘𑖙𑖚𑖛𑖜𑖝𑖞𑖟𑖠𑖡𑖢𑖣𑖤𑖥𑖦𑖧𑖨𑖩𑖪𑖫𑖬𑖭𑖮"
  notPlain := u! "0123456789"
  forbid := us!["𑖌𑖼", "𑖝𑗀", "𑖩𑗀", "𑖬𑗀", "𑖨𑗀", "𑖡𑗀", "𑖎𑗀", "𑖏𑗀", "𑖐𑗀", "𑖕𑗀", "𑖚𑗀", "𑖛𑗀", "𑖣𑗀", "𑖧𑗀"]
  natDrop := u! ""
  natForbid := []

def coreSiddhamDevanagari : CoreEntry where
  script := u! "SiddhamDevanagari"
  letters := u! "ऽँंः़्ािीुूृॄॢॣेैोौअआइईउऊऋॠऌॡएऐओऔकखगघङचछजझञटठडढणतथदधनपफबभमयरलवशषसहऱऩक़ख़ग़ज़ड़ढ़फ़य़०१२३४५६७८९"
  notPlain := u! ""
  forbid := us!["क़", "ख़", "ग़", "ज़", "ड़", "ढ़", "फ़", "य़", "त़", "ल़", "ष़"]
  natDrop := u! ""
  natForbid := []

def coreGranthaPandya : CoreEntry where
  script := u! "GranthaPandya"
  letters := u! "ഽംഃ്ാിീുൂൃൄൢൣേൈോൗഅആഇഈഉഊഋൠഌൡഏഐഓഔകഖഗഘങചഛജഝഞടഠഡഢണതഥദധനപഫബഭമയരലവശഷസഹള"
  notPlain := u! "0123456789"
  forbid := us!["ഓം", "ോ", "ാേ"]
  natDrop := u! ""
  natForbid := []

def coreVatteluttu : CoreEntry where
  script := u! "Vatteluttu"
  letters := u! "ஃ꞉்ாிீுூேைோௌெொஅஆஇஈஉஊஏஐஓஔஎஒகஙசஞடணதநபமயரலவளழறன"
  notPlain := u! ".0123456789"
  forbid := us!["ஓம்", "ொ", "ாெ", "ோ", "ாே"]
  natDrop := u! ""
  natForbid := []

def coreKhudawadi : CoreEntry where
  script := u! "Khudawadi"
  letters := u! "ऽ𑋟𑋩𑋪𑋠𑋡𑋢𑋣𑋤𑋥𑋦𑋧𑋨𑊰𑊱𑊲𑊳𑊴𑊵𑊶𑊷𑊸𑊹𑊺𑊻𑊼𑊾𑊿𑋀𑋁𑋂𑋄𑋅𑋆𑋇𑋈𑋋𑋌𑋍𑋎𑋏𑋐𑋑𑋒𑋓𑋔𑋖𑋗𑋘𑋙𑋚𑋛𑋜𑋝𑋞𑋊𑋰𑋱𑋲𑋳𑋴𑋵𑋶𑋷𑋸𑋹"
  notPlain := u! ""
  forbid := us!["𑊸𑋟", "𑋜𑋩", "𑋍𑋩", "𑋚𑋩", "𑋙𑋩", "𑋑𑋩", "𑊺𑋩", "𑊻𑋩", "𑊼𑋩", "𑋂𑋩", "𑋋𑋩", "𑋓𑋩", "𑋘𑋩"]
  natDrop := u! ""
  natForbid := []

def coreBhaiksuki : CoreEntry where
  script := u! "Bhaiksuki"
  letters := u! "𑱀𑱁𑱂𑰼𑰽𑰾𑰿𑰯𑰰𑰱𑰲𑰳𑰴𑰵𑰶𑰸𑰹𑰺𑰻𑰀𑰁𑰂𑰃𑰄𑰅𑰆𑰇𑰈𑰊𑰋𑰌𑰍𑰎𑰏𑰐𑰑𑰒𑰓𑰔𑰕𑰖𑰗𑰘𑰙𑰚𑰛𑰜𑰝𑰞𑰟𑰠𑰡𑰢𑰣𑰤𑰥𑰦𑰧𑰨𑰩𑰪𑰫𑰬𑰭𑰮𑱐𑱑𑱒𑱓𑱔𑱕𑱖𑱗𑱘𑱙"
  notPlain := u! " "
  forbid := us!["𑰌𑰼"]
  natDrop := u! ""
  natForbid := []

def coreSharada : CoreEntry where
  script := u! "Sharada"
  letters := u! "𑇁𑇅𑇆𑆀𑆁𑆂𑇂𑇃𑇊𑇀𑆳𑆴𑆵𑆶𑆷𑆸𑆹𑆺𑆻𑆼𑆽𑆾𑆿𑇋𑆃𑆄𑆅𑆆𑆇𑆈𑆉𑆊𑆋𑆌𑆍𑆎𑆏𑆐𑆑𑆒𑆓𑆔𑆕𑆖𑆗𑆘𑆙𑆚𑆛𑆜𑆝𑆞𑆟𑆠𑆡𑆢𑆣𑆤𑆥𑆦𑆧𑆨𑆩𑆪𑆫𑆬𑆮𑆯𑆰𑆱𑆲𑆭𑇐𑇑𑇒𑇓𑇔𑇕𑇖𑇗𑇘𑇙"
  notPlain := u! ""
  forbid := us!["𑆏𑆀", "𑇋𑆶", "𑇋𑆷", "𑇋𑆳", "𑆾𑇋", "𑆃𑇋", "𑆠𑇊", "𑆭𑇊", "𑆫𑇊", "𑆤𑇊", "𑆑𑇊", "𑆒𑇊", "𑆓𑇊", "𑆘𑇊", "𑆝𑇊", "𑆞𑇊", "𑆦𑇊", "𑆪𑇊", "𑇊𑇀", "𑇀𑆔𑇊", "𑇀𑆕𑇊", "𑇀𑆖𑇊", "𑇀𑆗𑇊", "𑇀𑆙𑇊", "𑇀𑆚𑇊", "𑇀𑆛𑇊", "𑇀𑆜𑇊", "𑇀𑆟𑇊", "𑇀𑆡𑇊", "𑇀𑆢𑇊", "𑇀𑆣𑇊", "𑇀𑆥𑇊", "𑇀𑆧𑇊", "𑇀𑆨𑇊", "𑇀𑆩𑇊", "𑇀𑆬𑇊", "𑇀𑆮𑇊", "𑇀𑆯𑇊", "𑇀𑆰𑇊", "𑇀𑆱𑇊", "𑇀𑆲𑇊"]
  natDrop := u! ""
  natForbid := []

def coreNewa : CoreEntry where
  script := u! "Newa"
  letters := u! "𑑇𑑋𑑌𑑃𑑄𑑅𑑠𑑡𑑆𑑂𑐵𑐶𑐷𑐸𑐹𑐺𑐻𑐼𑐽𑐾𑐿𑑀𑑁𑐀𑐁𑐂𑐃𑐄𑐅𑐆𑐇𑐈𑐉𑐊𑐋𑐌𑐍𑐎𑐏𑐐𑐑𑐒𑐔𑐕𑐖𑐗𑐘𑐚𑐛𑐜𑐝𑐞𑐟𑐠𑐡𑐢𑐣𑐥𑐦𑐧𑐨𑐩𑐫𑐬𑐮𑐰𑐱𑐲𑐳𑐴𑑐𑑑𑑒𑑓𑑔𑑕𑑖𑑗𑑘𑑙"
  notPlain := u! ""
  forbid := us!["𑐟𑑆", "𑐮𑑆", "𑐲𑑆", "𑐬𑑆", "𑐣𑑆", "𑐎𑑆", "𑐏𑑆", "𑐐𑑆", "𑐖𑑆", "𑐜𑑆", "𑐝𑑆", "𑐦𑑆", "𑐫𑑆"]
  natDrop := u! ""
  natForbid := []

def coreTakri : CoreEntry where
  script := u! "Takri"
  letters := u! "ऽ𑚫𑚬𑚷𑚶𑚭𑚮𑚯𑚰𑚱𑚲𑚳𑚴𑚵𑚀𑚁𑚂𑚃𑚄𑚅𑚇𑚉𑚊𑚸𑚌𑚍𑚎𑚏𑚐𑚑𑚒𑚓𑚔𑚕𑚖𑚗𑚘𑚙𑚚𑚛𑚜𑚝𑚞𑚟𑚠𑚡𑚢𑚣𑚤𑚥𑚦𑚧𑚋𑚨𑚩𑚪𑛀𑛁𑛂𑛃𑛄𑛅𑛆𑛇𑛈𑛉"
  notPlain := u! ""
  forbid := us!["𑚈𑚫", "𑚙𑚷", "𑚥𑚷", "𑚤𑚷", "𑚝𑚷", "𑚊𑚷", "𑚋𑚷", "𑚌𑚷", "𑚑𑚷", "𑚗𑚷", "𑚟𑚷", "𑚣𑚷"]
  natDrop := u! ""
  natForbid := []

def coreSylotiNagri : CoreEntry where
  script := u! "SylotiNagri"
  letters := u! "ঽꠋ꠆ꠣꠤꠥꠦꠂꠧꠅꠀꠁꠃꠄꠇꠈꠉꠊꠌꠍꠎꠏꠐꠑꠒꠓꠔꠕꠖꠗꠘꠙꠚꠛꠜꠝꠞꠟꠡꠢꠠ০১২৩৪৫৬৭৮৯"
  notPlain := u! ""
  forbid := us!["ꠅꠋ", "ꠅꠂ", "ꠅꠃ"]
  natDrop := u! ""
  natForbid := []

def coreTirhuta : CoreEntry where
  script := u! "Tirhuta"
  letters := u! "𑓄𑒿𑓀𑓁𑓃𑓂𑒰𑒱𑒲𑒳𑒴𑒵𑒶𑒷𑒸𑒹𑒻𑒼𑒾𑒺𑒽𑒁𑒂𑒃𑒄𑒅𑒆𑒇𑒈𑒉𑒊𑒋𑒌𑒍𑒎𑒏𑒐𑒑𑒒𑒓𑒔𑒕𑒖𑒗𑒘𑒙𑒚𑒛𑒜𑒝𑒞𑒟𑒠𑒡𑒢𑒣𑒤𑒥𑒦𑒧𑒨𑒩𑒪𑒫𑒬𑒭𑒮𑒯𑓐𑓑𑓒𑓓𑓔𑓕𑓖𑓗𑓘𑓙"
  notPlain := u! ""
  forbid := us!["𑒁𑒺", "𑒁𑒽", "𑒞𑓃", "𑒝𑓃", "𑒭𑓃", "𑒪𑓃", "𑒏𑓃", "𑒐𑓃", "𑒑𑓃", "𑒖𑓃", "𑒛𑓃", "𑒜𑓃", "𑒤𑓃", "𑒨𑓃"]
  natDrop := u! ""
  natForbid := []

def coreModi : CoreEntry where
  script := u! "Modi"
  letters := u! "ऽ𑙁𑙂𑘽𑘾𑘿𑘰𑘱𑘲𑘳𑘴𑘵𑘶𑘷𑘸𑘹𑘺𑘻𑘼𑙀𑘀𑘁𑘂𑘃𑘄𑘅𑘆𑘇𑘈𑘉𑘊𑘋𑘌𑘍𑘎𑘏𑘐𑘑𑘒𑘓𑘔𑘕𑘖𑘗𑘘𑘙𑘚𑘛𑘜𑘝𑘞𑘟𑘠𑘡𑘢𑘣𑘤𑘥𑘦𑘧𑘨𑘩𑘪𑘫𑘬𑘭𑘮𑘯𑙐𑙑𑙒𑙓𑙔𑙕𑙖𑙗𑙘𑙙"
  notPlain := u! ""
  forbid := us!["𑘌𑘽", "𑘀𑙀"]
  natDrop := u! "𑘱𑘴𑘵𑘶𑘷𑘸𑘂𑘅𑘆𑘇𑘈𑘉"
  natForbid := []

def coreKaithi : CoreEntry where
  script := u! "Kaithi"
  letters := u! "ऽ𑃀𑃁𑂀𑂁𑂂𑂺𑂹𑂰𑂱𑂲𑂳𑂴𑃂𑂵𑂶𑂷𑂸𑂃𑂄𑂅𑂆𑂇𑂈𑂉𑂊𑂋𑂌𑂍𑂎𑂏𑂐𑂑𑂒𑂓𑂔𑂕𑂖𑂗𑂘𑂙𑂛𑂝𑂞𑂟𑂠𑂡𑂢𑂣𑂤𑂥𑂦𑂧𑂨𑂩𑂪𑂫𑂬𑂭𑂮𑂯𑂚𑂜०१२३४५६७८९"
  notPlain := u! " "
  forbid := us!["𑂋𑂁", "𑂞𑂺", "𑂪𑂺", "𑂭𑂺", "𑂩𑂺", "𑂢𑂺", "𑂍𑂺", "𑂎𑂺", "𑂏𑂺", "𑂔𑂺", "𑂤𑂺", "𑂨𑂺"]
  natDrop := u! ""
  natForbid := []

def coreKharoshthi : CoreEntry where
  script := u! "Kharoshthi"
  letters := u! "𐩖𐩗𐨎𐨿𐨏𐨌𐨁𐨂𐨃𐨅𐨆𐨀𐨐𐨑𐨒𐨓𐨕𐨖𐨗𐨙𐨚𐨛𐨜𐨝𐨞𐨟𐨠𐨡𐨢𐨣𐨤𐨥𐨦𐨧𐨨𐨩𐨪𐨫𐨬𐨭𐨮𐨯𐨱𐨲𐨰"
  notPlain := u! "0123456789"
  forbid := us!["𐨀𐨅𐨎", "𐨁𐨌", "𐨂𐨌", "𐨃𐨌", "𐨅𐨌", "𐨆𐨌", "𐨀𐨌", "𐨀𐨁", "𐨀𐨂", "𐨀𐨃", "𐨀𐨅", "𐨀𐨆"]
  natDrop := u! ""
  natForbid := []

def coreTelugu : CoreEntry where
  script := u! "Telugu"
  letters := u! "ఽఀంః఼్ాిీుూృౄౢౣేైోౌెొఅఆఇఈఉఊఋౠఌౡఏఐఓఔఎఒకఖగఘఙచఛజఝఞటఠడఢణతథదధనపఫబభమయరలవశషసహళఴఱ"
  notPlain := u! ".0123456789"
  forbid := us!["ఓం", "..", "త఼", "న఼", "క఼", "ఖ఼", "గ఼", "జ఼", "డ఼", "ఢ఼", "ఫ఼", "య఼"]
  natDrop := u! "఼"
  natForbid := us!["ఙ్క", "ఙ్ఖ", "ఙ్గ", "ఙ్ఘ", "ఞ్చ", "ఞ్ఛ", "ఞ్జ", "ఞ్ఝ", "ణ్ట", "ణ్ఠ", "ణ్డ", "ణ్ఢ", "న్త", "న్థ", "న్ద", "న్ధ", "మ్ప", "మ్ఫ", "మ్బ", "మ్భ", "మ్"]

def coreKannada : CoreEntry where
  script := u! "Kannada"
  letters := u! "ಽಁಂಃೱೲ಼ಾಿೀುೂೃೄೢೣೇೈೋೌೆೊಅಆಇಈಉಊಋೠಌೡಏಐಓಔಎಒಕಖಗಘಙಚಛಜಝಞಟಠಡಢಣತಥದಧನಪಫಬಭಮಯರಲವಶಷಸಹಳೞಱ೦೧೨೩೪೫೬೭೮೯"
  notPlain := u! "."
  forbid := us!["ಓಂ", "..", "ತ಼", "ನ಼", "ಕ಼", "ಖ಼", "ಗ಼", "ಜ಼", "ಡ಼", "ಢ಼", "ಫ಼", "ಯ಼"]
  natDrop := u! ""
  natForbid := []

def coreMalayalam : CoreEntry where
  script := u! "Malayalam"
  letters := u! "ഽഁംഃാിീുൂൃൄൢൣേൈോൗെൊഅആഇഈഉഊഋൠഌൡഏഐഓഔഎഒകഖഗഘങചഛജഝഞടഠഡഢണതഥദധനപഫബഭമയരലവശഷസഹളഴറഩ"
  notPlain := u! ".0123456789"
  forbid := us!["ഓം", "ൊ", "ാെ", "ോ", "ാേ", ".."]
  natDrop := u! "ഩ"
  natForbid := us!["ംക", "ംച", "ംഛ", "ംജ", "ംട", "ംഠ", "ംഡ", "ംഢ", "ംത", "ംഥ", "ംദ", "ംധ", "ംപ"]

def coreGujarati : CoreEntry where
  script := u! "Gujarati"
  letters := u! "ઽઁંઃ઼્ાિીુૂૃૄૢૣેૈોૌૅૉઅઆઇઈઉઊઋૠઌૡએઐઓઔઍઑકખગઘઙચછજઝઞટઠડઢણતથદધનપફબભમયરલવશષસહળ૦૧૨૩૪૫૬૭૮૯"
  notPlain := u! "."
  forbid := us!["..", "ત઼", "ળ઼", "ર઼", "ન઼", "ક઼", "ખ઼", "ગ઼", "જ઼", "ડ઼", "ઢ઼", "ફ઼", "ય઼", "શ઼"]
  natDrop := u! ""
  natForbid := []

def coreBengali : CoreEntry where
  script := u! "Bengali"
  letters := u! "ঽঁংঃᳵᳶ়্ািীুূৃৄৢৣেৈোৌঅআইঈউঊঋৠঌৡএঐওঔকখগঘঙচছজঝঞটঠডঢণতথদধনপফবভমযরলশষসহড়ঢ়য়০১২৩৪৫৬৭৮৯"
  notPlain := u! ""
  forbid := us!["ওঁ", "ড়", "ঢ়", "য়", "ো", "াে", "ভ়", "ত়", "ল়", "ষ়", "র়", "ন়", "ক়", "খ়", "গ়", "জ়", "ফ়", "্ব", "ত্"]
  natDrop := u! "য"
  natForbid := us!["ংক", "ংখ", "ংগ", "ংঘ", "ংচ", "ংছ", "ংজ", "ংঝ", "ংট", "ংঠ", "ংড", "ংঢ", "ংত", "ংথ", "ংদ", "ংধ", "ংপ", "ংফ", "ংব", "ংভ", "্য়"]

def coreOriya : CoreEntry where
  script := u! "Oriya"
  letters := u! "ଽଁଂଃ଼୍ାିୀୁୂୃୄୢୣେୈୋୌଅଆଇଈଉଊଋୠଌୡଏଐଓଔକଖଗଘଙଚଛଜଝଞଟଠଡଢଣତଥଦଧନପଫବଭମଯରଲୱଶଷସହଳଡ଼ଢ଼ୟ୦୧୨୩୪୫୬୭୮୯"
  notPlain := u! ""
  forbid := us!["ଓଁ", "ଡ଼", "ଢ଼", "ତ଼", "ଳ଼", "ର଼", "ନ଼", "କ଼", "ଖ଼", "ଗ଼", "ଜ଼", "ଫ଼"]
  natDrop := u! "ଯୱ"
  natForbid := us!["ଂକ", "ଂଖ", "ଂଗ", "ଂଘ", "ଂଚ", "ଂଛ", "ଂଜ", "ଂଝ", "ଂଟ", "ଂଠ", "ଂଡ", "ଂଢ", "ଂତ", "ଂଥ", "ଂଦ", "ଂଧ", "ଂପ", "ଂଫ", "ଂବ", "ଂଭ"]

def coreGurmukhi : CoreEntry where
  script := u! "Gurmukhi"
  letters := u! "ਁਂਃ਼੍ਾਿੀੁੂੇੈੋੌਅਆਇਈਉਊਏਐਓਔਕਖਗਘਙਚਛਜਝਞਟਠਡਢਣਤਥਦਧਨਪਫਬਭਮਯਰਲਵਸ਼ਸਹਲ਼ਖ਼ਗ਼ਜ਼ੜਫ਼"
  notPlain := u! "0123456789"
  forbid := us!["ਲ਼", "ਸ਼", "ਖ਼", "ਗ਼", "ਜ਼", "ਫ਼", "(ਆ)", "(ਅ)", "ਸ਼਼", "ਤ਼", "ਲ਼਼", "ਰ਼", "ਨ਼", "ਕ਼", "ੜ੍ਹ", "ਯ਼", "ਕ੍", "ਗ੍", "ਚ੍", "ਜ੍", "ਟ੍", "ਡ੍", "ਤ੍", "ਦ੍", "ਪ੍", "ਬ੍", "ਙ੍", "ਞ੍", "ਣ੍", "ਨ੍", "ਮ੍", "ਯ੍", "ਰ੍", "ਲ੍", "ਵ੍", "ਸ਼੍", "ਸ੍", "ਹ੍", "ਲ਼੍", "ਖ਼੍", "ਗ਼੍", "ਜ਼੍", "ੜ੍", "ਫ਼੍"]
  natDrop := u! "ਁ"
  natForbid := us!["ੂਂ", "ਕਂ", "ਖਂ", "ਗਂ", "ਘਂ", "ਙਂ", "ਚਂ", "ਛਂ", "ਜਂ", "ਝਂ", "ਞਂ", "ਟਂ", "ਠਂ", "ਡਂ", "ਢਂ", "ਣਂ", "ਤਂ", "ਥਂ", "ਦਂ", "ਧਂ", "ਨਂ", "ਪਂ", "ਫਂ", "ਬਂ", "ਭਂ", "ਮਂ", "ਯਂ", "ਰਂ", "ਲਂ", "ਵਂ", "ਸ਼ਂ", "ਸਂ", "ਹਂ", "ਲ਼ਂ", "ਖ਼ਂ", "ਗ਼ਂ", "ਜ਼ਂ", "ੜਂ", "ਫ਼ਂ", "ਅਂ", "ਇਂ", "ਉਂ", "ਿਂ", "ੁਂ"]

def coreTamil : CoreEntry where
  script := u! "Tamil"
  letters := u! "ஃ꞉்ாிீுூேைோௌெொஅஆஇஈஉஊஏஐஓஔஎஒகஙசஜஞடணதநபமயரலவஶஷஸஹளழறன"
  notPlain := u! ".0123456789"
  forbid := us!["ஸ்ரீ", "ொ", "ாெ", "ோ", "ாே", "..", "(ஆ)", "(அ)", "ு்", "ூ்", "உ்", "ஊ்", "ஃஜ", "ஃப", "ஃய"]
  natDrop := u! "நன"
  natForbid := []

def coreAssamese : CoreEntry where
  script := u! "Assamese"
  letters := u! "ঽঁংঃᳵᳶ়্ািীুূৃৄৢৣেৈোৌঅআইঈউঊঋৠঌৡএঐওঔকখগঘঙচছজঝঞটঠডঢণতথদধনপফবভমযলৱশষসহড়ঢ়য়০১২৩৪৫৬৭৮৯"
  notPlain := u! ""
  forbid := us!["ওঁ", "ড়", "ঢ়", "য়", "ো", "াে", "ত়", "ল়", "ষ়", "র়", "ন়", "ক়", "খ়", "গ়", "জ়", "ফ়", "ত্"]
  natDrop := u! "য"
  natForbid := us!["্য়", "ংক", "ংখ", "ংগ", "ংঘ", "ংচ", "ংছ", "ংজ", "ংঝ", "ংট", "ংঠ", "ংড", "ংঢ", "ংত", "ংথ", "ংদ", "ংধ", "ংপ", "ংফ", "ংব", "ংভ"]

def coreSaurashtra : CoreEntry where
  script := u! "Saurashtra"
  letters := u! "ఽ꣎꣏ꣅꢀꢁ꣄ꢵꢶꢷꢸꢹꢺꢻꢼꢽꢿꣀꣂꣃꢾꣁꢂꢃꢄꢅꢆꢇꢈꢉꢊꢋꢍꢎꢐꢑꢌꢏꢒꢓꢔꢕꢖꢗꢘꢙꢚꢛꢜꢝꢞꢟꢠꢡꢢꢣꢤꢥꢦꢧꢨꢩꢪꢫꢬꢭꢮꢯꢰꢱꢲꢳ꣐꣑꣒꣓꣔꣕꣖꣗꣘꣙"
  notPlain := u! ""
  forbid := us!["ꢐꢀ", "ꢒ꣄ꢰ"]
  natDrop := u! ""
  natForbid := us!["ꢥ꣄ꢲ", "ꢪ꣄ꢲ", "ꢬ꣄ꢲ", "ꢭ꣄ꢲ"]

def coreTamilBrahmi : CoreEntry where
  script := u! "TamilBrahmi"
  letters := u! "𑀂𑁆𑀸𑀺𑀻𑀼𑀽𑁂𑁃𑁄𑁅𑀅𑀆𑀇𑀈𑀉𑀊𑀏𑀐𑀑𑀒𑀓𑀗𑀘𑀚𑀜𑀝𑀡𑀢𑀥𑀦𑀧𑀫𑀬𑀭𑀮𑀯𑀰𑀱𑀲𑀳𑀴𑀵𑀶𑀷"
  notPlain := u! ".0123456789"
  forbid := us!["𑀑𑀫𑁆", "𑁂𑁆", "𑁄𑁆", "𑀏𑁆", "𑀑𑁆"]
  natDrop := u! ""
  natForbid := []

def coreGrantha : CoreEntry where
  script := u! "Grantha"
  letters := u! "𑌽𑌁𑌂𑌃𑌼𑍍𑌾𑌿𑍀𑍁𑍂𑍃𑍄𑍢𑍣𑍇𑍈𑍋𑍗𑌅𑌆𑌇𑌈𑌉𑌊𑌋𑍠𑌌𑍡𑌏𑌐𑌓𑌔𑌕𑌖𑌗𑌘𑌙𑌚𑌛𑌜𑌝𑌞𑌟𑌠𑌡𑌢𑌣𑌤𑌥𑌦𑌧𑌨𑌪𑌫𑌬𑌭𑌮𑌯𑌰𑌲𑌵𑌶𑌷𑌸𑌹𑌳௦௧௨௩௪௫௬௭௮௯"
  notPlain := u! ""
  forbid := us!["𑍋", "𑌾𑍇", "𑌤𑌼", "𑌳𑌼", "𑌰𑌼", "𑌨𑌼", "𑌕𑌼", "𑌖𑌼", "𑌗𑌼", "𑌜𑌼", "𑌡𑌼", "𑌢𑌼", "𑌫𑌼", "𑌯𑌼", "𑌼𑍍"]
  natDrop := u! ""
  natForbid := []

def coreTamilGrantha : CoreEntry where
  script := u! "TamilGrantha"
  letters := u! "ঽঁংঃ়்ாிீுூৃৄৢৣைோௌெொஅஆஇஈஉஊঋৠঌৡஏஐஓஔஎஒகখগঘஙசছஜঝஞடঠডঢணதথদধநபফবভமயரலவஶஷஸஹளழறன০১২৩৪৫৬৭৮৯"
  notPlain := u! ""
  forbid := us!["ஸ்ரீ", "ொ", "ாெ", "ோ", "ாே", "த়", "க়", "খ়", "গ়", "ஜ়", "ড়", "ঢ়", "ফ়", "ய়", "கை", "கெ", "খை", "খெ", "গை", "গெ", "ঘை", "ঘெ", "ஙை", "ஙெ", "சை", "செ", "ছை", "ছெ", "ஜை", "ஜெ", "ঝை", "ঝெ", "ஞை", "ஞெ", "டை", "டெ", "ঠை", "ঠெ", "ডை", "ডெ", "ঢை", "ঢெ", "ணை", "ணெ", "தை", "தெ", "থை", "থெ", "দை", "দெ", "ধை", "ধெ", "நை", "நெ", "பை", "பெ", "ফை", "ফெ", "বை", "বெ", "ভை", "ভெ", "மை", "மெ", "யை", "யெ", "ரை", "ரெ", "லை", "லெ", "வை", "வெ", "ஶை", "ஶெ", "ஷை", "ஷெ", "ஸை", "ஸெ", "ஹை", "ஹெ", "ளை", "ளெ", "ழை", "ழெ", "றை", "றெ", "னை", "னெ", "கோ", "খோ", "গோ", "ঘோ", "ஙோ", "சோ", "ছோ", "ஜோ", "ঝோ", "ஞோ", "டோ", "ঠோ", "ডோ", "ঢோ", "ணோ", "தோ", "থோ", "দோ", "ধோ", "நோ", "போ", "ফோ", "বோ", "ভோ", "மோ", "யோ", "ரோ", "லோ", "வோ", "ஶோ", "ஷோ", "ஸோ", "ஹோ", "ளோ", "ழோ", "றோ", "னோ", "கொ", "খொ", "গொ", "ঘொ", "ஙொ", "சொ", "ছொ", "ஜொ", "ঝொ", "ஞொ", "டொ", "ঠொ", "ডொ", "ঢொ", "ணொ", "தொ", "থொ", "দொ", "ধொ", "நொ", "பொ", "ফொ", "বொ", "ভொ", "மொ", "யொ", "ரொ", "லொ", "வொ", "ஶொ", "ஷொ", "ஸொ", "ஹொ", "ளொ", "ழொ", "றொ", "னொ", "கௌ", "খௌ", "গௌ", "ঘௌ", "ஙௌ", "சௌ", "ছௌ", "ஜௌ", "ঝௌ", "ஞௌ", "டௌ", "ঠௌ", "ডௌ", "ঢௌ", "ணௌ", "தௌ", "থௌ", "দௌ", "ধௌ", "நௌ", "பௌ", "ফௌ", "বௌ", "ভௌ", "மௌ", "யௌ", "ரௌ", "லௌ", "வௌ", "ஶௌ", "ஷௌ", "ஸௌ", "ஹௌ", "ளௌ", "ழௌ", "றௌ", "னௌ"]
  natDrop := u! ""
  natForbid := []

def coreSinhala : CoreEntry where
  script := u! "Sinhala"
  letters := u! "ඁංඃ්ාිීුූෘෲෟෳේෛෝෞෙොැෑඅආඉඊඋඌඍඎඏඐඒඓඕඖඑඔඇඈකඛගඝඞචඡජඣඤටඨඩඪණතථදධනපඵබභමයරලවශෂසහළෆඟඦඬඳඹ"
  notPlain := u! ".0123456789"
  forbid := us!["ඕං", "්ය", "්ර", "ජ්ඤ", "ක්ෂ", "(ආ)", "(අ)"]
  natDrop := u! "ඁ"
  natForbid := []

def coreKhmer : CoreEntry where
  script := u! "Khmer"
  letters := u! "ៜ។៕ំះ៑ាិីុូេៃោៅអឥឦឧឩឫឬឭឮឯឰឱឳកខគឃងចឆជឈញដឋឌឍណតថទធនបផពភមយរលវឝឞសហឡ០១២៣៤៥៦៧៨៩"
  notPlain := u! ""
  forbid := us!["ឱំ", "៑ឫ", "៑ឬ", "៑ឭ", "៑ឮ", "អា", "៑ក", "៑ខ", "៑គ", "៑ឃ", "៑ង", "៑ច", "៑ឆ", "៑ជ", "៑ឈ", "៑ញ", "៑ដ", "៑ឋ", "៑ឌ", "៑ឍ", "៑ណ", "៑ត", "៑ថ", "៑ទ", "៑ធ", "៑ន", "៑ប", "៑ផ", "៑ព", "៑ភ", "៑ម", "៑យ", "៑រ", "៑ល", "៑វ", "៑ឝ", "៑ឞ", "៑ស", "៑ហ", "៑ឡ", "ិំ"]
  natDrop := u! ""
  natForbid := []

def coreBurmese : CoreEntry where
  script := u! "Burmese"
  letters := u! "၊။ံး်ာိီုူၖၗၘၙေဲအဣဤဥဦၒၓၔၕဧဩဪကဃစဆဇဈဉဋဌဍဎဏတထဓနဖဗဘမယရလၐၑသဟဠ၀၁၂၃၄၅၆၇၈၉"
  notPlain := u! ""
  forbid := us!["ဥုံ", "င််", "ရ််", "ော", "အာ", "အဲ", "်က", "်ခ", "်ဂ", "်ဃ", "်င", "်စ", "်ဆ", "်ဇ", "်ဈ", "်ဉ", "်ဋ", "်ဌ", "်ဍ", "်ဎ", "်ဏ", "်တ", "်ထ", "်ဒ", "်ဓ", "်န", "်ပ", "်ဖ", "်ဗ", "်ဘ", "်မ", "်ယ", "်ရ", "်လ", "်ဝ", "်ၐ", "်ၑ", "်သ", "်ဟ", "်ဠ"]
  natDrop := u! ""
  natForbid := []

def coreBalinese : CoreEntry where
  script := u! "Balinese"
  letters := u! "᭞᭟ᬁᬂᬄ᬴᭄ᬵᬶᬷᬸᬹᬺᬻᬼᬽᬾᬿᭀᭁᭂᭃᬅᬆᬇᬈᬉᬊᬋᬌᬍᬎᬏᬐᬑᬒᬓᬔᬕᬖᬗᬘᬙᬚᬛᬜᬝᬞᬟᬠᬡᬢᬣᬤᬥᬦᬧᬨᬩᬪᬫᬬᬭᬮᬯᬰᬱᬲᬳ᭐᭑᭒᭓᭔᭕᭖᭗᭘᭙"
  notPlain := u! ""
  forbid := us!["ᬒᬁ", "ᬅᬶ", "ᬅᬷ", "ᬅᬸ", "ᬅᬹ", "ᬅᬺ", "ᬅᬻ", "ᬅ᭄ᬮᭂ", "ᬅ᭄ᬮᭃ", "ᬅᬾ", "ᬅᬿ", "ᬅᭀ", "ᬅᭁ", "ᬅᭂ", "ᬅᭃ", "ᬢ᬴", "ᬮ᬴", "ᬱ᬴", "ᬭ᬴", "ᬦ᬴", "ᬓ᬴", "ᬔ᬴", "ᬕ᬴", "ᬚ᬴", "ᬟ᬴", "ᬠ᬴", "ᬧ᬴", "ᬬ᬴", "ᬭ᭄"]
  natDrop := u! ""
  natForbid := []

def coreJavanese : CoreEntry where
  script := u! "Javanese"
  letters := u! "꧈꧉ꦀꦁꦃ꦳꧀ꦴꦶꦷꦸꦹꦽꦺꦻꦼꦄꦆꦇꦈꦉꦊꦋꦌꦍꦎꦏꦑꦒꦓꦔꦕꦖꦗꦙꦚꦛꦜꦝꦞꦟꦠꦡꦢꦣꦤꦥꦦꦧꦨꦩꦪꦫꦭꦮꦯꦰꦱꦲ꧐꧑꧒꧓꧔꧕꧖꧗꧘꧙"
  notPlain := u! ""
  forbid := us!["ꦎꦀ", "ꦄꦶ", "ꦄꦷ", "ꦄꦸ", "ꦄꦹ", "ꦄꦽ", "ꦄ꧀ꦉꦴ", "ꦄ꧀ꦭꦼ", "ꦄꦺ", "ꦄꦻ", "꧀ꦉꦴ", "꧀ꦊ", "꧀ꦋ", "ꦺꦴ", "ꦻꦴ", "ꦼꦴ", "ꦄꦴ", "ꦈꦴ", "ꦉꦴ", "ꦎꦴ", "ꦄꦼ", "ꦠ꦳", "ꦭ꦳", "ꦰ꦳", "ꦫ꦳", "ꦤ꦳", "ꦏ꦳", "ꦑ꦳", "ꦒ꦳", "ꦗ꦳", "ꦝ꦳", "ꦞ꦳", "ꦥ꦳", "ꦪ꦳", "ꦫ꧀", "꧀ꦫ", "꧀ꦪ"]
  natDrop := u! ""
  natForbid := []

def coreTibetan : CoreEntry where
  script := u! "Tibetan"
  letters := u! "྅།༎ྃཾཿ྄ཱིེཻོཽུ༹ཨཀཁགགྷངཙཚཛཛྷཉཊཋཌཌྷཎཏཐདདྷནཔཕབབྷམཡརལཝཤཥསཧཟ༠༡༢༣༤༥༦༧༨༩"
  notPlain := u! " ()"
  forbid := us!["ྈ྄", "ྉ྄", "ཱི", "ཱུ", "ཨཱ", "ཨི", "ཨུ", "ཨེ", "ཨཻ", "ཨོ", "ཨཽ", "ཏ༹", "ལ༹", "ཥ༹", "ར༹", "ན༹", "ཀ༹", "ཁ༹", "ག༹", "ཌ༹", "ཌྷ༹", "ཕ༹", "ཡ༹", "྄ཀ", "྄ཁ", "྄ག", "྄གྷ", "྄ང", "྄ཉ", "྄ཊ", "྄ཋ", "྄ཌ", "྄ཌྷ", "྄ཎ", "྄ཏ", "྄ཐ", "྄ད", "྄དྷ", "྄ན", "྄པ", "྄ཕ", "྄བ", "྄བྷ", "྄མ", "྄ཙ", "྄ཚ", "྄ཛ", "྄ཛྷ", "྄ཝ", "྄ཟ", "྄ཡ", "྄ར", "྄ལ", "྄ཤ", "྄ཥ", "྄ས", "྄ཧ", "ཛྷ༹"]
  natDrop := u! "྄ཝ"
  natForbid := []

def coreOldPersian : CoreEntry where
  script := u! "OldPersian"
  letters := u! "𐎠𐎡𐎢𐎣𐎥𐎨𐎩𐎫𐎰𐎭𐎴𐎱𐎶𐎹𐎼𐎾𐎺𐏁𐏂𐎿𐏃𐎧𐏀𐎳"
  notPlain := u! " <0123456789"
  forbid := us!["𐎢𐎶ʽ", "𐎫𐎡", "𐎴𐎡", "𐎼𐎡", "𐎠𐎡", "𐎠𐎢", "𐎣𐎠", "𐎥𐎠", "𐎨𐎠", "𐎩𐎠", "𐎫𐎠", "𐎰𐎠", "𐎭𐎠", "𐎴𐎠", "𐎱𐎠", "𐎶𐎠", "𐎹𐎠", "𐎼𐎠", "𐎾𐎠", "𐎺𐎠", "𐏁𐎠", "𐏂𐎠", "𐎿𐎠", "𐏃𐎠", "𐎧𐎠", "𐏀𐎠", "𐎳𐎠", "𐎧𐎡", "𐎧𐎢", "𐎨𐎡", "𐎨𐎢", "𐏂𐎡", "𐏂𐎢", "𐎰𐎡", "𐎰𐎢", "𐎱𐎡", "𐎱𐎢", "𐎳𐎡", "𐎳𐎢", "𐎹𐎡", "𐎹𐎢", "𐎾𐎡", "𐎾𐎢", "𐎿𐎡", "𐎿𐎢", "𐏀𐎡", "𐏀𐎢", "𐏁𐎡", "𐏁𐎢", "𐏃𐎡", "𐏃𐎢", "𐎭𐎡", "𐎭𐎢", "𐎶𐎡", "𐎶𐎢", "𐎣𐎡", "𐎣𐎢", "𐎥𐎡", "𐎥𐎢", "𐎩𐎡", "𐎩𐎢", "𐎺𐎡", "𐎺𐎢", "𐎼𐎢", "𐎴𐎢", "𐎫𐎢"]
  natDrop := u! ""
  natForbid := []

def coreLimbu : CoreEntry where
  script := u! "Limbu"
  letters := u! "ᤲᤠᤡᤢᤣᤤᤥᤦᤧᤨᤀᤁᤂᤃᤄᤅᤆᤇᤈᤉᤊᤋᤌᤍᤎᤏᤐᤑᤒᤓᤔᤕᤖᤗᤘᤙᤚᤛᤜ᥆᥇᥈᥉᥊᥋᥌᥍᥎᥏"
  notPlain := u! "!?"
  forbid := us!["ᤀᤥᤲ", "ᤠᤣ", "ᤀᤠ", "ᤀᤡ", "ᤀᤢ", "ᤀᤣ", "ᤀᤤ", "ᤀᤥ", "ᤀᤦ", "ᤀᤧ", "ᤀᤨ"]
  natDrop := u! "ᤲᤉᤊᤚ"
  natForbid := []

def coreLepcha : CoreEntry where
  script := u! "Lepcha"
  letters := u! "᰻᰼ᰴ᰷ᰦᰧᰪᰫᰬᰨᰩᰣᰀᰂᰃᰅᰆᰇᰈᰉᱍᱎᱏᰊᰋᰌᰍᰎᰐᰓᰕᰚᰛᰜᰟᰡᰠᰝᰑ᱀᱁᱂᱃᱄᱅᱆᱇᱈᱉"
  notPlain := u! ""
  forbid := us!["ᰣᰨᰴ", "ᰣᰦ", "ᰣᰧ", "ᰣᰪ", "ᰣᰫ", "ᰣᰬ", "ᰣᰨ", "ᰣᰩ", "ᰡ᰷", "ᰊ᰷", "ᰜ᰷", "ᰛ᰷", "ᰍ᰷", "ᰀ᰷", "ᰂ᰷", "ᰃ᰷", "ᰈ᰷", "ᱏ᰷", "ᰚ᰷", "ᰦᰴ", "ᰧᰴ", "ᰪᰴ", "ᰫᰴ", "ᰬᰴ", "ᰨᰴ", "ᰩᰴ"]
  natDrop := u! ""
  natForbid := []

def coreSundanese : CoreEntry where
  script := u! "Sundanese"
  letters := u! "ᮺᮀᮂ᮪ᮤᮥᮨᮧᮦᮩᮃᮄᮅᮻᮼᮈᮇᮆᮉᮊᮌᮍᮎᮏᮑᮒᮓᮔᮕᮘᮽᮙᮚᮛᮜᮝᮯᮞᮠᮋᮮᮐᮖ᮰᮱᮲᮳᮴᮵᮶᮷᮸᮹"
  notPlain := u! "."
  forbid := us!["ᮇᮀʽ", "᮪ᮻ", "᮪ᮼ", "ᮛ᮪", "᮪ᮚ", "᮪ᮛ", "᮪ᮜ"]
  natDrop := u! "ᮻᮼᮽ"
  natForbid := []

def coreTagalog : CoreEntry where
  script := u! "Tagalog"
  letters := u! "᜵᜶᜔ᜒᜓᜀᜁᜂᜃᜄᜅᜆᜇᜈᜉᜊᜋᜌᜍᜎᜏᜐᜑ"
  notPlain := u! "0123456789"
  forbid := us!["ᜂᜋ᜔ʽ"]
  natDrop := u! ""
  natForbid := []

def coreTagbanwa : CoreEntry where
  script := u! "Tagbanwa"
  letters := u! "᜵᜶ᝲᝳᝠᝡᝢᝣᝤᝥᝦᝧᝨᝩᝪᝫᝬᝮᝯᝰ"
  notPlain := u! "0123456789"
  forbid := us!["ᝢᝫʽ"]
  natDrop := u! ""
  natForbid := []

def coreBuginese : CoreEntry where
  script := u! "Buginese"
  letters := u! "᨞ᨘᨗᨙᨚᨛᨕᨀᨁᨂᨌᨍᨎᨈᨉᨊᨄᨅᨆᨐᨑᨒᨓᨔᨖ"
  notPlain := u! "0123456789"
  forbid := us!["ᨕᨚᨆʽ", "᨞᨞", "ᨕᨗ", "ᨕᨘ", "ᨕᨙ", "ᨕᨚ", "ᨕᨛ"]
  natDrop := u! ""
  natForbid := []

def coreChakma : CoreEntry where
  script := u! "Chakma"
  letters := u! "𑅁𑅂𑄴𑄀𑄁𑄂𑄨𑄩𑄪𑄫𑄬𑄰𑄮𑄯𑅅𑄶𑄷𑄸𑄹𑄺𑄻𑄼𑄽𑄾𑄿"
  notPlain := u! ""
  forbid := us!["𑄃𑄮𑄀", "𑄴𑄬𑄬", "𑄴𑄧", "𑄴𑄨", "𑄴𑄩", "𑄴𑄪", "𑄴𑄫", "𑄴𑄬", "𑄴𑄰", "𑄴𑄮", "𑄴𑄯", "𑄴𑅅", "𑄬𑄬"]
  natDrop := u! ""
  natForbid := []

def coreMeeteiMayek : CoreEntry where
  script := u! "MeeteiMayek"
  letters := u! "꯫ꯪꫵ꯭ꯥꯤꫫꯨꫬꯦꯩꯣꯧꯑꯏꯎꯀꯈꯒꯘꯉꯆꫢꯖꯓꫣꫤꫥꫦꫧꫨꯇꯊꯗꯙꯅꯄꯐꯕꯚꯃꯌꯔꯂꯋꫩꫪꯁꯍ꯰꯱꯲꯳꯴꯵꯶꯷꯸꯹"
  notPlain := u! ""
  forbid := us!["ꯑꯣꯪ", "꯫꯫", "ꯑꯥ", "ꯑꫫ", "ꯑꫬ", "ꯑꯦ", "ꯑꯩ", "ꯑꯣ", "ꯑꯧ", "ꯀ꯭", "ꯂ꯭", "ꯃ꯭", "ꯄ꯭", "ꯅ꯭", "ꯇ꯭", "ꯉ꯭", "ꯌ꯭"]
  natDrop := u! "ꫵꫫꫬꫢꫣꫤꫥꫦꫧꫨꫩꫪ"
  natForbid := []

def coreBatakKaro : CoreEntry where
  script := u! "BatakKaro"
  letters := u! "ᯰᯱ᯳ᯫᯬᯩᯭᯧᯀᯤᯥᯂᯎᯝᯡᯐᯗᯑᯉᯇᯆᯔᯛᯒᯞᯋᯘᯢᯣ"
  notPlain := u! ".0123456789"
  forbid := us!["ᯥᯔ᯳ʽ"]
  natDrop := u! ""
  natForbid := []

def coreBatakPakpak : CoreEntry where
  script := u! "BatakPakpak"
  letters := u! "ᯰᯱ᯲ᯪᯮᯨᯬᯧᯀᯤᯥᯂᯎᯝᯐᯗᯑᯉᯇᯅᯔᯛᯒᯞᯍᯘ"
  notPlain := u! ".0123456789"
  forbid := us!["ᯥᯔ᯲ʽ"]
  natDrop := u! ""
  natForbid := []

def coreBatakSima : CoreEntry where
  script := u! "BatakSima"
  letters := u! "ᯰᯱ᯳ᯫᯮᯭᯩᯬᯁᯤᯥᯃᯏᯝᯐᯠᯖᯑᯉᯈᯅᯕᯜᯓᯟᯌᯙ"
  notPlain := u! ".0123456789"
  forbid := us!["ᯥᯕ᯳ʽ", "ᯙᯮ"]
  natDrop := u! ""
  natForbid := []

def coreBatakToba : CoreEntry where
  script := u! "BatakToba"
  letters := u! "ᯰ᯲ᯪᯮᯩᯬᯀᯤᯥᯂᯎᯝᯐᯠᯗᯑᯉᯇᯅᯔᯛᯒᯞᯍᯘ"
  notPlain := u! ".0123456789"
  forbid := us!["ᯥᯔ᯲ʽ"]
  natDrop := u! ""
  natForbid := []

def coreBatakManda : CoreEntry where
  script := u! "BatakManda"
  letters := u! "ᯰ᯲ᯪᯮᯩᯬᯀᯤᯥᯎᯝᯐᯠᯖᯑᯊᯇᯅᯔᯛᯒᯞᯍᯚᯄ"
  notPlain := u! ".0123456789"
  forbid := us!["ᯥᯔ᯲ʽ"]
  natDrop := u! ""
  natForbid := []

def coreCham : CoreEntry where
  script := u! "Cham"
  letters := u! "꩝꩞ꩃꩌꨩꨪꨫꨭꨰꨯꨀꨁꨂꨃꨄꨅꨆꨇꨈꨉꨋꨌꨍꨎꨏꨑꨓꨔꨕꨖꨘꨚꨜꨝꨞꨠꨢꨣꨤꨥꨦꨧꨨꨒꨙꨡ꩐꩑꩒꩓꩔꩕꩖꩗꩘꩙"
  notPlain := u! ""
  forbid := us!["ꨅꩌ", "ꨭꨩ", "ꨀꨩ", "ꨁꨩ", "ꨂꨩ"]
  natDrop := u! ""
  natForbid := []

def coreTaiTham : CoreEntry where
  script := u! "TaiTham"
  letters := u! "᪨᪩ᩴᩡ᩵᩶᩷᩸᩹᩺ᩣᩥᩦᩩᩪᩮᩱᩢᩳᩬᩧᩨᩭᩋᩍᩎᩏᩐᩂᩄᩑᩒᨠᨡᨥᨦᨧᨨᨩᨫᨬᨭᨮᨯᨰᨱᨲᨳᨶᨸᨹᨻᨽᨾᨿᩁᩃᩆᩇᩈᩉᨷᨤᨺᨪᩌᩀᩊ᪐᪑᪒᪓᪔᪕᪖᪗᪘᪙"
  notPlain := u! ""
  forbid := us!["ᩒᩴ", "᩺ᩂ", "᩺ᩄ", "ᩮᩣ", "ᩮᩨᩬ", "ᩮᩨ", "ᩋᩣ", "ᩂᩣ", "ᩄᩣ", "ᩋᩱ", "ᩋᩢ", "ᩋᩳ", "ᩋᩬ", "ᩋᩧ", "ᩋᩨ", "ᩋᩭ", "ᩋᩮᩢᩣ", "᩺ᩁ", "᩺ᩃ", "ᨦ᩺ᨠ", "ᨦ᩺ᨡ", "ᨦ᩺ᨣ", "ᨦ᩺ᨥ", "ᨦ᩺ᨦ", "ᨦ᩺ᨧ", "ᨦ᩺ᨨ", "ᨦ᩺ᨩ", "ᨦ᩺ᨫ", "ᨦ᩺ᨬ", "ᨦ᩺ᨭ", "ᨦ᩺ᨮ", "ᨦ᩺ᨯ", "ᨦ᩺ᨰ", "ᨦ᩺ᨱ", "ᨦ᩺ᨲ", "ᨦ᩺ᨳ", "ᨦ᩺ᨴ", "ᨦ᩺ᨵ", "ᨦ᩺ᨶ", "ᨦ᩺ᨸ", "ᨦ᩺ᨹ", "ᨦ᩺ᨻ", "ᨦ᩺ᨽ", "ᨦ᩺ᨾ", "ᨦ᩺ᨿ", "ᨦ᩺ᩅ", "ᨦ᩺ᩆ", "ᨦ᩺ᩇ", "ᨦ᩺ᩈ", "ᨦ᩺ᩉ", "ᨦ᩺ᨷ", "ᨦ᩺ᨤ", "ᨦ᩺ᨺ", "ᨦ᩺ᨪ", "ᨦ᩺ᩌ", "ᨦ᩺ᩀ", "ᨦ᩺ᩊ", "᩺ᨠ", "᩺ᨡ", "᩺ᨣ", "᩺ᨥ", "᩺ᨦ", "᩺ᨧ", "᩺ᨨ", "᩺ᨩ", "᩺ᨫ", "᩺ᨬ", "᩺ᨭ", "᩺ᨮ", "᩺ᨯ", "᩺ᨰ", "᩺ᨱ", "᩺ᨲ", "᩺ᨳ", "᩺ᨴ", "᩺ᨵ", "᩺ᨶ", "᩺ᨸ", "᩺ᨹ", "᩺ᨻ", "᩺ᨽ", "᩺ᨾ", "᩺ᨿ", "᩺ᩅ", "᩺ᩆ", "᩺ᩇ", "᩺ᩈ", "᩺ᩉ", "᩺ᨷ", "᩺ᨤ", "᩺ᨺ", "᩺ᨪ", "᩺ᩌ", "᩺ᩀ", "᩺ᩊ"]
  natDrop := u! ""
  natForbid := []

def coreBrahmi : CoreEntry where
  script := u! "Brahmi"
  letters := u! "𑁇𑁈𑀀𑀁𑀂𑀃𑀄𑁆𑀸𑀺𑀻𑀼𑀽𑀾𑀿𑁀𑁁𑁂𑁃𑁄𑁅𑀅𑀆𑀇𑀈𑀉𑀊𑀋𑀌𑀍𑀎𑀏𑀐𑀑𑀒𑀓𑀔𑀕𑀖𑀗𑀘𑀙𑀚𑀛𑀜𑀝𑀞𑀟𑀠𑀡𑀢𑀣𑀤𑀥𑀦𑀧𑀨𑀩𑀪𑀫𑀬𑀭𑀮𑀯𑀰𑀱𑀲𑀳𑀴𑁦𑁧𑁨𑁩𑁪𑁫𑁬𑁭𑁮𑁯"
  notPlain := u! ""
  forbid := us!["𑀑𑀁"]
  natDrop := u! ""
  natForbid := []

def coreTable : List CoreEntry := [
  coreDivesAkuru, coreTibetanLoC, coreGurmukhiLoC, coreLimbuLoC, coreThamLoC, coreKhmerLoC,
  coreShanLoC, coreBengaliRaBa, coreMakasar, coreNandinagari, coreKawi, corePallava, coreLaoTham,
  coreLueTham, coreKhuenTham, coreTamilExtended, coreMarchen, coreMasaramGondi, coreGunjalaGondi,
  coreSoyombo, coreDogra, coreKhomThai, coreKhamtiShan, coreTaiLaing, coreMon, coreKhojki, coreShan,
  coreRanjana, coreZanabazarSquare, coreRejang, coreGranthaGrantamil, coreDevanagari, coreMultani,
  coreAhom, coreMahajani, coreHanunoo, coreBuhid, coreSiddham, coreSiddhamDevanagari,
  coreGranthaPandya, coreVatteluttu, coreKhudawadi, coreBhaiksuki, coreSharada, coreNewa, coreTakri,
  coreSylotiNagri, coreTirhuta, coreModi, coreKaithi, coreKharoshthi, coreTelugu, coreKannada,
  coreMalayalam, coreGujarati, coreBengali, coreOriya, coreGurmukhi, coreTamil, coreAssamese,
  coreSaurashtra, coreTamilBrahmi, coreGrantha, coreTamilGrantha, coreSinhala, coreKhmer,
  coreBurmese, coreBalinese, coreJavanese, coreTibetan, coreOldPersian, coreLimbu, coreLepcha,
  coreSundanese, coreTagalog, coreTagbanwa, coreBuginese, coreChakma, coreMeeteiMayek,
  coreBatakKaro, coreBatakPakpak, coreBatakSima, coreBatakToba, coreBatakManda, coreCham,
  coreTaiTham, coreBrahmi]

end Verif
