import Verif.Model.Fns14

/-!
# Lookup of functions by name

Generated by tools/gendispatch.py.
-/

set_option maxRecDepth 20000

namespace Verif

/-- `getattr(CF, "Fix" + script)(Strng, reverse = b)` (Convert.py:63, 154, 177, 231) and
`globals()["Fix" + script](Strng)` (ConvertFix.py:373) for the scripts that have a `Fix` function
(b = False is the default). -/
def fixIndicFns : List (PyStr × (Bool → Gen Unit)) := [
  ((u! "DivesAkuru"), fun b => ConvertFix.FixDivesAkuru b),
  ((u! "TibetanLoC"), fun b => ConvertFix.FixTibetanLoC b),
  ((u! "GurmukhiLoC"), fun b => ConvertFix.FixGurmukhiLoC b),
  ((u! "LimbuLoC"), fun b => ConvertFix.FixLimbuLoC b),
  ((u! "ThamLoC"), fun b => ConvertFix.FixThamLoC b),
  ((u! "KhmerLoC"), fun b => ConvertFix.FixKhmerLoC b),
  ((u! "Makasar"), fun b => ConvertFix.FixMakasar b),
  ((u! "Nandinagari"), fun b => ConvertFix.FixNandinagari b),
  ((u! "Kawi"), fun b => ConvertFix.FixKawi b),
  ((u! "Shahmukhi"), fun b => ConvertFix.FixShahmukhi b),
  ((u! "Hebrew"), fun b => ConvertFix.FixHebrew b),
  ((u! "LaoTham"), fun b => ConvertFix.FixLaoTham b),
  ((u! "LueTham"), fun b => ConvertFix.FixLueTham b),
  ((u! "KhuenTham"), fun b => ConvertFix.FixKhuenTham b),
  ((u! "TamilExtended"), fun b => ConvertFix.FixTamilExtended b),
  ((u! "Marchen"), fun b => ConvertFix.FixMarchen b),
  ((u! "MasaramGondi"), fun b => ConvertFix.FixMasaramGondi b),
  ((u! "GunjalaGondi"), fun b => ConvertFix.FixGunjalaGondi b),
  ((u! "Soyombo"), fun b => ConvertFix.FixSoyombo b),
  ((u! "KhomThai"), fun b => ConvertFix.FixKhomThai b),
  ((u! "KhamtiShan"), fun b => ConvertFix.FixKhamtiShan b),
  ((u! "TaiLaing"), fun b => ConvertFix.FixTaiLaing b),
  ((u! "Mon"), fun b => ConvertFix.FixMon b),
  ((u! "Khojki"), fun b => ConvertFix.FixKhojki b),
  ((u! "Shan"), fun b => ConvertFix.FixShan b),
  ((u! "ZanabazarSquare"), fun b => ConvertFix.FixZanabazarSquare b),
  ((u! "Rejang"), fun b => ConvertFix.FixRejang b),
  ((u! "Devanagari"), fun b => ConvertFix.FixDevanagari b),
  ((u! "Multani"), fun b => ConvertFix.FixMultani b),
  ((u! "Ahom"), fun b => ConvertFix.FixAhom b),
  ((u! "Mahajani"), fun b => ConvertFix.FixMahajani b),
  ((u! "Lao2"), fun b => ConvertFix.FixLao2 b),
  ((u! "Buhid"), fun b => ConvertFix.FixBuhid b),
  ((u! "Siddham"), fun b => ConvertFix.FixSiddham b),
  ((u! "Khudawadi"), fun b => ConvertFix.FixKhudawadi b),
  ((u! "Bhaiksuki"), fun b => ConvertFix.FixBhaiksuki b),
  ((u! "Sharada"), fun b => ConvertFix.FixSharada b),
  ((u! "Newa"), fun b => ConvertFix.FixNewa b),
  ((u! "Kaithi"), fun b => ConvertFix.FixKaithi b),
  ((u! "Kharoshthi"), fun b => ConvertFix.FixKharoshthi b),
  ((u! "Telugu"), fun b => ConvertFix.FixTelugu b),
  ((u! "Kannada"), fun b => ConvertFix.FixKannada b),
  ((u! "Malayalam"), fun b => ConvertFix.FixMalayalam b),
  ((u! "Gujarati"), fun b => ConvertFix.FixGujarati b),
  ((u! "Bengali"), fun b => ConvertFix.FixBengali b),
  ((u! "Oriya"), fun b => ConvertFix.FixOriya b),
  ((u! "Gurmukhi"), fun b => ConvertFix.FixGurmukhi b),
  ((u! "Tamil"), fun b => ConvertFix.FixTamil b),
  ((u! "Assamese"), fun b => ConvertFix.FixAssamese b),
  ((u! "Saurashtra"), fun b => ConvertFix.FixSaurashtra b),
  ((u! "Grantha"), fun b => ConvertFix.FixGrantha b),
  ((u! "TamilGrantha"), fun b => ConvertFix.FixTamilGrantha b),
  ((u! "Sinhala"), fun b => ConvertFix.FixSinhala b),
  ((u! "Khmer"), fun b => ConvertFix.FixKhmer b),
  ((u! "Burmese"), fun b => ConvertFix.FixBurmese b),
  ((u! "Urdu"), fun b => ConvertFix.FixUrdu b),
  ((u! "Balinese"), fun b => ConvertFix.FixBalinese b),
  ((u! "Javanese"), fun b => ConvertFix.FixJavanese b),
  ((u! "Thaana"), fun b => ConvertFix.FixThaana b),
  ((u! "Tibetan"), fun b => ConvertFix.FixTibetan b),
  ((u! "Thai"), fun b => ConvertFix.FixThai b),
  ((u! "OldPersian"), fun b => ConvertFix.FixOldPersian b),
  ((u! "Limbu"), fun b => ConvertFix.FixLimbu b),
  ((u! "Lepcha"), fun b => ConvertFix.FixLepcha b),
  ((u! "Sundanese"), fun b => ConvertFix.FixSundanese b),
  ((u! "Tagbanwa"), fun b => ConvertFix.FixTagbanwa b),
  ((u! "Buginese"), fun b => ConvertFix.FixBuginese b),
  ((u! "Chakma"), fun b => ConvertFix.FixChakma b),
  ((u! "PhagsPa"), fun b => ConvertFix.FixPhagsPa b),
  ((u! "MeeteiMayek"), fun b => ConvertFix.FixMeeteiMayek b),
  ((u! "LaoPali"), fun b => ConvertFix.FixLaoPali b),
  ((u! "BatakSima"), fun b => ConvertFix.FixBatakSima b),
  ((u! "Cham"), fun b => ConvertFix.FixCham b),
  ((u! "TaiTham"), fun b => ConvertFix.FixTaiTham b),
  ((u! "Lao"), fun b => ConvertFix.FixLao b),
  ((u! "RomanColloquial"), fun b => ConvertFix.FixRomanColloquial b),
  ((u! "Mongolian"), fun b => ConvertFix.FixMongolian b),
  ((u! "Wancho"), fun b => ConvertFix.FixWancho b),
  ((u! "Mro"), fun b => ConvertFix.FixMro b),
  ((u! "HanifiRohingya"), fun b => ConvertFix.FixHanifiRohingya b),
  ((u! "RomanReadable"), fun b => ConvertFix.FixRomanReadable b),
  ((u! "WarangCiti"), fun b => ConvertFix.FixWarangCiti b),
  ((u! "SoraSompeng"), fun b => ConvertFix.FixSoraSompeng b),
  ((u! "Avestan"), fun b => ConvertFix.FixAvestan b),
  ((u! "IAST"), fun b => ConvertFix.FixIAST b),
  ((u! "IPA"), fun b => ConvertFix.FixIPA b),
  ((u! "Santali"), fun b => ConvertFix.FixSantali b)]

/-- `getattr(CF, "Fix" + script.replace("-", "_"))(Strng, source, reverse = b)` (Convert.py:290, 342)
and `globals()["Fix" + ...](Strng, source)` (ConvertFix.py:358). -/
def fixSemiticFns : List (PyStr × (PyStr → Bool → Gen Unit)) := [
  ((u! "Thaa"), fun source b => ConvertFix.FixThaa source b),
  ((u! "Arab-Ur"), fun source b => ConvertFix.FixArab_Ur source b),
  ((u! "Arab-Fa"), fun source b => ConvertFix.FixArab_Fa source b),
  ((u! "Latn"), fun source b => ConvertFix.FixLatn source b),
  ((u! "Arab"), fun source b => ConvertFix.FixArab source b),
  ((u! "Hebr"), fun source b => ConvertFix.FixHebr source b),
  ((u! "Sogd"), fun source b => ConvertFix.FixSogd source b),
  ((u! "Ugar"), fun source b => ConvertFix.FixUgar source b)]

/-- The functions of PreProcess.py by name, sorted as by `getmembers`, applied to the text alone
(`TypeError` for those that need more arguments). -/
def preFns : List (PyStr × Gen Unit) := [
  ((u! "AlephMaterLectionis"), PreProcess.AlephMaterLectionis),
  ((u! "AnuChandraEq"), fail .typeError),
  ((u! "AnuChandraEqDeva"), PreProcess.AnuChandraEqDeva),
  ((u! "ArabicGimelJa"), PreProcess.ArabicGimelJa),
  ((u! "ArabizePersian"), PreProcess.ArabizePersian),
  ((u! "ArchaicJnaSimplifyRomanLOC"), PreProcess.ArchaicJnaSimplifyRomanLOC),
  ((u! "BalineseJavaneseMoveRepha"), fail .typeError),
  ((u! "BalineseMoveRepha"), PreProcess.BalineseMoveRepha),
  ((u! "BalineseRomanLoCFix"), PreProcess.BalineseRomanLoCFix),
  ((u! "BengaliSubojinedVa"), PreProcess.BengaliSubojinedVa),
  ((u! "BengaliSwitchYaYYa"), PreProcess.BengaliSwitchYaYYa),
  ((u! "BengaliTargetVa"), PreProcess.BengaliTargetVa),
  ((u! "BurmeseRomanLoCSource"), PreProcess.BurmeseRomanLoCSource),
  ((u! "BurmeseRomanLoCTarget"), PreProcess.BurmeseRomanLoCTarget),
  ((u! "ChakmaPali"), PreProcess.ChakmaPali),
  ((u! "CyrillicPali"), PreProcess.CyrillicPali),
  ((u! "DevanagariRomanLoCFix"), PreProcess.DevanagariRomanLoCFix),
  ((u! "DivesAkuruAlternateIndVowels"), PreProcess.DivesAkuruAlternateIndVowels),
  ((u! "FixSemiticRoman"), fail .typeError),
  ((u! "GranthaPrakrit"), PreProcess.GranthaPrakrit),
  ((u! "HatrDalethResh"), PreProcess.HatrDalethResh),
  ((u! "HebrewSBLSource"), PreProcess.HebrewSBLSource),
  ((u! "HebrewSBLTarget"), PreProcess.HebrewSBLTarget),
  ((u! "HindiMarathiRomanLoCFix"), PreProcess.HindiMarathiRomanLoCFix),
  ((u! "IASTLDotRetroflex"), PreProcess.IASTLDotRetroflex),
  ((u! "IASTPali"), PreProcess.IASTPali),
  ((u! "IPAIndic"), PreProcess.IPAIndic),
  ((u! "ISO233Source"), PreProcess.ISO233Source),
  ((u! "ISO233Target"), PreProcess.ISO233Target),
  ((u! "ISO259Source"), PreProcess.ISO259Source),
  ((u! "ISO259Target"), PreProcess.ISO259Target),
  ((u! "ItransLL"), PreProcess.ItransLL),
  ((u! "JapanesePreProcess"), fail .typeError),
  ((u! "JavaneseMoveRepha"), PreProcess.JavaneseMoveRepha),
  ((u! "JavaneseRomanLoCFix"), PreProcess.JavaneseRomanLoCFix),
  ((u! "KawiMoveRepha"), PreProcess.KawiMoveRepha),
  ((u! "KhandaTaRomanLoC"), PreProcess.KhandaTaRomanLoC),
  ((u! "KhmerLoCRomanLoCSource"), PreProcess.KhmerLoCRomanLoCSource),
  ((u! "KhmerLoCRomanLoCTarget"), PreProcess.KhmerLoCRomanLoCTarget),
  ((u! "KhmerWordSplit"), PreProcess.KhmerWordSplit),
  ((u! "KhuenRaHaamKaren"), PreProcess.KhuenRaHaamKaren),
  ((u! "LaoPhonetic"), PreProcess.LaoPhonetic),
  ((u! "LaoSajhayaOrthography"), PreProcess.LaoSajhayaOrthography),
  ((u! "LaoSajhayaOrthographywithA"), PreProcess.LaoSajhayaOrthographywithA),
  ((u! "LaoTranscription"), PreProcess.LaoTranscription),
  ((u! "LimbuDevanagariConvention"), PreProcess.LimbuDevanagariConvention),
  ((u! "LimbuSpellingSaI"), PreProcess.LimbuSpellingSaI),
  ((u! "MalayalamHalfu"), PreProcess.MalayalamHalfu),
  ((u! "MalayalamPrakrit"), PreProcess.MalayalamPrakrit),
  ((u! "MalayalamRomanLoCFix"), PreProcess.MalayalamRomanLoCFix),
  ((u! "MalayalamTranscribe"), PreProcess.MalayalamTranscribe),
  ((u! "OriyaSubojinedVa"), PreProcess.OriyaSubojinedVa),
  ((u! "OriyaTargetVa"), PreProcess.OriyaTargetVa),
  ((u! "PersianDMGTarget"), PreProcess.PersianDMGTarget),
  ((u! "PhagsPaArrange"), fail .typeError),
  ((u! "PhliWawAyinResh"), PreProcess.PhliWawAyinResh),
  ((u! "PhlpMemQoph"), PreProcess.PhlpMemQoph),
  ((u! "PhlpWawAyinResh"), PreProcess.PhlpWawAyinResh),
  ((u! "PreProcess"), fail .typeError),
  ((u! "RemoveFinal"), fail .typeError),
  ((u! "RemoveJoiners"), PreProcess.RemoveJoiners),
  ((u! "RemoveSchwaHindi"), PreProcess.RemoveSchwaHindi),
  ((u! "RetainDevangariDanda"), PreProcess.RetainDevangariDanda),
  ((u! "RetainPipeDanda"), fail .typeError),
  ((u! "RomanLoCChandrabindu"), PreProcess.RomanLoCChandrabindu),
  ((u! "RomanLoCLaUnderscoreDoubleDot"), PreProcess.RomanLoCLaUnderscoreDoubleDot),
  ((u! "RomanLoCSLaDotLaUnderscore"), PreProcess.RomanLoCSLaDotLaUnderscore),
  ((u! "RomanLoCSasha"), PreProcess.RomanLoCSasha),
  ((u! "RomanLoCVaWa"), PreProcess.RomanLoCVaWa),
  ((u! "RomanPreFix"), fail .typeError),
  ((u! "SanskritLexicaizeHK"), PreProcess.SanskritLexicaizeHK),
  ((u! "SaurastraHaaruColonTamil"), PreProcess.SaurastraHaaruColonTamil),
  ((u! "SchwaFinalBengali"), PreProcess.SchwaFinalBengali),
  ((u! "SchwaFinalGujarati"), PreProcess.SchwaFinalGujarati),
  ((u! "SchwaFinalGurmukhi"), PreProcess.SchwaFinalGurmukhi),
  ((u! "SchwaFinalKhmer"), PreProcess.SchwaFinalKhmer),
  ((u! "SchwaFinalKhmerLoC"), PreProcess.SchwaFinalKhmerLoC),
  ((u! "SchwaFinalWarangCiti"), PreProcess.SchwaFinalWarangCiti),
  ((u! "ShanLoCRomanLoCSource"), PreProcess.ShanLoCRomanLoCSource),
  ((u! "ShanLoCRomanLoCTarget"), PreProcess.ShanLoCRomanLoCTarget),
  ((u! "ShowChillus"), PreProcess.ShowChillus),
  ((u! "ShowKhandaTa"), PreProcess.ShowKhandaTa),
  ((u! "SinhalaPali"), PreProcess.SinhalaPali),
  ((u! "SogdReshAyin"), PreProcess.SogdReshAyin),
  ((u! "SogoReshAyinDaleth"), PreProcess.SogoReshAyinDaleth),
  ((u! "TaiKuen"), PreProcess.TaiKuen),
  ((u! "TaiThamLao"), PreProcess.TaiThamLao),
  ((u! "TakriArchaicKha"), PreProcess.TakriArchaicKha),
  ((u! "TamilNumeralSub"), PreProcess.TamilNumeralSub),
  ((u! "TamilTranscribe"), PreProcess.TamilTranscribe),
  ((u! "TamilTranscribeCommon"), PreProcess.TamilTranscribeCommon),
  ((u! "TamilTranscribeDialect"), PreProcess.TamilTranscribeDialect),
  ((u! "ThaiOrthography"), PreProcess.ThaiOrthography),
  ((u! "ThaiPhonetic"), PreProcess.ThaiPhonetic),
  ((u! "ThaiSajjhayaOrthography"), PreProcess.ThaiSajjhayaOrthography),
  ((u! "ThaiSajjhayawithA"), PreProcess.ThaiSajjhayawithA),
  ((u! "ThamLoCRomanLoCSource"), PreProcess.ThamLoCRomanLoCSource),
  ((u! "ThamLoCRomanLoCTarget"), PreProcess.ThamLoCRomanLoCTarget),
  ((u! "TibetanLoCRomanLoCFix"), PreProcess.TibetanLoCRomanLoCFix),
  ((u! "UnSupThaana"), PreProcess.UnSupThaana),
  ((u! "UrduShortNotShown"), PreProcess.UrduShortNotShown),
  ((u! "default"), PreProcess.default),
  ((u! "egrantamil"), PreProcess.egrantamil),
  ((u! "eiaudipthongs"), PreProcess.eiaudipthongs),
  ((u! "holamlong"), PreProcess.holamlong),
  ((u! "insertViramaSyriac"), PreProcess.insertViramaSyriac),
  ((u! "joinVowelCons"), fail .typeError),
  ((u! "joinVowelConsIAST"), PreProcess.joinVowelConsIAST),
  ((u! "joinVowelConsISO"), PreProcess.joinVowelConsISO),
  ((u! "longEOISO"), PreProcess.longEOISO),
  ((u! "normalize"), fail .typeError),
  ((u! "novowelshebrewIndic"), PreProcess.novowelshebrewIndic),
  ((u! "novowelshebrewSemitic"), PreProcess.novowelshebrewSemitic),
  ((u! "paliTham"), PreProcess.paliTham),
  ((u! "perisanizeArab"), PreProcess.perisanizeArab),
  ((u! "removeChillus"), PreProcess.removeChillus),
  ((u! "removeFinalSchwaArab"), PreProcess.removeFinalSchwaArab),
  ((u! "removeZW"), PreProcess.removeZW),
  ((u! "retainLatin"), PreProcess.retainLatin),
  ((u! "segmentBurmeseSyllables"), PreProcess.segmentBurmeseSyllables),
  ((u! "segmentShanSyllables"), PreProcess.segmentShanSyllables),
  ((u! "segmentThamSyllabes"), PreProcess.segmentThamSyllabes),
  ((u! "semiticizeUrdu"), PreProcess.semiticizeUrdu),
  ((u! "shvanakhall"), PreProcess.shvanakhall),
  ((u! "siddhamUnicode"), PreProcess.siddhamUnicode),
  ((u! "siddhammukta"), PreProcess.siddhammukta),
  ((u! "swapEe"), PreProcess.swapEe),
  ((u! "swapEeItrans"), PreProcess.swapEeItrans),
  ((u! "wasvnukta"), PreProcess.wasvnukta)]

/-- The functions of PostProcess.py by name, sorted as by `getmembers`, applied to the text alone
(`TypeError` for those that need more arguments). -/
def postFns : List (PyStr × Gen Unit) := [
  ((u! "AhomClosed"), PostProcess.AhomClosed),
  ((u! "AlephMaterLectionis"), PostProcess.AlephMaterLectionis),
  ((u! "AmbigousTamilOrthography"), PostProcess.AmbigousTamilOrthography),
  ((u! "AnusvaraAsN"), PostProcess.AnusvaraAsN),
  ((u! "AnusvaraToNasal"), fail .typeError),
  ((u! "AnusvaraToNasalIPA"), PostProcess.AnusvaraToNasalIPA),
  ((u! "AnusvaratoNasalASTISO"), PostProcess.AnusvaratoNasalASTISO),
  ((u! "ArabAtoAleph"), PostProcess.ArabAtoAleph),
  ((u! "ArabRemoveAdditions"), PostProcess.ArabRemoveAdditions),
  ((u! "ArabicGimelGaGha"), PostProcess.ArabicGimelGaGha),
  ((u! "ArabicGimelPaBa"), PostProcess.ArabicGimelPaBa),
  ((u! "AvestanConventions"), PostProcess.AvestanConventions),
  ((u! "BalineseArchaicJNA"), PostProcess.BalineseArchaicJNA),
  ((u! "BalineseAvowels"), PostProcess.BalineseAvowels),
  ((u! "BalineseJavaneseMoveRepha"), fail .typeError),
  ((u! "BalineseMoveRepha"), PostProcess.BalineseMoveRepha),
  ((u! "BalineseRomanLoCFix"), PostProcess.BalineseRomanLoCFix),
  ((u! "BalineseSimplified"), PostProcess.BalineseSimplified),
  ((u! "BengaliConjunctVB"), PostProcess.BengaliConjunctVB),
  ((u! "BengaliIntervocalicDDA"), PostProcess.BengaliIntervocalicDDA),
  ((u! "BengaliOldRA"), PostProcess.BengaliOldRA),
  ((u! "BengaliRaBa"), PostProcess.BengaliRaBa),
  ((u! "BengaliSwitchYaYYa"), PostProcess.BengaliSwitchYaYYa),
  ((u! "BengaliYYA"), PostProcess.BengaliYYA),
  ((u! "BhaiksukiRetainSpace"), PostProcess.BhaiksukiRetainSpace),
  ((u! "BurmeseRomanLoCSource"), PostProcess.BurmeseRomanLoCSource),
  ((u! "BurmeseRomanLoCTarget"), PostProcess.BurmeseRomanLoCTarget),
  ((u! "ChakmaAVowels"), PostProcess.ChakmaAVowels),
  ((u! "ChakmaEnableAllConjuncts"), PostProcess.ChakmaEnableAllConjuncts),
  ((u! "ChakmaGemination"), PostProcess.ChakmaGemination),
  ((u! "ChakmaPali"), PostProcess.ChakmaPali),
  ((u! "ChakmaVowelsIndependent"), PostProcess.ChakmaVowelsIndependent),
  ((u! "ContextualLLa"), PostProcess.ContextualLLa),
  ((u! "CyrillicPali"), PostProcess.CyrillicPali),
  ((u! "DevanagariACandra"), PostProcess.DevanagariACandra),
  ((u! "DevanagariAVowels"), PostProcess.DevanagariAVowels),
  ((u! "DevanagariAnusvara"), PostProcess.DevanagariAnusvara),
  ((u! "DevanagariPrishtamatra"), PostProcess.DevanagariPrishtamatra),
  ((u! "DevanagariRomanLoCFix"), PostProcess.DevanagariRomanLoCFix),
  ((u! "DivesAkuruAlternateIndVowels"), PostProcess.DivesAkuruAlternateIndVowels),
  ((u! "DivesAkuruHomoOrganNasal"), PostProcess.DivesAkuruHomoOrganNasal),
  ((u! "DograShaKha"), PostProcess.DograShaKha),
  ((u! "Dot2Dandas"), PostProcess.Dot2Dandas),
  ((u! "Dot2Pipes"), PostProcess.Dot2Pipes),
  ((u! "FinalNNa"), PostProcess.FinalNNa),
  ((u! "FixSemiticRoman"), fail .typeError),
  ((u! "FixTallA"), fail .typeError),
  ((u! "GranthaOldau"), PostProcess.GranthaOldau),
  ((u! "GranthaPrakrit"), PostProcess.GranthaPrakrit),
  ((u! "GurmukhiCandrabindu"), PostProcess.GurmukhiCandrabindu),
  ((u! "GurmukhiRomanLoCFix"), PostProcess.GurmukhiRomanLoCFix),
  ((u! "GurmukhiTippiBindu"), PostProcess.GurmukhiTippiBindu),
  ((u! "GurmukhiTippiGemination"), PostProcess.GurmukhiTippiGemination),
  ((u! "GurmukhiYakaash"), PostProcess.GurmukhiYakaash),
  ((u! "HeberewQoph"), PostProcess.HeberewQoph),
  ((u! "HebewShortO"), PostProcess.HebewShortO),
  ((u! "HebrewKatevMalei"), PostProcess.HebrewKatevMalei),
  ((u! "HebrewSBLSource"), PostProcess.HebrewSBLSource),
  ((u! "HebrewSBLTarget"), PostProcess.HebrewSBLTarget),
  ((u! "HebrewVetVav"), PostProcess.HebrewVetVav),
  ((u! "HebrewnonFinalShort"), PostProcess.HebrewnonFinalShort),
  ((u! "HindiMarathiRomanLoCFix"), PostProcess.HindiMarathiRomanLoCFix),
  ((u! "HiraganaaunotDipthong"), PostProcess.HiraganaaunotDipthong),
  ((u! "IASTISONasalTilde"), PostProcess.IASTISONasalTilde),
  ((u! "IASTPali"), PostProcess.IASTPali),
  ((u! "IPARemoveCross"), PostProcess.IPARemoveCross),
  ((u! "ISO233Source"), PostProcess.ISO233Source),
  ((u! "ISO233Target"), PostProcess.ISO233Target),
  ((u! "ISO259Source"), PostProcess.ISO259Source),
  ((u! "ISO259Target"), PostProcess.ISO259Target),
  ((u! "InsertGeminationSign"), fail .typeError),
  ((u! "JapanesePostProcess"), fail .typeError),
  ((u! "JavaneseArchaicJNA"), PostProcess.JavaneseArchaicJNA),
  ((u! "JavaneseAvowels"), PostProcess.JavaneseAvowels),
  ((u! "JavaneseMoveRepha"), PostProcess.JavaneseMoveRepha),
  ((u! "JavaneseRomanLoCFix"), PostProcess.JavaneseRomanLoCFix),
  ((u! "JavaneseSimplified"), PostProcess.JavaneseSimplified),
  ((u! "KaithiRetainSpace"), PostProcess.KaithiRetainSpace),
  ((u! "KannadaNakaraPollu"), PostProcess.KannadaNakaraPollu),
  ((u! "KannadaNotRepha"), PostProcess.KannadaNotRepha),
  ((u! "KannadaSpacingCandrabindu"), PostProcess.KannadaSpacingCandrabindu),
  ((u! "KawiAltAiAU"), PostProcess.KawiAltAiAU),
  ((u! "KawiArchaicJNA"), PostProcess.KawiArchaicJNA),
  ((u! "KawiDecomposedVowel"), PostProcess.KawiDecomposedVowel),
  ((u! "KawiMoveRepha"), PostProcess.KawiMoveRepha),
  ((u! "KhamiShanMyanmarNumerals"), PostProcess.KhamiShanMyanmarNumerals),
  ((u! "KhamtiShanRa"), PostProcess.KhamtiShanRa),
  ((u! "KhandaTa"), fail .typeError),
  ((u! "KhandaTaRomanLoC"), PostProcess.KhandaTaRomanLoC),
  ((u! "KhmerLoCRomanLoCSource"), PostProcess.KhmerLoCRomanLoCSource),
  ((u! "KhmerLoCRomanLoCTarget"), PostProcess.KhmerLoCRomanLoCTarget),
  ((u! "KhojkiQa"), PostProcess.KhojkiQa),
  ((u! "KhojkiRRI"), PostProcess.KhojkiRRI),
  ((u! "KhojkiRetainSpace"), PostProcess.KhojkiRetainSpace),
  ((u! "LaoNative"), PostProcess.LaoNative),
  ((u! "LaoPhonetic"), PostProcess.LaoPhonetic),
  ((u! "LaoSajjhaya"), PostProcess.LaoSajjhaya),
  ((u! "LaoSajjhayawithA"), PostProcess.LaoSajjhayawithA),
  ((u! "LaoTranscription"), PostProcess.LaoTranscription),
  ((u! "LatinPipes"), PostProcess.LatinPipes),
  ((u! "LatnInitialVowels"), PostProcess.LatnInitialVowels),
  ((u! "LimbuDevanagariConvention"), PostProcess.LimbuDevanagariConvention),
  ((u! "LimbuSpellingSaI"), PostProcess.LimbuSpellingSaI),
  ((u! "LimburemoveHistorical"), PostProcess.LimburemoveHistorical),
  ((u! "LoCMarc8"), PostProcess.LoCMarc8),
  ((u! "MToAnusvara"), fail .typeError),
  ((u! "MalayalamAnusvaraNasal"), PostProcess.MalayalamAnusvaraNasal),
  ((u! "MalayalamChillu"), PostProcess.MalayalamChillu),
  ((u! "MalayalamCircVirama"), PostProcess.MalayalamCircVirama),
  ((u! "MalayalamLineVirama"), PostProcess.MalayalamLineVirama),
  ((u! "MalayalamNTA"), PostProcess.MalayalamNTA),
  ((u! "MalayalamPrakrit"), PostProcess.MalayalamPrakrit),
  ((u! "MalayalamRomanLoCFix"), PostProcess.MalayalamRomanLoCFix),
  ((u! "MalayalamTTNTA"), PostProcess.MalayalamTTNTA),
  ((u! "MalayalamremoveHistorical"), PostProcess.MalayalamremoveHistorical),
  ((u! "MarchenSanskritPalatals"), PostProcess.MarchenSanskritPalatals),
  ((u! "MedievalTamilOrthography"), PostProcess.MedievalTamilOrthography),
  ((u! "MeeteiMayekremoveHistorical"), PostProcess.MeeteiMayekremoveHistorical),
  ((u! "ModiRemoveLong"), PostProcess.ModiRemoveLong),
  ((u! "MongolianSyllabize"), PostProcess.MongolianSyllabize),
  ((u! "MultaniAbjad"), PostProcess.MultaniAbjad),
  ((u! "NandinagariPrishtamatra"), PostProcess.NandinagariPrishtamatra),
  ((u! "NasalTilde"), PostProcess.NasalTilde),
  ((u! "NasalToAnusvara"), fail .typeError),
  ((u! "NewaDisableRepha"), PostProcess.NewaDisableRepha),
  ((u! "NewaMurmurConsonants"), PostProcess.NewaMurmurConsonants),
  ((u! "NewaSpecialTa"), PostProcess.NewaSpecialTa),
  ((u! "OriyaVa"), PostProcess.OriyaVa),
  ((u! "OriyaVaAlt"), PostProcess.OriyaVaAlt),
  ((u! "OriyaYYA"), PostProcess.OriyaYYA),
  ((u! "PersianDMGSBLSource"), PostProcess.PersianDMGSBLSource),
  ((u! "PersianDMGTarget"), PostProcess.PersianDMGTarget),
  ((u! "PhagsPaRearrange"), fail .typeError),
  ((u! "PhagsPaSeal"), PostProcess.PhagsPaSeal),
  ((u! "PhagsPaTib"), PostProcess.PhagsPaTib),
  ((u! "PhoneticMapping"), PostProcess.PhoneticMapping),
  ((u! "RemoveDiacritics"), PostProcess.RemoveDiacritics),
  ((u! "RemoveDiacriticsTamil"), PostProcess.RemoveDiacriticsTamil),
  ((u! "RemoveSchwa"), fail .typeError),
  ((u! "RephaDoubleMalayalam"), PostProcess.RephaDoubleMalayalam),
  ((u! "RetainDandasIndic"), fail .typeError),
  ((u! "RetainGujaratiDanda"), PostProcess.RetainGujaratiDanda),
  ((u! "RetainGurmukhiNumerals"), PostProcess.RetainGurmukhiNumerals),
  ((u! "RetainIndicNumerals"), fail .typeError),
  ((u! "RetainKannadaDanda"), PostProcess.RetainKannadaDanda),
  ((u! "RetainKannadaNumerals"), PostProcess.RetainKannadaNumerals),
  ((u! "RetainMalayalamDanda"), PostProcess.RetainMalayalamDanda),
  ((u! "RetainMalayalamNumerals"), PostProcess.RetainMalayalamNumerals),
  ((u! "RetainRomanNumerals"), fail .typeError),
  ((u! "RetainTamilDanda"), PostProcess.RetainTamilDanda),
  ((u! "RetainTamilNumerals"), PostProcess.RetainTamilNumerals),
  ((u! "RetainTeluguDanda"), PostProcess.RetainTeluguDanda),
  ((u! "RetainTeluguNumerals"), PostProcess.RetainTeluguNumerals),
  ((u! "ReverseGeminationSign"), fail .typeError),
  ((u! "RomanLoCChandrabindu"), PostProcess.RomanLoCChandrabindu),
  ((u! "RomanLoCLaUnderscoreDoubleDot"), PostProcess.RomanLoCLaUnderscoreDoubleDot),
  ((u! "RomanLoCSLaDotLaUnderscore"), PostProcess.RomanLoCSLaDotLaUnderscore),
  ((u! "RomanLoCSasha"), PostProcess.RomanLoCSasha),
  ((u! "RomanLoCVaWa"), PostProcess.RomanLoCVaWa),
  ((u! "RomanReadableLongEO"), PostProcess.RomanReadableLongEO),
  ((u! "SaurashtraHaru"), PostProcess.SaurashtraHaru),
  ((u! "SaurastraHaaruColon"), PostProcess.SaurastraHaaruColon),
  ((u! "ShanLoCRomanLoCSource"), PostProcess.ShanLoCRomanLoCSource),
  ((u! "ShanLoCRomanLoCTarget"), PostProcess.ShanLoCRomanLoCTarget),
  ((u! "ShowSchwaHindi"), PostProcess.ShowSchwaHindi),
  ((u! "SinhalaChandrbinduAnusvara"), PostProcess.SinhalaChandrbinduAnusvara),
  ((u! "SinhalaConjuncts"), PostProcess.SinhalaConjuncts),
  ((u! "SinhalaDefaultConjuncts"), PostProcess.SinhalaDefaultConjuncts),
  ((u! "SinhalaPali"), PostProcess.SinhalaPali),
  ((u! "SinhalaSannakaNasalization"), PostProcess.SinhalaSannakaNasalization),
  ((u! "SogdReshAyin"), PostProcess.SogdReshAyin),
  ((u! "SogoReshAyinDaleth"), PostProcess.SogoReshAyinDaleth),
  ((u! "SoyomboFinals"), PostProcess.SoyomboFinals),
  ((u! "SoyomboInitials"), PostProcess.SoyomboInitials),
  ((u! "SoyomboSanskritPalatals"), PostProcess.SoyomboSanskritPalatals),
  ((u! "SoyomboSpaceTscheg"), PostProcess.SoyomboSpaceTscheg),
  ((u! "SoyomboSyllabize"), PostProcess.SoyomboSyllabize),
  ((u! "SundaneseHistoricConjuncts"), PostProcess.SundaneseHistoricConjuncts),
  ((u! "SundaneseRemoveHistoric"), PostProcess.SundaneseRemoveHistoric),
  ((u! "TaiKuen"), PostProcess.TaiKuen),
  ((u! "TaiThamHighNga"), PostProcess.TaiThamHighNga),
  ((u! "TaiThamLao"), PostProcess.TaiThamLao),
  ((u! "TaiThamMoveNnga"), PostProcess.TaiThamMoveNnga),
  ((u! "TaiThamO"), PostProcess.TaiThamO),
  ((u! "TakriArchaicKha"), PostProcess.TakriArchaicKha),
  ((u! "TakriRemoveGemination"), PostProcess.TakriRemoveGemination),
  ((u! "TamilAddFirstVarga"), PostProcess.TamilAddFirstVarga),
  ((u! "TamilDisableSHA"), PostProcess.TamilDisableSHA),
  ((u! "TamilExtendedAnusvara"), PostProcess.TamilExtendedAnusvara),
  ((u! "TamilExtendedNNA"), PostProcess.TamilExtendedNNA),
  ((u! "TamilGranthaVisarga"), PostProcess.TamilGranthaVisarga),
  ((u! "TamilNaToNNa"), PostProcess.TamilNaToNNa),
  ((u! "TamilOmDisable"), PostProcess.TamilOmDisable),
  ((u! "TamilRemoveApostrophe"), PostProcess.TamilRemoveApostrophe),
  ((u! "TamilRemoveNumbers"), PostProcess.TamilRemoveNumbers),
  ((u! "TamilSHADisable"), PostProcess.TamilSHADisable),
  ((u! "TamilStyleUUCore"), PostProcess.TamilStyleUUCore),
  ((u! "TamilStyleUUOther"), PostProcess.TamilStyleUUOther),
  ((u! "TamilSubScript"), PostProcess.TamilSubScript),
  ((u! "TamilpredictDentaNa"), PostProcess.TamilpredictDentaNa),
  ((u! "TamilpredictDentaNaExtended"), PostProcess.TamilpredictDentaNaExtended),
  ((u! "TeluguArasunnaChandrabindu"), PostProcess.TeluguArasunnaChandrabindu),
  ((u! "TeluguNakaraPollu"), PostProcess.TeluguNakaraPollu),
  ((u! "TeluguRemoveAeAo"), PostProcess.TeluguRemoveAeAo),
  ((u! "TeluguRemoveNukta"), PostProcess.TeluguRemoveNukta),
  ((u! "TeluguReph"), PostProcess.TeluguReph),
  ((u! "TeluguTamilRra"), PostProcess.TeluguTamilRra),
  ((u! "TeluguTamilZha"), PostProcess.TeluguTamilZha),
  ((u! "ThaanaRemoveHistorical"), PostProcess.ThaanaRemoveHistorical),
  ((u! "ThaiLaoTranscription"), fail .typeError),
  ((u! "ThaiNativeConsonants"), PostProcess.ThaiNativeConsonants),
  ((u! "ThaiSajjhayaOrthography"), PostProcess.ThaiSajjhayaOrthography),
  ((u! "ThaiSajjhayawithA"), PostProcess.ThaiSajjhayawithA),
  ((u! "ThaiTranscription"), PostProcess.ThaiTranscription),
  ((u! "ThaiVisargaSaraA"), PostProcess.ThaiVisargaSaraA),
  ((u! "ThamLoCRomanLoCSource"), PostProcess.ThamLoCRomanLoCSource),
  ((u! "ThamLoCRomanLoCTarget"), PostProcess.ThamLoCRomanLoCTarget),
  ((u! "ThamShiftMaiKangLai"), PostProcess.ThamShiftMaiKangLai),
  ((u! "ThamTallADisable"), PostProcess.ThamTallADisable),
  ((u! "ThamTallAOthers"), PostProcess.ThamTallAOthers),
  ((u! "TibetanLoCRomanLoCFix"), PostProcess.TibetanLoCRomanLoCFix),
  ((u! "TibetanNada"), PostProcess.TibetanNada),
  ((u! "TibetanRemoveBa"), PostProcess.TibetanRemoveBa),
  ((u! "TibetanRemoveVirama"), PostProcess.TibetanRemoveVirama),
  ((u! "TibetanSanskritPalatals"), PostProcess.TibetanSanskritPalatals),
  ((u! "TibetanSyllabize"), PostProcess.TibetanSyllabize),
  ((u! "TibetanTsheg"), PostProcess.TibetanTsheg),
  ((u! "UrduAlternateUU"), PostProcess.UrduAlternateUU),
  ((u! "UrduRemoveShortVowels"), PostProcess.UrduRemoveShortVowels),
  ((u! "UseAlternateI1"), PostProcess.UseAlternateI1),
  ((u! "UseAlternateI2"), PostProcess.UseAlternateI2),
  ((u! "UseAlternateII"), PostProcess.UseAlternateII),
  ((u! "UseAlternateU"), PostProcess.UseAlternateU),
  ((u! "UseAlternateVSU"), PostProcess.UseAlternateVSU),
  ((u! "UseAlternateVSUU"), PostProcess.UseAlternateVSUU),
  ((u! "UseAlternateYA"), PostProcess.UseAlternateYA),
  ((u! "UseAlternateo1"), PostProcess.UseAlternateo1),
  ((u! "UseAlternateo2"), PostProcess.UseAlternateo2),
  ((u! "VaToBa"), fail .typeError),
  ((u! "WarangCitiModernOrthogaphy"), PostProcess.WarangCitiModernOrthogaphy),
  ((u! "YYAEverywhere"), fail .typeError),
  ((u! "YaToYYa"), fail .typeError),
  ((u! "ZanabazarSanskritPalatals"), PostProcess.ZanabazarSanskritPalatals),
  ((u! "ZanabazarSquareAiAu"), PostProcess.ZanabazarSquareAiAu),
  ((u! "ZanabazarSquareContextual"), PostProcess.ZanabazarSquareContextual),
  ((u! "ZanabazarSquareMongolianFinal"), PostProcess.ZanabazarSquareMongolianFinal),
  ((u! "ZanzabarSpaceTsheg"), PostProcess.ZanzabarSpaceTsheg),
  ((u! "alephAyinLatnAlternate"), PostProcess.alephAyinLatnAlternate),
  ((u! "alephAyinLatnAlternate2"), PostProcess.alephAyinLatnAlternate2),
  ((u! "arabChaSa"), PostProcess.arabChaSa),
  ((u! "arabPaFa"), PostProcess.arabPaFa),
  ((u! "arabicRemoveAdditionsPhonetic"), PostProcess.arabicRemoveAdditionsPhonetic),
  ((u! "arabizeLatn"), PostProcess.arabizeLatn),
  ((u! "archaicAIAU"), PostProcess.archaicAIAU),
  ((u! "capitalizeSentence"), PostProcess.capitalizeSentence),
  ((u! "default"), PostProcess.default),
  ((u! "defaultPost"), fail .typeError),
  ((u! "devanagaribalbodh"), PostProcess.devanagaribalbodh),
  ((u! "devanagarijain"), PostProcess.devanagarijain),
  ((u! "devanagarinepali"), PostProcess.devanagarinepali),
  ((u! "devanagariuttara"), PostProcess.devanagariuttara),
  ((u! "dotReph"), PostProcess.dotReph),
  ((u! "easternsyriac"), PostProcess.easternsyriac),
  ((u! "egrantamil"), PostProcess.egrantamil),
  ((u! "estrangelasyriac"), PostProcess.estrangelasyriac),
  ((u! "gainGimel"), PostProcess.gainGimel),
  ((u! "granthafinal"), PostProcess.granthafinal),
  ((u! "granthaserif"), PostProcess.granthaserif),
  ((u! "hebraizeLatn"), PostProcess.hebraizeLatn),
  ((u! "historicChillu"), PostProcess.historicChillu),
  ((u! "indicDandas"), PostProcess.indicDandas),
  ((u! "indicNumerals"), PostProcess.indicNumerals),
  ((u! "inherentAO"), PostProcess.inherentAO),
  ((u! "insertARomanSemitic"), PostProcess.insertARomanSemitic),
  ((u! "jainomDevangari"), PostProcess.jainomDevangari),
  ((u! "kawitan"), PostProcess.kawitan),
  ((u! "khandatabatova"), PostProcess.khandatabatova),
  ((u! "mDotAboveToBelow"), PostProcess.mDotAboveToBelow),
  ((u! "mDotBelowToAbove"), PostProcess.mDotBelowToAbove),
  ((u! "nepaldevafont"), PostProcess.nepaldevafont),
  ((u! "noLongEO"), PostProcess.noLongEO),
  ((u! "olddogra"), PostProcess.olddogra),
  ((u! "oldtamilortho"), PostProcess.oldtamilortho),
  ((u! "persianPaGaFaJa"), PostProcess.persianPaGaFaJa),
  ((u! "ranjanalantsa"), PostProcess.ranjanalantsa),
  ((u! "ranjanawartu"), PostProcess.ranjanawartu),
  ((u! "readableItrans"), PostProcess.readableItrans),
  ((u! "removeDiacritics"), PostProcess.removeDiacritics),
  ((u! "removeDiacriticsArabic"), PostProcess.removeDiacriticsArabic),
  ((u! "removeDiacriticsPersian"), PostProcess.removeDiacriticsPersian),
  ((u! "removeDiacriticsSyriac"), PostProcess.removeDiacriticsSyriac),
  ((u! "removeMajliyana"), PostProcess.removeMajliyana),
  ((u! "removeNikkud"), PostProcess.removeNikkud),
  ((u! "removePaliAhom"), PostProcess.removePaliAhom),
  ((u! "removeQussaya"), PostProcess.removeQussaya),
  ((u! "removeRukkaka"), PostProcess.removeRukkaka),
  ((u! "removeSegmentSpacesBurmese"), PostProcess.removeSegmentSpacesBurmese),
  ((u! "removeSemiticLetters"), PostProcess.removeSemiticLetters),
  ((u! "removeSukunEnd"), PostProcess.removeSukunEnd),
  ((u! "removeVowelsSyriac"), PostProcess.removeVowelsSyriac),
  ((u! "removetddash"), PostProcess.removetddash),
  ((u! "romanFullStop"), PostProcess.romanFullStop),
  ((u! "romanNumerals"), PostProcess.romanNumerals),
  ((u! "siddhamBija"), PostProcess.siddhamBija),
  ((u! "siddhamap"), PostProcess.siddhamap),
  ((u! "siddhammukta"), PostProcess.siddhammukta),
  ((u! "sundapura"), PostProcess.sundapura),
  ((u! "swapEe"), PostProcess.swapEe),
  ((u! "swapEeItrans"), PostProcess.swapEeItrans),
  ((u! "syriacRoman"), PostProcess.syriacRoman),
  ((u! "syriacVowelsBelow"), PostProcess.syriacVowelsBelow),
  ((u! "syriacWesternOToU"), PostProcess.syriacWesternOToU),
  ((u! "syricizeLatn"), PostProcess.syricizeLatn),
  ((u! "tavThreedot"), PostProcess.tavThreedot),
  ((u! "tavTwodot"), PostProcess.tavTwodot),
  ((u! "tbadiff"), fail .typeError),
  ((u! "tibetandbumed"), PostProcess.tibetandbumed),
  ((u! "tokushuon"), PostProcess.tokushuon),
  ((u! "tradOrtho"), PostProcess.tradOrtho),
  ((u! "urduRemoveInherent"), PostProcess.urduRemoveInherent),
  ((u! "urduizeLatn"), PostProcess.urduizeLatn),
  ((u! "useKtivMale"), PostProcess.useKtivMale),
  ((u! "verticalKana"), PostProcess.verticalKana),
  ((u! "verticalSiddham"), PostProcess.verticalSiddham),
  ((u! "vtobJapanese"), PostProcess.vtobJapanese),
  ((u! "westernsyriac"), PostProcess.westernsyriac)]

end Verif
