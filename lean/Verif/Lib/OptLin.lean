import Verif.Lib.FnsLin

/-!
# The option functions are linear

Generated by tools/genlin.py.
-/

namespace Verif

set_option maxHeartbeats 4000000
set_option maxRecDepth 10000

theorem lin_PreProcess_retainLatin (reverse : Bool) : Lin (PreProcess.retainLatin reverse) := by
  unfold PreProcess.retainLatin
  lin

theorem lin_PreProcess_ItransLL : Lin PreProcess.ItransLL := by
  unfold PreProcess.ItransLL
  lin

theorem lin_PreProcess_RomanLoCChandrabindu : Lin PreProcess.RomanLoCChandrabindu := by
  unfold PreProcess.RomanLoCChandrabindu
  lin

theorem lin_PreProcess_BalineseRomanLoCFix : Lin PreProcess.BalineseRomanLoCFix := by
  unfold PreProcess.BalineseRomanLoCFix
  lin

theorem lin_PreProcess_JavaneseRomanLoCFix : Lin PreProcess.JavaneseRomanLoCFix := by
  unfold PreProcess.JavaneseRomanLoCFix
  lin

theorem lin_PreProcess_HindiMarathiRomanLoCFix : Lin PreProcess.HindiMarathiRomanLoCFix := by
  unfold PreProcess.HindiMarathiRomanLoCFix
  lin

theorem lin_PreProcess_RomanLoCLaUnderscoreDoubleDot : Lin PreProcess.RomanLoCLaUnderscoreDoubleDot := by
  unfold PreProcess.RomanLoCLaUnderscoreDoubleDot
  lin

theorem lin_PreProcess_RomanLoCVaWa : Lin PreProcess.RomanLoCVaWa := by
  unfold PreProcess.RomanLoCVaWa
  lin

theorem lin_PreProcess_RomanLoCSasha : Lin PreProcess.RomanLoCSasha := by
  unfold PreProcess.RomanLoCSasha
  lin

theorem lin_PreProcess_RomanLoCSLaDotLaUnderscore : Lin PreProcess.RomanLoCSLaDotLaUnderscore := by
  unfold PreProcess.RomanLoCSLaDotLaUnderscore
  lin

theorem lin_PreProcess_MalayalamRomanLoCFix : Lin PreProcess.MalayalamRomanLoCFix := by
  unfold PreProcess.MalayalamRomanLoCFix
  lin

theorem lin_PreProcess_DevanagariRomanLoCFix : Lin PreProcess.DevanagariRomanLoCFix := by
  unfold PreProcess.DevanagariRomanLoCFix
  lin

theorem lin_PreProcess_IASTLDotRetroflex : Lin PreProcess.IASTLDotRetroflex := by
  unfold PreProcess.IASTLDotRetroflex
  lin

theorem lin_PreProcess_ArchaicJnaSimplifyRomanLOC : Lin PreProcess.ArchaicJnaSimplifyRomanLOC := by
  unfold PreProcess.ArchaicJnaSimplifyRomanLOC
  lin

theorem lin_PreProcess_KhandaTaRomanLoC : Lin PreProcess.KhandaTaRomanLoC := by
  unfold PreProcess.KhandaTaRomanLoC
  lin

theorem lin_PreProcess_TibetanLoCRomanLoCFix : Lin PreProcess.TibetanLoCRomanLoCFix := by
  unfold PreProcess.TibetanLoCRomanLoCFix
  lin

theorem lin_PreProcess_BalineseJavaneseMoveRepha (tgt : PyStr) (reph : PyStr) : Lin (PreProcess.BalineseJavaneseMoveRepha tgt reph) := by
  unfold PreProcess.BalineseJavaneseMoveRepha
  lin

theorem lin_PreProcess_DivesAkuruAlternateIndVowels : Lin PreProcess.DivesAkuruAlternateIndVowels := by
  unfold PreProcess.DivesAkuruAlternateIndVowels
  lin

theorem lin_PreProcess_KawiMoveRepha : Lin PreProcess.KawiMoveRepha := by
  unfold PreProcess.KawiMoveRepha
  lin

theorem lin_PreProcess_JavaneseMoveRepha : Lin PreProcess.JavaneseMoveRepha := by
  unfold PreProcess.JavaneseMoveRepha
  lin
  all_goals with_reducible first | apply lin_PreProcess_BalineseJavaneseMoveRepha

theorem lin_PreProcess_BalineseMoveRepha : Lin PreProcess.BalineseMoveRepha := by
  unfold PreProcess.BalineseMoveRepha
  lin
  all_goals with_reducible first | apply lin_PreProcess_BalineseJavaneseMoveRepha

theorem lin_PreProcess_OriyaSubojinedVa : Lin PreProcess.OriyaSubojinedVa := by
  unfold PreProcess.OriyaSubojinedVa
  lin

theorem lin_PreProcess_BengaliSubojinedVa : Lin PreProcess.BengaliSubojinedVa := by
  unfold PreProcess.BengaliSubojinedVa
  lin

theorem lin_PreProcess_BengaliTargetVa : Lin PreProcess.BengaliTargetVa := by
  unfold PreProcess.BengaliTargetVa
  lin

theorem lin_PreProcess_OriyaTargetVa : Lin PreProcess.OriyaTargetVa := by
  unfold PreProcess.OriyaTargetVa
  lin

theorem lin_PreProcess_RetainDevangariDanda : Lin PreProcess.RetainDevangariDanda := by
  unfold PreProcess.RetainDevangariDanda
  lin

theorem lin_PreProcess_ThamLoCRomanLoCTarget : Lin PreProcess.ThamLoCRomanLoCTarget := by
  unfold PreProcess.ThamLoCRomanLoCTarget
  lin

theorem lin_PreProcess_ThamLoCRomanLoCSource : Lin PreProcess.ThamLoCRomanLoCSource := by
  unfold PreProcess.ThamLoCRomanLoCSource
  lin

theorem lin_PreProcess_KhmerWordSplit : Lin PreProcess.KhmerWordSplit := by
  unfold PreProcess.KhmerWordSplit
  lin

theorem lin_PreProcess_KhmerLoCRomanLoCTarget : Lin PreProcess.KhmerLoCRomanLoCTarget := by
  unfold PreProcess.KhmerLoCRomanLoCTarget
  lin

theorem lin_PreProcess_KhmerLoCRomanLoCSource : Lin PreProcess.KhmerLoCRomanLoCSource := by
  unfold PreProcess.KhmerLoCRomanLoCSource
  lin

theorem lin_PreProcess_ShanLoCRomanLoCTarget : Lin PreProcess.ShanLoCRomanLoCTarget := by
  unfold PreProcess.ShanLoCRomanLoCTarget
  lin

theorem lin_PreProcess_KhuenRaHaamKaren : Lin PreProcess.KhuenRaHaamKaren := by
  unfold PreProcess.KhuenRaHaamKaren
  lin

theorem lin_PreProcess_ShanLoCRomanLoCSource : Lin PreProcess.ShanLoCRomanLoCSource := by
  unfold PreProcess.ShanLoCRomanLoCSource
  lin

theorem lin_PreProcess_BurmeseRomanLoCSource : Lin PreProcess.BurmeseRomanLoCSource := by
  unfold PreProcess.BurmeseRomanLoCSource
  lin

theorem lin_PreProcess_paliTham : Lin PreProcess.paliTham := by
  unfold PreProcess.paliTham
  lin

theorem lin_PreProcess_segmentThamSyllabes : Lin PreProcess.segmentThamSyllabes := by
  unfold PreProcess.segmentThamSyllabes
  lin

theorem lin_PreProcess_segmentBurmeseSyllables : Lin PreProcess.segmentBurmeseSyllables := by
  unfold PreProcess.segmentBurmeseSyllables
  lin

theorem lin_PreProcess_segmentShanSyllables : Lin PreProcess.segmentShanSyllables := by
  unfold PreProcess.segmentShanSyllables
  lin

theorem lin_PreProcess_BurmeseRomanLoCTarget : Lin PreProcess.BurmeseRomanLoCTarget := by
  unfold PreProcess.BurmeseRomanLoCTarget
  lin

theorem lin_PreProcess_insertViramaSyriac : Lin PreProcess.insertViramaSyriac := by
  unfold PreProcess.insertViramaSyriac
  lin

theorem lin_PreProcess_BengaliSwitchYaYYa : Lin PreProcess.BengaliSwitchYaYYa := by
  unfold PreProcess.BengaliSwitchYaYYa
  lin

theorem lin_PreProcess_removeFinalSchwaArab : Lin PreProcess.removeFinalSchwaArab := by
  unfold PreProcess.removeFinalSchwaArab
  lin

theorem lin_PreProcess_AlephMaterLectionis (target : PyStr) : Lin (PreProcess.AlephMaterLectionis target) := by
  unfold PreProcess.AlephMaterLectionis
  lin

theorem lin_PostProcess_AlephMaterLectionis (target : PyStr) : Lin (PostProcess.AlephMaterLectionis target) := by
  unfold PostProcess.AlephMaterLectionis
  lin

theorem lin_PostProcess_LatnInitialVowels (initLetter : PyStr) : Lin (PostProcess.LatnInitialVowels initLetter) := by
  unfold PostProcess.LatnInitialVowels
  lin

theorem lin_PostProcess_arabizeLatn (target : PyStr) : Lin (PostProcess.arabizeLatn target) := by
  unfold PostProcess.arabizeLatn
  lin
  all_goals with_reducible first | apply lin_PostProcess_LatnInitialVowels

theorem lin_PostProcess_hebraizeLatn (target : PyStr) : Lin (PostProcess.hebraizeLatn target) := by
  unfold PostProcess.hebraizeLatn
  lin
  all_goals with_reducible first | apply lin_PostProcess_LatnInitialVowels

theorem lin_PostProcess_removeSemiticLetters : Lin PostProcess.removeSemiticLetters := by
  unfold PostProcess.removeSemiticLetters
  lin

theorem lin_PostProcess_syricizeLatn (target : PyStr) : Lin (PostProcess.syricizeLatn target) := by
  unfold PostProcess.syricizeLatn
  lin
  all_goals with_reducible first | apply lin_PostProcess_LatnInitialVowels

theorem lin_PostProcess_urduizeLatn (target : PyStr) : Lin (PostProcess.urduizeLatn target) := by
  unfold PostProcess.urduizeLatn
  lin
  all_goals with_reducible first | apply lin_PostProcess_LatnInitialVowels

theorem lin_PreProcess_perisanizeArab : Lin PreProcess.perisanizeArab := by
  unfold PreProcess.perisanizeArab
  lin

theorem lin_PreProcess_ArabizePersian : Lin PreProcess.ArabizePersian := by
  unfold PreProcess.ArabizePersian
  lin

theorem lin_PreProcess_semiticizeUrdu : Lin PreProcess.semiticizeUrdu := by
  unfold PreProcess.semiticizeUrdu
  lin

theorem lin_PreProcess_ShowChillus : Lin PreProcess.ShowChillus := by
  unfold PreProcess.ShowChillus
  lin
  all_goals with_reducible first | apply lin_PostProcess_MalayalamChillu

theorem lin_PreProcess_ShowKhandaTa : Lin PreProcess.ShowKhandaTa := by
  unfold PreProcess.ShowKhandaTa
  lin

theorem lin_PreProcess_eiaudipthongs : Lin PreProcess.eiaudipthongs := by
  unfold PreProcess.eiaudipthongs
  lin

theorem lin_PreProcess_wasvnukta : Lin PreProcess.wasvnukta := by
  unfold PreProcess.wasvnukta
  lin

theorem lin_PreProcess_default : Lin PreProcess.default := by
  unfold PreProcess.default
  lin

theorem lin_PreProcess_SogdReshAyin : Lin PreProcess.SogdReshAyin := by
  unfold PreProcess.SogdReshAyin
  lin

theorem lin_PreProcess_SogoReshAyinDaleth : Lin PreProcess.SogoReshAyinDaleth := by
  unfold PreProcess.SogoReshAyinDaleth
  lin

theorem lin_PreProcess_PhlpMemQoph : Lin PreProcess.PhlpMemQoph := by
  unfold PreProcess.PhlpMemQoph
  lin

theorem lin_PreProcess_PhlpWawAyinResh : Lin PreProcess.PhlpWawAyinResh := by
  unfold PreProcess.PhlpWawAyinResh
  lin

theorem lin_PreProcess_PhliWawAyinResh : Lin PreProcess.PhliWawAyinResh := by
  unfold PreProcess.PhliWawAyinResh
  lin

theorem lin_PreProcess_HatrDalethResh : Lin PreProcess.HatrDalethResh := by
  unfold PreProcess.HatrDalethResh
  lin

theorem lin_PreProcess_MalayalamHalfu : Lin PreProcess.MalayalamHalfu := by
  unfold PreProcess.MalayalamHalfu
  lin

theorem lin_PreProcess_MalayalamTranscribe : Lin PreProcess.MalayalamTranscribe := by
  unfold PreProcess.MalayalamTranscribe
  lin
  all_goals with_reducible first | apply lin_PreProcess_MalayalamHalfu

theorem lin_PreProcess_holamlong : Lin PreProcess.holamlong := by
  unfold PreProcess.holamlong
  lin

theorem lin_PreProcess_novowelshebrewSemitic : Lin PreProcess.novowelshebrewSemitic := by
  unfold PreProcess.novowelshebrewSemitic
  lin

theorem lin_PreProcess_novowelshebrewIndic : Lin PreProcess.novowelshebrewIndic := by
  unfold PreProcess.novowelshebrewIndic
  lin
  all_goals with_reducible first | apply lin_PreProcess_novowelshebrewSemitic

theorem lin_PreProcess_shvanakhall : Lin PreProcess.shvanakhall := by
  unfold PreProcess.shvanakhall
  lin

theorem lin_PreProcess_longEOISO : Lin PreProcess.longEOISO := by
  unfold PreProcess.longEOISO
  lin

theorem lin_PreProcess_SanskritLexicaizeHK : Lin PreProcess.SanskritLexicaizeHK := by
  unfold PreProcess.SanskritLexicaizeHK
  lin

theorem lin_PreProcess_ThaiPhonetic : Lin PreProcess.ThaiPhonetic := by
  unfold PreProcess.ThaiPhonetic
  lin

theorem lin_PreProcess_LaoPhonetic : Lin PreProcess.LaoPhonetic := by
  unfold PreProcess.LaoPhonetic
  lin

theorem lin_PreProcess_SaurastraHaaruColonTamil : Lin PreProcess.SaurastraHaaruColonTamil := by
  unfold PreProcess.SaurastraHaaruColonTamil
  lin

theorem lin_PreProcess_ChakmaPali : Lin PreProcess.ChakmaPali := by
  unfold PreProcess.ChakmaPali
  lin

theorem lin_PreProcess_TakriArchaicKha : Lin PreProcess.TakriArchaicKha := by
  unfold PreProcess.TakriArchaicKha
  lin

theorem lin_PreProcess_UrduShortNotShown : Lin PreProcess.UrduShortNotShown := by
  unfold PreProcess.UrduShortNotShown
  lin

theorem lin_PreProcess_AnuChandraEq (script : PyStr) : Lin (PreProcess.AnuChandraEq script) := by
  unfold PreProcess.AnuChandraEq
  lin

theorem lin_PreProcess_AnuChandraEqDeva : Lin PreProcess.AnuChandraEqDeva := by
  unfold PreProcess.AnuChandraEqDeva
  lin
  all_goals with_reducible first | apply lin_PreProcess_AnuChandraEq

theorem lin_PreProcess_TamilNumeralSub : Lin PreProcess.TamilNumeralSub := by
  unfold PreProcess.TamilNumeralSub
  lin

theorem lin_PreProcess_swapEe : Lin PreProcess.swapEe := by
  unfold PreProcess.swapEe
  lin

theorem lin_PreProcess_swapEeItrans : Lin PreProcess.swapEeItrans := by
  unfold PreProcess.swapEeItrans
  lin

theorem lin_PreProcess_egrantamil : Lin PreProcess.egrantamil := by
  unfold PreProcess.egrantamil
  lin

theorem lin_PreProcess_siddhammukta : Lin PreProcess.siddhammukta := by
  unfold PreProcess.siddhammukta
  lin

theorem lin_PreProcess_TaiKuen : Lin PreProcess.TaiKuen := by
  unfold PreProcess.TaiKuen
  lin

theorem lin_PreProcess_TaiThamLao : Lin PreProcess.TaiThamLao := by
  unfold PreProcess.TaiThamLao
  lin

theorem lin_PreProcess_ThaiSajjhayaOrthography : Lin PreProcess.ThaiSajjhayaOrthography := by
  unfold PreProcess.ThaiSajjhayaOrthography
  lin

theorem lin_PreProcess_ThaiSajjhayawithA : Lin PreProcess.ThaiSajjhayawithA := by
  unfold PreProcess.ThaiSajjhayawithA
  lin
  all_goals with_reducible first | apply lin_PreProcess_ThaiSajjhayaOrthography

theorem lin_PreProcess_LaoSajhayaOrthography : Lin PreProcess.LaoSajhayaOrthography := by
  unfold PreProcess.LaoSajhayaOrthography
  lin

theorem lin_PreProcess_LaoSajhayaOrthographywithA : Lin PreProcess.LaoSajhayaOrthographywithA := by
  unfold PreProcess.LaoSajhayaOrthographywithA
  lin
  all_goals with_reducible first | apply lin_PreProcess_LaoSajhayaOrthography

theorem lin_PreProcess_RemoveSchwaHindi (showschwa : Bool) : Lin (PreProcess.RemoveSchwaHindi showschwa) := by
  unfold PreProcess.RemoveSchwaHindi
  lin

theorem lin_PreProcess_RemoveFinal (Target : PyStr) : Lin (PreProcess.RemoveFinal Target) := by
  unfold PreProcess.RemoveFinal
  lin
  all_goals with_reducible first | apply lin_PostProcess_KhandaTa

theorem lin_PreProcess_SchwaFinalGurmukhi : Lin PreProcess.SchwaFinalGurmukhi := by
  unfold PreProcess.SchwaFinalGurmukhi
  lin
  all_goals with_reducible first | apply lin_PreProcess_RemoveFinal

theorem lin_PreProcess_SchwaFinalGujarati : Lin PreProcess.SchwaFinalGujarati := by
  unfold PreProcess.SchwaFinalGujarati
  lin
  all_goals with_reducible first | apply lin_PreProcess_RemoveFinal

theorem lin_PreProcess_SchwaFinalBengali : Lin PreProcess.SchwaFinalBengali := by
  unfold PreProcess.SchwaFinalBengali
  lin
  all_goals with_reducible first | apply lin_PreProcess_RemoveFinal

theorem lin_PreProcess_SchwaFinalKhmerLoC : Lin PreProcess.SchwaFinalKhmerLoC := by
  unfold PreProcess.SchwaFinalKhmerLoC
  lin
  all_goals with_reducible first | apply lin_PreProcess_RemoveFinal

theorem lin_PreProcess_SchwaFinalKhmer : Lin PreProcess.SchwaFinalKhmer := by
  unfold PreProcess.SchwaFinalKhmer
  lin
  all_goals with_reducible first | apply lin_PreProcess_RemoveFinal

theorem lin_PreProcess_SchwaFinalWarangCiti : Lin PreProcess.SchwaFinalWarangCiti := by
  unfold PreProcess.SchwaFinalWarangCiti
  lin

theorem lin_PreProcess_siddhamUnicode : Lin PreProcess.siddhamUnicode := by
  unfold PreProcess.siddhamUnicode
  lin

theorem lin_PreProcess_ThaiOrthography : Lin PreProcess.ThaiOrthography := by
  unfold PreProcess.ThaiOrthography
  lin

theorem lin_PreProcess_LaoTranscription : Lin PreProcess.LaoTranscription := by
  unfold PreProcess.LaoTranscription
  lin

theorem lin_PreProcess_LimbuDevanagariConvention : Lin PreProcess.LimbuDevanagariConvention := by
  unfold PreProcess.LimbuDevanagariConvention
  lin

theorem lin_PreProcess_LimbuSpellingSaI : Lin PreProcess.LimbuSpellingSaI := by
  unfold PreProcess.LimbuSpellingSaI
  lin

theorem lin_PreProcess_removeChillus : Lin PreProcess.removeChillus := by
  unfold PreProcess.removeChillus
  lin

theorem lin_PostProcess_SinhalaPali (reverse : Bool) : Lin (PostProcess.SinhalaPali reverse) := by
  unfold PostProcess.SinhalaPali
  lin

theorem lin_PreProcess_SinhalaPali : Lin PreProcess.SinhalaPali := by
  unfold PreProcess.SinhalaPali
  lin
  all_goals with_reducible first | apply lin_PostProcess_SinhalaPali

theorem lin_PreProcess_IASTPali : Lin PreProcess.IASTPali := by
  unfold PreProcess.IASTPali
  lin

theorem lin_PreProcess_CyrillicPali : Lin PreProcess.CyrillicPali := by
  unfold PreProcess.CyrillicPali
  lin

theorem lin_PreProcess_MalayalamPrakrit : Lin PreProcess.MalayalamPrakrit := by
  unfold PreProcess.MalayalamPrakrit
  lin
  all_goals with_reducible first | apply lin_PostProcess_ReverseGeminationSign

theorem lin_PreProcess_GranthaPrakrit : Lin PreProcess.GranthaPrakrit := by
  unfold PreProcess.GranthaPrakrit
  lin
  all_goals with_reducible first | apply lin_PostProcess_ReverseGeminationSign

theorem lin_PreProcess_joinVowelCons (script : PyStr) : Lin (PreProcess.joinVowelCons script) := by
  unfold PreProcess.joinVowelCons
  lin

theorem lin_PreProcess_joinVowelConsIAST : Lin PreProcess.joinVowelConsIAST := by
  unfold PreProcess.joinVowelConsIAST
  lin
  all_goals with_reducible first | apply lin_PreProcess_joinVowelCons

theorem lin_PreProcess_joinVowelConsISO : Lin PreProcess.joinVowelConsISO := by
  unfold PreProcess.joinVowelConsISO
  lin
  all_goals with_reducible first | apply lin_PreProcess_joinVowelCons

theorem lin_PreProcess_ISO259Target : Lin PreProcess.ISO259Target := by
  unfold PreProcess.ISO259Target
  lin

theorem lin_PreProcess_ISO233Target : Lin PreProcess.ISO233Target := by
  unfold PreProcess.ISO233Target
  lin

theorem lin_PreProcess_PersianDMGTarget : Lin PreProcess.PersianDMGTarget := by
  unfold PreProcess.PersianDMGTarget
  lin

theorem lin_PreProcess_ISO233Source : Lin PreProcess.ISO233Source := by
  unfold PreProcess.ISO233Source
  lin

theorem lin_PreProcess_HebrewSBLTarget : Lin PreProcess.HebrewSBLTarget := by
  unfold PreProcess.HebrewSBLTarget
  lin

theorem lin_PreProcess_HebrewSBLSource : Lin PreProcess.HebrewSBLSource := by
  unfold PreProcess.HebrewSBLSource
  lin

theorem lin_PreProcess_ISO259Source : Lin PreProcess.ISO259Source := by
  unfold PreProcess.ISO259Source
  lin

theorem lin_PreProcess_UnSupThaana : Lin PreProcess.UnSupThaana := by
  unfold PreProcess.UnSupThaana
  lin

theorem lin_PreProcess_RemoveJoiners : Lin PreProcess.RemoveJoiners := by
  unfold PreProcess.RemoveJoiners
  lin

theorem lin_PreProcess_ArabicGimelJa : Lin PreProcess.ArabicGimelJa := by
  unfold PreProcess.ArabicGimelJa
  lin

theorem lin_PreProcess_removeZW : Lin PreProcess.removeZW := by
  unfold PreProcess.removeZW
  lin

theorem lin_PreProcess_TamilTranscribeCommon (c : Int) : Lin (PreProcess.TamilTranscribeCommon c) := by
  unfold PreProcess.TamilTranscribeCommon
  lin

theorem lin_PreProcess_TamilTranscribe : Lin PreProcess.TamilTranscribe := by
  unfold PreProcess.TamilTranscribe
  lin
  all_goals with_reducible first | apply lin_PreProcess_TamilTranscribeCommon

theorem lin_PreProcess_TamilTranscribeDialect : Lin PreProcess.TamilTranscribeDialect := by
  unfold PreProcess.TamilTranscribeDialect
  lin
  all_goals with_reducible first | apply lin_PreProcess_TamilTranscribeCommon

theorem lin_PreProcess_IPAIndic : Lin PreProcess.IPAIndic := by
  unfold PreProcess.IPAIndic
  lin

theorem lin_PostProcess_KhojkiRRI : Lin PostProcess.KhojkiRRI := by
  unfold PostProcess.KhojkiRRI
  lin

theorem lin_PostProcess_KhojkiQa : Lin PostProcess.KhojkiQa := by
  unfold PostProcess.KhojkiQa
  lin

theorem lin_PostProcess_removePaliAhom : Lin PostProcess.removePaliAhom := by
  unfold PostProcess.removePaliAhom
  lin

theorem lin_PostProcess_SinhalaChandrbinduAnusvara : Lin PostProcess.SinhalaChandrbinduAnusvara := by
  unfold PostProcess.SinhalaChandrbinduAnusvara
  lin

theorem lin_PostProcess_LoCMarc8 : Lin PostProcess.LoCMarc8 := by
  unfold PostProcess.LoCMarc8
  lin

theorem lin_PostProcess_AnusvaraAsN : Lin PostProcess.AnusvaraAsN := by
  unfold PostProcess.AnusvaraAsN
  lin

theorem lin_PostProcess_ShowSchwaHindi : Lin PostProcess.ShowSchwaHindi := by
  unfold PostProcess.ShowSchwaHindi
  lin
  all_goals with_reducible first | apply lin_PreProcess_RemoveSchwaHindi

theorem lin_PostProcess_KannadaSpacingCandrabindu : Lin PostProcess.KannadaSpacingCandrabindu := by
  unfold PostProcess.KannadaSpacingCandrabindu
  lin

theorem lin_PostProcess_KannadaNotRepha : Lin PostProcess.KannadaNotRepha := by
  unfold PostProcess.KannadaNotRepha
  lin

theorem lin_PostProcess_KannadaNakaraPollu : Lin PostProcess.KannadaNakaraPollu := by
  unfold PostProcess.KannadaNakaraPollu
  lin

theorem lin_PostProcess_TeluguRemoveNukta : Lin PostProcess.TeluguRemoveNukta := by
  unfold PostProcess.TeluguRemoveNukta
  lin

theorem lin_PostProcess_TeluguRemoveAeAo : Lin PostProcess.TeluguRemoveAeAo := by
  unfold PostProcess.TeluguRemoveAeAo
  lin

theorem lin_PostProcess_TeluguNakaraPollu : Lin PostProcess.TeluguNakaraPollu := by
  unfold PostProcess.TeluguNakaraPollu
  lin

theorem lin_PostProcess_syriacVowelsBelow : Lin PostProcess.syriacVowelsBelow := by
  unfold PostProcess.syriacVowelsBelow
  lin

theorem lin_PostProcess_syriacWesternOToU : Lin PostProcess.syriacWesternOToU := by
  unfold PostProcess.syriacWesternOToU
  lin

theorem lin_PostProcess_olddogra : Lin PostProcess.olddogra := by
  unfold PostProcess.olddogra
  lin

theorem lin_PostProcess_ISO259Target : Lin PostProcess.ISO259Target := by
  unfold PostProcess.ISO259Target
  lin

theorem lin_PostProcess_HebrewSBLTarget : Lin PostProcess.HebrewSBLTarget := by
  unfold PostProcess.HebrewSBLTarget
  lin

theorem lin_PostProcess_removetddash : Lin PostProcess.removetddash := by
  unfold PostProcess.removetddash
  lin

theorem lin_PostProcess_ISO259Source : Lin PostProcess.ISO259Source := by
  unfold PostProcess.ISO259Source
  lin

theorem lin_PostProcess_ISO233Source : Lin PostProcess.ISO233Source := by
  unfold PostProcess.ISO233Source
  lin

theorem lin_PostProcess_HebrewSBLSource : Lin PostProcess.HebrewSBLSource := by
  unfold PostProcess.HebrewSBLSource
  lin

theorem lin_PostProcess_PersianDMGSBLSource : Lin PostProcess.PersianDMGSBLSource := by
  unfold PostProcess.PersianDMGSBLSource
  lin

theorem lin_PostProcess_ISO233Target : Lin PostProcess.ISO233Target := by
  unfold PostProcess.ISO233Target
  lin

theorem lin_PostProcess_inherentAO : Lin PostProcess.inherentAO := by
  unfold PostProcess.inherentAO
  lin

theorem lin_PostProcess_BengaliOldRA : Lin PostProcess.BengaliOldRA := by
  unfold PostProcess.BengaliOldRA
  lin

theorem lin_PostProcess_PersianDMGTarget : Lin PostProcess.PersianDMGTarget := by
  unfold PostProcess.PersianDMGTarget
  lin

theorem lin_PostProcess_BengaliSwitchYaYYa : Lin PostProcess.BengaliSwitchYaYYa := by
  unfold PostProcess.BengaliSwitchYaYYa
  lin

theorem lin_PostProcess_syriacRoman : Lin PostProcess.syriacRoman := by
  unfold PostProcess.syriacRoman
  lin

theorem lin_PostProcess_alephAyinLatnAlternate : Lin PostProcess.alephAyinLatnAlternate := by
  unfold PostProcess.alephAyinLatnAlternate
  lin

theorem lin_PostProcess_alephAyinLatnAlternate2 : Lin PostProcess.alephAyinLatnAlternate2 := by
  unfold PostProcess.alephAyinLatnAlternate2
  lin

theorem lin_PostProcess_ArabRemoveAdditions : Lin PostProcess.ArabRemoveAdditions := by
  unfold PostProcess.ArabRemoveAdditions
  lin

theorem lin_PostProcess_arabicRemoveAdditionsPhonetic : Lin PostProcess.arabicRemoveAdditionsPhonetic := by
  unfold PostProcess.arabicRemoveAdditionsPhonetic
  lin

theorem lin_PostProcess_removeNikkud : Lin PostProcess.removeNikkud := by
  unfold PostProcess.removeNikkud
  lin

theorem lin_PostProcess_removeMajliyana : Lin PostProcess.removeMajliyana := by
  unfold PostProcess.removeMajliyana
  lin

theorem lin_PostProcess_removeRukkaka : Lin PostProcess.removeRukkaka := by
  unfold PostProcess.removeRukkaka
  lin

theorem lin_PostProcess_removeQussaya : Lin PostProcess.removeQussaya := by
  unfold PostProcess.removeQussaya
  lin

theorem lin_PostProcess_removeVowelsSyriac : Lin PostProcess.removeVowelsSyriac := by
  unfold PostProcess.removeVowelsSyriac
  lin

theorem lin_PostProcess_removeDiacriticsArabic : Lin PostProcess.removeDiacriticsArabic := by
  unfold PostProcess.removeDiacriticsArabic
  lin

theorem lin_PostProcess_removeSukunEnd : Lin PostProcess.removeSukunEnd := by
  unfold PostProcess.removeSukunEnd
  lin

theorem lin_PostProcess_persianPaGaFaJa : Lin PostProcess.persianPaGaFaJa := by
  unfold PostProcess.persianPaGaFaJa
  lin

theorem lin_PostProcess_removeDiacriticsPersian : Lin PostProcess.removeDiacriticsPersian := by
  unfold PostProcess.removeDiacriticsPersian
  lin

theorem lin_PostProcess_removeDiacriticsSyriac : Lin PostProcess.removeDiacriticsSyriac := by
  unfold PostProcess.removeDiacriticsSyriac
  lin

theorem lin_PostProcess_useKtivMale : Lin PostProcess.useKtivMale := by
  unfold PostProcess.useKtivMale
  lin

theorem lin_PostProcess_PhoneticMapping : Lin PostProcess.PhoneticMapping := by
  unfold PostProcess.PhoneticMapping
  lin

theorem lin_PostProcess_ArabicGimelGaGha : Lin PostProcess.ArabicGimelGaGha := by
  unfold PostProcess.ArabicGimelGaGha
  lin

theorem lin_PostProcess_ArabicGimelPaBa : Lin PostProcess.ArabicGimelPaBa := by
  unfold PostProcess.ArabicGimelPaBa
  lin

theorem lin_PostProcess_BurmeseRomanLoCSource : Lin PostProcess.BurmeseRomanLoCSource := by
  unfold PostProcess.BurmeseRomanLoCSource
  lin

theorem lin_PostProcess_removeSegmentSpacesBurmese : Lin PostProcess.removeSegmentSpacesBurmese := by
  unfold PostProcess.removeSegmentSpacesBurmese
  lin

theorem lin_PostProcess_UseAlternateo1 : Lin PostProcess.UseAlternateo1 := by
  unfold PostProcess.UseAlternateo1
  lin

theorem lin_PostProcess_UseAlternateo2 : Lin PostProcess.UseAlternateo2 := by
  unfold PostProcess.UseAlternateo2
  lin

theorem lin_PostProcess_ThamLoCRomanLoCTarget : Lin PostProcess.ThamLoCRomanLoCTarget := by
  unfold PostProcess.ThamLoCRomanLoCTarget
  lin

theorem lin_PostProcess_ThamLoCRomanLoCSource : Lin PostProcess.ThamLoCRomanLoCSource := by
  unfold PostProcess.ThamLoCRomanLoCSource
  lin

theorem lin_PostProcess_KhmerLoCRomanLoCTarget : Lin PostProcess.KhmerLoCRomanLoCTarget := by
  unfold PostProcess.KhmerLoCRomanLoCTarget
  lin

theorem lin_PostProcess_KhmerLoCRomanLoCSource : Lin PostProcess.KhmerLoCRomanLoCSource := by
  unfold PostProcess.KhmerLoCRomanLoCSource
  lin

theorem lin_PostProcess_ShanLoCRomanLoCTarget : Lin PostProcess.ShanLoCRomanLoCTarget := by
  unfold PostProcess.ShanLoCRomanLoCTarget
  lin

theorem lin_PostProcess_ShanLoCRomanLoCSource : Lin PostProcess.ShanLoCRomanLoCSource := by
  unfold PostProcess.ShanLoCRomanLoCSource
  lin

theorem lin_PostProcess_BurmeseRomanLoCTarget : Lin PostProcess.BurmeseRomanLoCTarget := by
  unfold PostProcess.BurmeseRomanLoCTarget
  lin

theorem lin_PostProcess_insertARomanSemitic : Lin PostProcess.insertARomanSemitic := by
  unfold PostProcess.insertARomanSemitic
  lin

theorem lin_PostProcess_ArabAtoAleph : Lin PostProcess.ArabAtoAleph := by
  unfold PostProcess.ArabAtoAleph
  lin

theorem lin_PostProcess_estrangelasyriac : Lin PostProcess.estrangelasyriac := by
  unfold PostProcess.estrangelasyriac
  lin

theorem lin_PostProcess_easternsyriac : Lin PostProcess.easternsyriac := by
  unfold PostProcess.easternsyriac
  lin

theorem lin_PostProcess_westernsyriac : Lin PostProcess.westernsyriac := by
  unfold PostProcess.westernsyriac
  lin

theorem lin_PostProcess_kawitan : Lin PostProcess.kawitan := by
  unfold PostProcess.kawitan
  lin

theorem lin_PostProcess_sundapura : Lin PostProcess.sundapura := by
  unfold PostProcess.sundapura
  lin

theorem lin_PostProcess_readableItrans : Lin PostProcess.readableItrans := by
  unfold PostProcess.readableItrans
  lin

theorem lin_PostProcess_AnusvaratoNasalASTISO : Lin PostProcess.AnusvaratoNasalASTISO := by
  unfold PostProcess.AnusvaratoNasalASTISO
  lin

theorem lin_PostProcess_NasalTilde : Lin PostProcess.NasalTilde := by
  unfold PostProcess.NasalTilde
  lin
  all_goals with_reducible first | apply lin_PostProcess_AnusvaratoNasalASTISO

theorem lin_PostProcess_siddhamBija : Lin PostProcess.siddhamBija := by
  unfold PostProcess.siddhamBija
  lin

theorem lin_PostProcess_verticalKana : Lin PostProcess.verticalKana := by
  unfold PostProcess.verticalKana
  lin

theorem lin_PostProcess_verticalSiddham : Lin PostProcess.verticalSiddham := by
  unfold PostProcess.verticalSiddham
  lin

theorem lin_PostProcess_vtobJapanese : Lin PostProcess.vtobJapanese := by
  unfold PostProcess.vtobJapanese
  lin

theorem lin_PostProcess_SogdReshAyin : Lin PostProcess.SogdReshAyin := by
  unfold PostProcess.SogdReshAyin
  lin

theorem lin_PostProcess_SogoReshAyinDaleth : Lin PostProcess.SogoReshAyinDaleth := by
  unfold PostProcess.SogoReshAyinDaleth
  lin

theorem lin_PostProcess_arabPaFa : Lin PostProcess.arabPaFa := by
  unfold PostProcess.arabPaFa
  lin

theorem lin_PostProcess_arabChaSa : Lin PostProcess.arabChaSa := by
  unfold PostProcess.arabChaSa
  lin

theorem lin_PostProcess_gainGimel : Lin PostProcess.gainGimel := by
  unfold PostProcess.gainGimel
  lin

theorem lin_PostProcess_tavTwodot : Lin PostProcess.tavTwodot := by
  unfold PostProcess.tavTwodot
  lin

theorem lin_PostProcess_tavThreedot : Lin PostProcess.tavThreedot := by
  unfold PostProcess.tavThreedot
  lin

theorem lin_PostProcess_tokushuon : Lin PostProcess.tokushuon := by
  unfold PostProcess.tokushuon
  lin

theorem lin_PostProcess_urduRemoveInherent : Lin PostProcess.urduRemoveInherent := by
  unfold PostProcess.urduRemoveInherent
  lin

theorem lin_PostProcess_HebrewVetVav : Lin PostProcess.HebrewVetVav := by
  unfold PostProcess.HebrewVetVav
  lin

theorem lin_PostProcess_devanagariuttara : Lin PostProcess.devanagariuttara := by
  unfold PostProcess.devanagariuttara
  lin

theorem lin_PostProcess_devanagarinepali : Lin PostProcess.devanagarinepali := by
  unfold PostProcess.devanagarinepali
  lin

theorem lin_PostProcess_devanagaribalbodh : Lin PostProcess.devanagaribalbodh := by
  unfold PostProcess.devanagaribalbodh
  lin

theorem lin_PostProcess_devanagarijain : Lin PostProcess.devanagarijain := by
  unfold PostProcess.devanagarijain
  lin

theorem lin_PostProcess_HiraganaaunotDipthong : Lin PostProcess.HiraganaaunotDipthong := by
  unfold PostProcess.HiraganaaunotDipthong
  lin

theorem lin_PostProcess_IASTISONasalTilde : Lin PostProcess.IASTISONasalTilde := by
  unfold PostProcess.IASTISONasalTilde
  lin

theorem lin_PostProcess_HeberewQoph : Lin PostProcess.HeberewQoph := by
  unfold PostProcess.HeberewQoph
  lin

theorem lin_PostProcess_HebewShortO : Lin PostProcess.HebewShortO := by
  unfold PostProcess.HebewShortO
  lin

theorem lin_PostProcess_HebrewKatevMalei : Lin PostProcess.HebrewKatevMalei := by
  unfold PostProcess.HebrewKatevMalei
  lin

theorem lin_PostProcess_HebrewnonFinalShort : Lin PostProcess.HebrewnonFinalShort := by
  unfold PostProcess.HebrewnonFinalShort
  lin

theorem lin_PostProcess_NasalToAnusvara (Target : PyStr) : Lin (PostProcess.NasalToAnusvara Target) := by
  unfold PostProcess.NasalToAnusvara
  lin

theorem lin_PostProcess_DevanagariAnusvara : Lin PostProcess.DevanagariAnusvara := by
  unfold PostProcess.DevanagariAnusvara
  lin
  all_goals with_reducible first | apply lin_PostProcess_NasalToAnusvara

theorem lin_PostProcess_jainomDevangari : Lin PostProcess.jainomDevangari := by
  unfold PostProcess.jainomDevangari
  lin

theorem lin_PostProcess_GurmukhiCandrabindu : Lin PostProcess.GurmukhiCandrabindu := by
  unfold PostProcess.GurmukhiCandrabindu
  lin

theorem lin_PostProcess_mDotAboveToBelow : Lin PostProcess.mDotAboveToBelow := by
  unfold PostProcess.mDotAboveToBelow
  lin

theorem lin_PostProcess_mDotBelowToAbove : Lin PostProcess.mDotBelowToAbove := by
  unfold PostProcess.mDotBelowToAbove
  lin

theorem lin_PostProcess_noLongEO : Lin PostProcess.noLongEO := by
  unfold PostProcess.noLongEO
  lin

theorem lin_PostProcess_TamilStyleUUCore : Lin PostProcess.TamilStyleUUCore := by
  unfold PostProcess.TamilStyleUUCore
  lin

theorem lin_PostProcess_TamilStyleUUOther : Lin PostProcess.TamilStyleUUOther := by
  unfold PostProcess.TamilStyleUUOther
  lin

theorem lin_PostProcess_ContextualLLa : Lin PostProcess.ContextualLLa := by
  unfold PostProcess.ContextualLLa
  lin

theorem lin_PostProcess_FinalNNa : Lin PostProcess.FinalNNa := by
  unfold PostProcess.FinalNNa
  lin

theorem lin_PostProcess_TamilpredictDentaNaExtended : Lin PostProcess.TamilpredictDentaNaExtended := by
  unfold PostProcess.TamilpredictDentaNaExtended
  lin

theorem lin_PostProcess_TamilpredictDentaNa : Lin PostProcess.TamilpredictDentaNa := by
  unfold PostProcess.TamilpredictDentaNa
  lin

theorem lin_PostProcess_AhomClosed : Lin PostProcess.AhomClosed := by
  unfold PostProcess.AhomClosed
  lin

theorem lin_PostProcess_TeluguTamilZha : Lin PostProcess.TeluguTamilZha := by
  unfold PostProcess.TeluguTamilZha
  lin

theorem lin_PostProcess_TeluguTamilRra : Lin PostProcess.TeluguTamilRra := by
  unfold PostProcess.TeluguTamilRra
  lin

theorem lin_PostProcess_ThaiTranscription (anusvaraChange : Bool) : Lin (PostProcess.ThaiTranscription anusvaraChange) := by
  unfold PostProcess.ThaiTranscription
  lin
  all_goals with_reducible first | apply lin_ConvertFix_ThaiReverseVowelSigns | apply lin_ConvertFix_ThaiDigraphConjuncts | apply lin_PostProcess_ThaiLaoTranscription

theorem lin_PostProcess_ThaiNativeConsonants : Lin PostProcess.ThaiNativeConsonants := by
  unfold PostProcess.ThaiNativeConsonants
  lin
  all_goals with_reducible first | apply lin_PostProcess_ThaiTranscription

theorem lin_PostProcess_KhamiShanMyanmarNumerals : Lin PostProcess.KhamiShanMyanmarNumerals := by
  unfold PostProcess.KhamiShanMyanmarNumerals
  lin

theorem lin_PostProcess_KhamtiShanRa : Lin PostProcess.KhamtiShanRa := by
  unfold PostProcess.KhamtiShanRa
  lin

theorem lin_PostProcess_granthafinal : Lin PostProcess.granthafinal := by
  unfold PostProcess.granthafinal
  lin

theorem lin_PostProcess_Dot2Dandas : Lin PostProcess.Dot2Dandas := by
  unfold PostProcess.Dot2Dandas
  lin

theorem lin_PostProcess_Dot2Pipes : Lin PostProcess.Dot2Pipes := by
  unfold PostProcess.Dot2Pipes
  lin

theorem lin_PostProcess_SaurastraHaaruColon : Lin PostProcess.SaurastraHaaruColon := by
  unfold PostProcess.SaurastraHaaruColon
  lin

theorem lin_PostProcess_TamilExtendedNNA : Lin PostProcess.TamilExtendedNNA := by
  unfold PostProcess.TamilExtendedNNA
  lin
  all_goals with_reducible first | apply lin_PostProcess_TamilpredictDentaNaExtended

theorem lin_PostProcess_TakriRemoveGemination : Lin PostProcess.TakriRemoveGemination := by
  unfold PostProcess.TakriRemoveGemination
  lin

theorem lin_PostProcess_MongolianSyllabize : Lin PostProcess.MongolianSyllabize := by
  unfold PostProcess.MongolianSyllabize
  lin

theorem lin_PostProcess_TibetanSyllabize : Lin PostProcess.TibetanSyllabize := by
  unfold PostProcess.TibetanSyllabize
  lin

theorem lin_PostProcess_SoyomboSyllabize : Lin PostProcess.SoyomboSyllabize := by
  unfold PostProcess.SoyomboSyllabize
  lin

theorem lin_PostProcess_TakriArchaicKha : Lin PostProcess.TakriArchaicKha := by
  unfold PostProcess.TakriArchaicKha
  lin

theorem lin_PostProcess_TeluguReph : Lin PostProcess.TeluguReph := by
  unfold PostProcess.TeluguReph
  lin

theorem lin_PostProcess_PhagsPaTib : Lin PostProcess.PhagsPaTib := by
  unfold PostProcess.PhagsPaTib
  lin

theorem lin_PostProcess_PhagsPaSeal : Lin PostProcess.PhagsPaSeal := by
  unfold PostProcess.PhagsPaSeal
  lin

theorem lin_PostProcess_TamilExtendedAnusvara : Lin PostProcess.TamilExtendedAnusvara := by
  unfold PostProcess.TamilExtendedAnusvara
  lin
  all_goals with_reducible first | apply lin_PostProcess_AnusvaraToNasal

theorem lin_PostProcess_RomanReadableLongEO : Lin PostProcess.RomanReadableLongEO := by
  unfold PostProcess.RomanReadableLongEO
  lin

theorem lin_PostProcess_TeluguArasunnaChandrabindu : Lin PostProcess.TeluguArasunnaChandrabindu := by
  unfold PostProcess.TeluguArasunnaChandrabindu
  lin

theorem lin_PostProcess_MarchenSanskritPalatals : Lin PostProcess.MarchenSanskritPalatals := by
  unfold PostProcess.MarchenSanskritPalatals
  lin

theorem lin_PostProcess_SoyomboSanskritPalatals : Lin PostProcess.SoyomboSanskritPalatals := by
  unfold PostProcess.SoyomboSanskritPalatals
  lin

theorem lin_PostProcess_TibetanSanskritPalatals : Lin PostProcess.TibetanSanskritPalatals := by
  unfold PostProcess.TibetanSanskritPalatals
  lin

theorem lin_PostProcess_ZanabazarSanskritPalatals : Lin PostProcess.ZanabazarSanskritPalatals := by
  unfold PostProcess.ZanabazarSanskritPalatals
  lin

theorem lin_PostProcess_SoyomboFinals : Lin PostProcess.SoyomboFinals := by
  unfold PostProcess.SoyomboFinals
  lin

theorem lin_PostProcess_SoyomboInitials : Lin PostProcess.SoyomboInitials := by
  unfold PostProcess.SoyomboInitials
  lin

theorem lin_PostProcess_ZanzabarSpaceTsheg : Lin PostProcess.ZanzabarSpaceTsheg := by
  unfold PostProcess.ZanzabarSpaceTsheg
  lin

theorem lin_PostProcess_SoyomboSpaceTscheg : Lin PostProcess.SoyomboSpaceTscheg := by
  unfold PostProcess.SoyomboSpaceTscheg
  lin

theorem lin_PostProcess_KhandaTaRomanLoC : Lin PostProcess.KhandaTaRomanLoC := by
  unfold PostProcess.KhandaTaRomanLoC
  lin

theorem lin_PostProcess_RomanLoCVaWa : Lin PostProcess.RomanLoCVaWa := by
  unfold PostProcess.RomanLoCVaWa
  lin

theorem lin_PostProcess_RomanLoCSasha : Lin PostProcess.RomanLoCSasha := by
  unfold PostProcess.RomanLoCSasha
  lin

theorem lin_PostProcess_RomanLoCSLaDotLaUnderscore : Lin PostProcess.RomanLoCSLaDotLaUnderscore := by
  unfold PostProcess.RomanLoCSLaDotLaUnderscore
  lin

theorem lin_PostProcess_RomanLoCLaUnderscoreDoubleDot : Lin PostProcess.RomanLoCLaUnderscoreDoubleDot := by
  unfold PostProcess.RomanLoCLaUnderscoreDoubleDot
  lin

theorem lin_PostProcess_HindiMarathiRomanLoCFix : Lin PostProcess.HindiMarathiRomanLoCFix := by
  unfold PostProcess.HindiMarathiRomanLoCFix
  lin

theorem lin_PostProcess_DivesAkuruHomoOrganNasal : Lin PostProcess.DivesAkuruHomoOrganNasal := by
  unfold PostProcess.DivesAkuruHomoOrganNasal
  lin

theorem lin_PostProcess_DivesAkuruAlternateIndVowels : Lin PostProcess.DivesAkuruAlternateIndVowels := by
  unfold PostProcess.DivesAkuruAlternateIndVowels
  lin

theorem lin_PostProcess_UseAlternateYA : Lin PostProcess.UseAlternateYA := by
  unfold PostProcess.UseAlternateYA
  lin

theorem lin_PostProcess_KawiMoveRepha : Lin PostProcess.KawiMoveRepha := by
  unfold PostProcess.KawiMoveRepha
  lin

theorem lin_PostProcess_KawiAltAiAU : Lin PostProcess.KawiAltAiAU := by
  unfold PostProcess.KawiAltAiAU
  lin

theorem lin_PostProcess_KawiDecomposedVowel : Lin PostProcess.KawiDecomposedVowel := by
  unfold PostProcess.KawiDecomposedVowel
  lin

theorem lin_PostProcess_KawiArchaicJNA : Lin PostProcess.KawiArchaicJNA := by
  unfold PostProcess.KawiArchaicJNA
  lin

theorem lin_PostProcess_JavaneseArchaicJNA : Lin PostProcess.JavaneseArchaicJNA := by
  unfold PostProcess.JavaneseArchaicJNA
  lin

theorem lin_PostProcess_JavaneseAvowels : Lin PostProcess.JavaneseAvowels := by
  unfold PostProcess.JavaneseAvowels
  lin

theorem lin_PostProcess_TibetanLoCRomanLoCFix : Lin PostProcess.TibetanLoCRomanLoCFix := by
  unfold PostProcess.TibetanLoCRomanLoCFix
  lin

theorem lin_PostProcess_JavaneseSimplified : Lin PostProcess.JavaneseSimplified := by
  unfold PostProcess.JavaneseSimplified
  lin

theorem lin_PostProcess_BalineseSimplified : Lin PostProcess.BalineseSimplified := by
  unfold PostProcess.BalineseSimplified
  lin

theorem lin_PostProcess_BalineseRomanLoCFix : Lin PostProcess.BalineseRomanLoCFix := by
  unfold PostProcess.BalineseRomanLoCFix
  lin

theorem lin_PostProcess_JavaneseRomanLoCFix : Lin PostProcess.JavaneseRomanLoCFix := by
  unfold PostProcess.JavaneseRomanLoCFix
  lin

theorem lin_PostProcess_BalineseArchaicJNA : Lin PostProcess.BalineseArchaicJNA := by
  unfold PostProcess.BalineseArchaicJNA
  lin

theorem lin_PostProcess_BalineseJavaneseMoveRepha (tgt : PyStr) (reph : PyStr) : Lin (PostProcess.BalineseJavaneseMoveRepha tgt reph) := by
  unfold PostProcess.BalineseJavaneseMoveRepha
  lin

theorem lin_PostProcess_JavaneseMoveRepha : Lin PostProcess.JavaneseMoveRepha := by
  unfold PostProcess.JavaneseMoveRepha
  lin
  all_goals with_reducible first | apply lin_PostProcess_BalineseJavaneseMoveRepha

theorem lin_PostProcess_BalineseMoveRepha : Lin PostProcess.BalineseMoveRepha := by
  unfold PostProcess.BalineseMoveRepha
  lin
  all_goals with_reducible first | apply lin_PostProcess_BalineseJavaneseMoveRepha

theorem lin_PostProcess_BalineseAvowels : Lin PostProcess.BalineseAvowels := by
  unfold PostProcess.BalineseAvowels
  lin

theorem lin_PostProcess_GurmukhiRomanLoCFix : Lin PostProcess.GurmukhiRomanLoCFix := by
  unfold PostProcess.GurmukhiRomanLoCFix
  lin

theorem lin_PostProcess_DevanagariRomanLoCFix : Lin PostProcess.DevanagariRomanLoCFix := by
  unfold PostProcess.DevanagariRomanLoCFix
  lin

theorem lin_PostProcess_MalayalamRomanLoCFix : Lin PostProcess.MalayalamRomanLoCFix := by
  unfold PostProcess.MalayalamRomanLoCFix
  lin

theorem lin_PostProcess_MalayalamNTA : Lin PostProcess.MalayalamNTA := by
  unfold PostProcess.MalayalamNTA
  lin

theorem lin_PostProcess_MalayalamTTNTA : Lin PostProcess.MalayalamTTNTA := by
  unfold PostProcess.MalayalamTTNTA
  lin

theorem lin_PostProcess_SinhalaSannakaNasalization : Lin PostProcess.SinhalaSannakaNasalization := by
  unfold PostProcess.SinhalaSannakaNasalization
  lin

theorem lin_PostProcess_RomanLoCChandrabindu : Lin PostProcess.RomanLoCChandrabindu := by
  unfold PostProcess.RomanLoCChandrabindu
  lin

theorem lin_PostProcess_removeDiacritics : Lin PostProcess.removeDiacritics := by
  unfold PostProcess.removeDiacritics
  lin

theorem lin_PostProcess_ranjanalantsa : Lin PostProcess.ranjanalantsa := by
  unfold PostProcess.ranjanalantsa
  lin

theorem lin_PostProcess_ranjanawartu : Lin PostProcess.ranjanawartu := by
  unfold PostProcess.ranjanawartu
  lin

theorem lin_PostProcess_TaiKuen : Lin PostProcess.TaiKuen := by
  unfold PostProcess.TaiKuen
  lin

theorem lin_PostProcess_TaiThamLao : Lin PostProcess.TaiThamLao := by
  unfold PostProcess.TaiThamLao
  lin

theorem lin_PostProcess_egrantamil : Lin PostProcess.egrantamil := by
  unfold PostProcess.egrantamil
  lin

theorem lin_PostProcess_tibetandbumed : Lin PostProcess.tibetandbumed := by
  unfold PostProcess.tibetandbumed
  lin

theorem lin_PostProcess_oldtamilortho : Lin PostProcess.oldtamilortho := by
  unfold PostProcess.oldtamilortho
  lin

theorem lin_PostProcess_nepaldevafont : Lin PostProcess.nepaldevafont := by
  unfold PostProcess.nepaldevafont
  lin

theorem lin_PostProcess_granthaserif : Lin PostProcess.granthaserif := by
  unfold PostProcess.granthaserif
  lin

theorem lin_PostProcess_ChakmaPali : Lin PostProcess.ChakmaPali := by
  unfold PostProcess.ChakmaPali
  lin
  all_goals with_reducible first | apply lin_PostProcess_ChakmaGemination

theorem lin_PostProcess_ThaiSajjhayaOrthography (Script : PyStr) : Lin (PostProcess.ThaiSajjhayaOrthography Script) := by
  unfold PostProcess.ThaiSajjhayaOrthography
  lin
  all_goals with_reducible first | apply lin_ConvertFix_ThaiReverseVowelSigns | apply lin_ConvertFix_ThaiDigraphConjuncts

theorem lin_PostProcess_ThaiSajjhayawithA : Lin PostProcess.ThaiSajjhayawithA := by
  unfold PostProcess.ThaiSajjhayawithA
  lin
  all_goals with_reducible first | apply lin_PostProcess_ThaiSajjhayaOrthography | apply lin_PostProcess_ThaiTranscription

theorem lin_PostProcess_LaoSajjhaya : Lin PostProcess.LaoSajjhaya := by
  unfold PostProcess.LaoSajjhaya
  lin
  all_goals with_reducible first | apply lin_PostProcess_ThaiSajjhayaOrthography

theorem lin_PostProcess_LaoSajjhayawithA : Lin PostProcess.LaoSajjhayawithA := by
  unfold PostProcess.LaoSajjhayawithA
  lin
  all_goals with_reducible first | apply lin_PostProcess_LaoSajjhaya | apply lin_ConvertFix_LaoPaliTranscribe

theorem lin_PostProcess_UseAlternateVSU : Lin PostProcess.UseAlternateVSU := by
  unfold PostProcess.UseAlternateVSU
  lin

theorem lin_PostProcess_UseAlternateVSUU : Lin PostProcess.UseAlternateVSUU := by
  unfold PostProcess.UseAlternateVSUU
  lin

theorem lin_PostProcess_UseAlternateU : Lin PostProcess.UseAlternateU := by
  unfold PostProcess.UseAlternateU
  lin

theorem lin_PostProcess_UseAlternateI1 : Lin PostProcess.UseAlternateI1 := by
  unfold PostProcess.UseAlternateI1
  lin

theorem lin_PostProcess_UseAlternateI2 : Lin PostProcess.UseAlternateI2 := by
  unfold PostProcess.UseAlternateI2
  lin

theorem lin_PostProcess_UseAlternateII : Lin PostProcess.UseAlternateII := by
  unfold PostProcess.UseAlternateII
  lin

theorem lin_PostProcess_GranthaOldau : Lin PostProcess.GranthaOldau := by
  unfold PostProcess.GranthaOldau
  lin

theorem lin_PostProcess_DevanagariACandra : Lin PostProcess.DevanagariACandra := by
  unfold PostProcess.DevanagariACandra
  lin

theorem lin_PostProcess_WarangCitiModernOrthogaphy : Lin PostProcess.WarangCitiModernOrthogaphy := by
  unfold PostProcess.WarangCitiModernOrthogaphy
  lin

theorem lin_PostProcess_ChakmaEnableAllConjuncts : Lin PostProcess.ChakmaEnableAllConjuncts := by
  unfold PostProcess.ChakmaEnableAllConjuncts
  lin
  all_goals with_reducible first | apply lin_PostProcess_ChakmaGemination

theorem lin_PostProcess_ChakmaVowelsIndependent : Lin PostProcess.ChakmaVowelsIndependent := by
  unfold PostProcess.ChakmaVowelsIndependent
  lin

theorem lin_PostProcess_MultaniAbjad : Lin PostProcess.MultaniAbjad := by
  unfold PostProcess.MultaniAbjad
  lin

theorem lin_PostProcess_LaoNative : Lin PostProcess.LaoNative := by
  unfold PostProcess.LaoNative
  lin

theorem lin_PostProcess_LimbuSpellingSaI : Lin PostProcess.LimbuSpellingSaI := by
  unfold PostProcess.LimbuSpellingSaI
  lin

theorem lin_PostProcess_siddhammukta : Lin PostProcess.siddhammukta := by
  unfold PostProcess.siddhammukta
  lin

theorem lin_PostProcess_tradOrtho : Lin PostProcess.tradOrtho := by
  unfold PostProcess.tradOrtho
  lin

theorem lin_PostProcess_siddhamap : Lin PostProcess.siddhamap := by
  unfold PostProcess.siddhamap
  lin

theorem lin_PostProcess_KhojkiRetainSpace : Lin PostProcess.KhojkiRetainSpace := by
  unfold PostProcess.KhojkiRetainSpace
  lin

theorem lin_PostProcess_BhaiksukiRetainSpace : Lin PostProcess.BhaiksukiRetainSpace := by
  unfold PostProcess.BhaiksukiRetainSpace
  lin

theorem lin_PostProcess_KaithiRetainSpace : Lin PostProcess.KaithiRetainSpace := by
  unfold PostProcess.KaithiRetainSpace
  lin

theorem lin_PostProcess_MedievalTamilOrthography : Lin PostProcess.MedievalTamilOrthography := by
  unfold PostProcess.MedievalTamilOrthography
  lin

theorem lin_PostProcess_AmbigousTamilOrthography : Lin PostProcess.AmbigousTamilOrthography := by
  unfold PostProcess.AmbigousTamilOrthography
  lin

theorem lin_PostProcess_NewaMurmurConsonants : Lin PostProcess.NewaMurmurConsonants := by
  unfold PostProcess.NewaMurmurConsonants
  lin

theorem lin_PostProcess_ModiRemoveLong : Lin PostProcess.ModiRemoveLong := by
  unfold PostProcess.ModiRemoveLong
  lin

theorem lin_PostProcess_LimbuDevanagariConvention : Lin PostProcess.LimbuDevanagariConvention := by
  unfold PostProcess.LimbuDevanagariConvention
  lin

theorem lin_PostProcess_ThaanaRemoveHistorical : Lin PostProcess.ThaanaRemoveHistorical := by
  unfold PostProcess.ThaanaRemoveHistorical
  lin

theorem lin_PostProcess_OriyaVaAlt : Lin PostProcess.OriyaVaAlt := by
  unfold PostProcess.OriyaVaAlt
  lin

theorem lin_PostProcess_dotReph : Lin PostProcess.dotReph := by
  unfold PostProcess.dotReph
  lin

theorem lin_PostProcess_TamilGranthaVisarga : Lin PostProcess.TamilGranthaVisarga := by
  unfold PostProcess.TamilGranthaVisarga
  lin

theorem lin_PostProcess_archaicAIAU : Lin PostProcess.archaicAIAU := by
  unfold PostProcess.archaicAIAU
  lin

theorem lin_PostProcess_MalayalamremoveHistorical : Lin PostProcess.MalayalamremoveHistorical := by
  unfold PostProcess.MalayalamremoveHistorical
  lin

theorem lin_PostProcess_LimburemoveHistorical : Lin PostProcess.LimburemoveHistorical := by
  unfold PostProcess.LimburemoveHistorical
  lin

theorem lin_PostProcess_MalayalamPrakrit : Lin PostProcess.MalayalamPrakrit := by
  unfold PostProcess.MalayalamPrakrit
  lin
  all_goals with_reducible first | apply lin_PostProcess_InsertGeminationSign

theorem lin_PostProcess_GranthaPrakrit : Lin PostProcess.GranthaPrakrit := by
  unfold PostProcess.GranthaPrakrit
  lin

theorem lin_PostProcess_MeeteiMayekremoveHistorical : Lin PostProcess.MeeteiMayekremoveHistorical := by
  unfold PostProcess.MeeteiMayekremoveHistorical
  lin

theorem lin_PostProcess_TamilOmDisable : Lin PostProcess.TamilOmDisable := by
  unfold PostProcess.TamilOmDisable
  lin

theorem lin_PostProcess_TamilSHADisable : Lin PostProcess.TamilSHADisable := by
  unfold PostProcess.TamilSHADisable
  lin

theorem lin_PostProcess_TamilNaToNNa : Lin PostProcess.TamilNaToNNa := by
  unfold PostProcess.TamilNaToNNa
  lin

theorem lin_PostProcess_historicChillu : Lin PostProcess.historicChillu := by
  unfold PostProcess.historicChillu
  lin

theorem lin_PostProcess_MalayalamLineVirama : Lin PostProcess.MalayalamLineVirama := by
  unfold PostProcess.MalayalamLineVirama
  lin

theorem lin_PostProcess_MalayalamCircVirama : Lin PostProcess.MalayalamCircVirama := by
  unfold PostProcess.MalayalamCircVirama
  lin

theorem lin_PostProcess_GurmukhiTippiBindu : Lin PostProcess.GurmukhiTippiBindu := by
  unfold PostProcess.GurmukhiTippiBindu
  lin

theorem lin_PostProcess_GurmukhiTippiGemination : Lin PostProcess.GurmukhiTippiGemination := by
  unfold PostProcess.GurmukhiTippiGemination
  lin

theorem lin_PostProcess_khandatabatova : Lin PostProcess.khandatabatova := by
  unfold PostProcess.khandatabatova
  lin

theorem lin_PostProcess_BengaliConjunctVB : Lin PostProcess.BengaliConjunctVB := by
  unfold PostProcess.BengaliConjunctVB
  lin
  all_goals with_reducible first | apply lin_PostProcess_khandatabatova

theorem lin_PostProcess_BengaliRaBa : Lin PostProcess.BengaliRaBa := by
  unfold PostProcess.BengaliRaBa
  lin

theorem lin_PostProcess_BengaliIntervocalicDDA : Lin PostProcess.BengaliIntervocalicDDA := by
  unfold PostProcess.BengaliIntervocalicDDA
  lin

theorem lin_PostProcess_MalayalamAnusvaraNasal : Lin PostProcess.MalayalamAnusvaraNasal := by
  unfold PostProcess.MalayalamAnusvaraNasal
  lin

theorem lin_PostProcess_YYAEverywhere (Target : PyStr) : Lin (PostProcess.YYAEverywhere Target) := by
  unfold PostProcess.YYAEverywhere
  lin

theorem lin_PostProcess_OriyaYYA : Lin PostProcess.OriyaYYA := by
  unfold PostProcess.OriyaYYA
  lin
  all_goals with_reducible first | apply lin_PostProcess_YYAEverywhere

theorem lin_PostProcess_BengaliYYA : Lin PostProcess.BengaliYYA := by
  unfold PostProcess.BengaliYYA
  lin
  all_goals with_reducible first | apply lin_PostProcess_YYAEverywhere

theorem lin_PostProcess_VaToBa (Target : PyStr) : Lin (PostProcess.VaToBa Target) := by
  unfold PostProcess.VaToBa
  lin

theorem lin_PostProcess_indicNumerals : Lin PostProcess.indicNumerals := by
  unfold PostProcess.indicNumerals
  lin

theorem lin_PostProcess_romanFullStop : Lin PostProcess.romanFullStop := by
  unfold PostProcess.romanFullStop
  lin

theorem lin_PostProcess_indicDandas : Lin PostProcess.indicDandas := by
  unfold PostProcess.indicDandas
  lin

theorem lin_PostProcess_romanNumerals : Lin PostProcess.romanNumerals := by
  unfold PostProcess.romanNumerals
  lin

theorem lin_PostProcess_RetainTeluguDanda : Lin PostProcess.RetainTeluguDanda := by
  unfold PostProcess.RetainTeluguDanda
  lin
  all_goals with_reducible first | apply lin_PostProcess_RetainDandasIndic

theorem lin_PostProcess_RetainTeluguNumerals : Lin PostProcess.RetainTeluguNumerals := by
  unfold PostProcess.RetainTeluguNumerals
  lin
  all_goals with_reducible first | apply lin_PostProcess_RetainIndicNumerals

theorem lin_PostProcess_RetainTamilDanda : Lin PostProcess.RetainTamilDanda := by
  unfold PostProcess.RetainTamilDanda
  lin
  all_goals with_reducible first | apply lin_PostProcess_RetainDandasIndic

theorem lin_PostProcess_RetainTamilNumerals : Lin PostProcess.RetainTamilNumerals := by
  unfold PostProcess.RetainTamilNumerals
  lin
  all_goals with_reducible first | apply lin_PostProcess_RetainIndicNumerals

theorem lin_PostProcess_RetainKannadaDanda : Lin PostProcess.RetainKannadaDanda := by
  unfold PostProcess.RetainKannadaDanda
  lin
  all_goals with_reducible first | apply lin_PostProcess_RetainDandasIndic

theorem lin_PostProcess_RetainKannadaNumerals : Lin PostProcess.RetainKannadaNumerals := by
  unfold PostProcess.RetainKannadaNumerals
  lin
  all_goals with_reducible first | apply lin_PostProcess_RetainIndicNumerals

theorem lin_PostProcess_RetainMalayalamDanda : Lin PostProcess.RetainMalayalamDanda := by
  unfold PostProcess.RetainMalayalamDanda
  lin
  all_goals with_reducible first | apply lin_PostProcess_RetainDandasIndic

theorem lin_PostProcess_RetainMalayalamNumerals : Lin PostProcess.RetainMalayalamNumerals := by
  unfold PostProcess.RetainMalayalamNumerals
  lin
  all_goals with_reducible first | apply lin_PostProcess_RetainIndicNumerals

theorem lin_PostProcess_RetainGujaratiDanda : Lin PostProcess.RetainGujaratiDanda := by
  unfold PostProcess.RetainGujaratiDanda
  lin
  all_goals with_reducible first | apply lin_PostProcess_RetainDandasIndic

theorem lin_PostProcess_RetainGurmukhiNumerals : Lin PostProcess.RetainGurmukhiNumerals := by
  unfold PostProcess.RetainGurmukhiNumerals
  lin
  all_goals with_reducible first | apply lin_PostProcess_RetainIndicNumerals

theorem lin_PostProcess_SundaneseRemoveHistoric : Lin PostProcess.SundaneseRemoveHistoric := by
  unfold PostProcess.SundaneseRemoveHistoric
  lin

theorem lin_PostProcess_OriyaVa : Lin PostProcess.OriyaVa := by
  unfold PostProcess.OriyaVa
  lin

theorem lin_PostProcess_RemoveDiacritics : Lin PostProcess.RemoveDiacritics := by
  unfold PostProcess.RemoveDiacritics
  lin

theorem lin_PostProcess_RemoveDiacriticsTamil : Lin PostProcess.RemoveDiacriticsTamil := by
  unfold PostProcess.RemoveDiacriticsTamil
  lin

theorem lin_PostProcess_TamilSubScript : Lin PostProcess.TamilSubScript := by
  unfold PostProcess.TamilSubScript
  lin

theorem lin_PostProcess_TamilAddFirstVarga : Lin PostProcess.TamilAddFirstVarga := by
  unfold PostProcess.TamilAddFirstVarga
  lin
  all_goals with_reducible first | apply lin_ConvertFix_ShiftDiacritics

theorem lin_PostProcess_SaurashtraHaru : Lin PostProcess.SaurashtraHaru := by
  unfold PostProcess.SaurashtraHaru
  lin

theorem lin_PostProcess_IASTPali : Lin PostProcess.IASTPali := by
  unfold PostProcess.IASTPali
  lin

theorem lin_PostProcess_CyrillicPali : Lin PostProcess.CyrillicPali := by
  unfold PostProcess.CyrillicPali
  lin

theorem lin_PostProcess_SinhalaConjuncts : Lin PostProcess.SinhalaConjuncts := by
  unfold PostProcess.SinhalaConjuncts
  lin

theorem lin_PostProcess_UrduAlternateUU : Lin PostProcess.UrduAlternateUU := by
  unfold PostProcess.UrduAlternateUU
  lin

theorem lin_PostProcess_TibetanNada : Lin PostProcess.TibetanNada := by
  unfold PostProcess.TibetanNada
  lin

theorem lin_PostProcess_TibetanTsheg : Lin PostProcess.TibetanTsheg := by
  unfold PostProcess.TibetanTsheg
  lin

theorem lin_PostProcess_TibetanRemoveVirama : Lin PostProcess.TibetanRemoveVirama := by
  unfold PostProcess.TibetanRemoveVirama
  lin

theorem lin_PostProcess_TibetanRemoveBa : Lin PostProcess.TibetanRemoveBa := by
  unfold PostProcess.TibetanRemoveBa
  lin
  all_goals with_reducible first | apply lin_PostProcess_VaToBa

theorem lin_PostProcess_LaoTranscription : Lin PostProcess.LaoTranscription := by
  unfold PostProcess.LaoTranscription
  lin
  all_goals with_reducible first | apply lin_ConvertFix_LaoPaliTranscribe

theorem lin_PostProcess_ThaiVisargaSaraA : Lin PostProcess.ThaiVisargaSaraA := by
  unfold PostProcess.ThaiVisargaSaraA
  lin

theorem lin_PostProcess_ThamTallADisable : Lin PostProcess.ThamTallADisable := by
  unfold PostProcess.ThamTallADisable
  lin

theorem lin_PostProcess_ThamTallAOthers : Lin PostProcess.ThamTallAOthers := by
  unfold PostProcess.ThamTallAOthers
  lin
  all_goals with_reducible first | apply lin_PostProcess_FixTallA

theorem lin_PostProcess_LaoPhonetic : Lin PostProcess.LaoPhonetic := by
  unfold PostProcess.LaoPhonetic
  lin
  all_goals with_reducible first | apply lin_PostProcess_LaoTranscription

theorem lin_PostProcess_RephaDoubleMalayalam : Lin PostProcess.RephaDoubleMalayalam := by
  unfold PostProcess.RephaDoubleMalayalam
  lin

theorem lin_PostProcess_DograShaKha : Lin PostProcess.DograShaKha := by
  unfold PostProcess.DograShaKha
  lin

theorem lin_PostProcess_ThamShiftMaiKangLai : Lin PostProcess.ThamShiftMaiKangLai := by
  unfold PostProcess.ThamShiftMaiKangLai
  lin

theorem lin_PostProcess_AvestanConventions : Lin PostProcess.AvestanConventions := by
  unfold PostProcess.AvestanConventions
  lin

theorem lin_PostProcess_TaiThamO : Lin PostProcess.TaiThamO := by
  unfold PostProcess.TaiThamO
  lin

theorem lin_PostProcess_TaiThamHighNga : Lin PostProcess.TaiThamHighNga := by
  unfold PostProcess.TaiThamHighNga
  lin

theorem lin_PostProcess_TaiThamMoveNnga : Lin PostProcess.TaiThamMoveNnga := by
  unfold PostProcess.TaiThamMoveNnga
  lin

theorem lin_PostProcess_UrduRemoveShortVowels : Lin PostProcess.UrduRemoveShortVowels := by
  unfold PostProcess.UrduRemoveShortVowels
  lin

theorem lin_PostProcess_LatinPipes : Lin PostProcess.LatinPipes := by
  unfold PostProcess.LatinPipes
  lin

theorem lin_PostProcess_DevanagariAVowels : Lin PostProcess.DevanagariAVowels := by
  unfold PostProcess.DevanagariAVowels
  lin

theorem lin_PostProcess_AnusvaraToNasalIPA : Lin PostProcess.AnusvaraToNasalIPA := by
  unfold PostProcess.AnusvaraToNasalIPA
  lin

theorem lin_PostProcess_IPARemoveCross : Lin PostProcess.IPARemoveCross := by
  unfold PostProcess.IPARemoveCross
  lin

theorem lin_PostProcess_ChakmaAVowels : Lin PostProcess.ChakmaAVowels := by
  unfold PostProcess.ChakmaAVowels
  lin

theorem lin_PostProcess_ZanabazarSquareContextual : Lin PostProcess.ZanabazarSquareContextual := by
  unfold PostProcess.ZanabazarSquareContextual
  lin

theorem lin_PostProcess_ZanabazarSquareAiAu : Lin PostProcess.ZanabazarSquareAiAu := by
  unfold PostProcess.ZanabazarSquareAiAu
  lin

theorem lin_PostProcess_ZanabazarSquareMongolianFinal : Lin PostProcess.ZanabazarSquareMongolianFinal := by
  unfold PostProcess.ZanabazarSquareMongolianFinal
  lin

theorem lin_PostProcess_TamilRemoveApostrophe : Lin PostProcess.TamilRemoveApostrophe := by
  unfold PostProcess.TamilRemoveApostrophe
  lin

theorem lin_PostProcess_TamilRemoveNumbers : Lin PostProcess.TamilRemoveNumbers := by
  unfold PostProcess.TamilRemoveNumbers
  lin

theorem lin_PostProcess_NewaSpecialTa : Lin PostProcess.NewaSpecialTa := by
  unfold PostProcess.NewaSpecialTa
  lin

theorem lin_PostProcess_TamilDisableSHA : Lin PostProcess.TamilDisableSHA := by
  unfold PostProcess.TamilDisableSHA
  lin
  all_goals with_reducible first | apply lin_ConvertFix_ShiftDiacritics

theorem lin_PostProcess_swapEe : Lin PostProcess.swapEe := by
  unfold PostProcess.swapEe
  lin

theorem lin_PostProcess_swapEeItrans : Lin PostProcess.swapEeItrans := by
  unfold PostProcess.swapEeItrans
  lin

theorem lin_PostProcess_capitalizeSentence : Lin PostProcess.capitalizeSentence := by
  unfold PostProcess.capitalizeSentence
  lin

theorem lin_PostProcess_NewaDisableRepha : Lin PostProcess.NewaDisableRepha := by
  unfold PostProcess.NewaDisableRepha
  lin

theorem preFns_lin : ∀ p ∈ preFns, Lin p.2 := by
  unfold preFns
  refine List.forall_mem_cons.2 ⟨by dsimp only; apply lin_PreProcess_AlephMaterLectionis, ?_⟩
  refine List.forall_mem_cons.2 ⟨by dsimp only; apply Lin.fail _, ?_⟩
  refine List.forall_mem_cons.2 ⟨by dsimp only; apply lin_PreProcess_AnuChandraEqDeva, ?_⟩
  refine List.forall_mem_cons.2 ⟨by dsimp only; apply lin_PreProcess_ArabicGimelJa, ?_⟩
  refine List.forall_mem_cons.2 ⟨by dsimp only; apply lin_PreProcess_ArabizePersian, ?_⟩
  refine List.forall_mem_cons.2 ⟨by dsimp only; apply lin_PreProcess_ArchaicJnaSimplifyRomanLOC, ?_⟩
  refine List.forall_mem_cons.2 ⟨by dsimp only; apply Lin.fail _, ?_⟩
  refine List.forall_mem_cons.2 ⟨by dsimp only; apply lin_PreProcess_BalineseMoveRepha, ?_⟩
  refine List.forall_mem_cons.2 ⟨by dsimp only; apply lin_PreProcess_BalineseRomanLoCFix, ?_⟩
  refine List.forall_mem_cons.2 ⟨by dsimp only; apply lin_PreProcess_BengaliSubojinedVa, ?_⟩
  refine List.forall_mem_cons.2 ⟨by dsimp only; apply lin_PreProcess_BengaliSwitchYaYYa, ?_⟩
  refine List.forall_mem_cons.2 ⟨by dsimp only; apply lin_PreProcess_BengaliTargetVa, ?_⟩
  refine List.forall_mem_cons.2 ⟨by dsimp only; apply lin_PreProcess_BurmeseRomanLoCSource, ?_⟩
  refine List.forall_mem_cons.2 ⟨by dsimp only; apply lin_PreProcess_BurmeseRomanLoCTarget, ?_⟩
  refine List.forall_mem_cons.2 ⟨by dsimp only; apply lin_PreProcess_ChakmaPali, ?_⟩
  refine List.forall_mem_cons.2 ⟨by dsimp only; apply lin_PreProcess_CyrillicPali, ?_⟩
  refine List.forall_mem_cons.2 ⟨by dsimp only; apply lin_PreProcess_DevanagariRomanLoCFix, ?_⟩
  refine List.forall_mem_cons.2 ⟨by dsimp only; apply lin_PreProcess_DivesAkuruAlternateIndVowels, ?_⟩
  refine List.forall_mem_cons.2 ⟨by dsimp only; apply Lin.fail _, ?_⟩
  refine List.forall_mem_cons.2 ⟨by dsimp only; apply lin_PreProcess_GranthaPrakrit, ?_⟩
  refine List.forall_mem_cons.2 ⟨by dsimp only; apply lin_PreProcess_HatrDalethResh, ?_⟩
  refine List.forall_mem_cons.2 ⟨by dsimp only; apply lin_PreProcess_HebrewSBLSource, ?_⟩
  refine List.forall_mem_cons.2 ⟨by dsimp only; apply lin_PreProcess_HebrewSBLTarget, ?_⟩
  refine List.forall_mem_cons.2 ⟨by dsimp only; apply lin_PreProcess_HindiMarathiRomanLoCFix, ?_⟩
  refine List.forall_mem_cons.2 ⟨by dsimp only; apply lin_PreProcess_IASTLDotRetroflex, ?_⟩
  refine List.forall_mem_cons.2 ⟨by dsimp only; apply lin_PreProcess_IASTPali, ?_⟩
  refine List.forall_mem_cons.2 ⟨by dsimp only; apply lin_PreProcess_IPAIndic, ?_⟩
  refine List.forall_mem_cons.2 ⟨by dsimp only; apply lin_PreProcess_ISO233Source, ?_⟩
  refine List.forall_mem_cons.2 ⟨by dsimp only; apply lin_PreProcess_ISO233Target, ?_⟩
  refine List.forall_mem_cons.2 ⟨by dsimp only; apply lin_PreProcess_ISO259Source, ?_⟩
  refine List.forall_mem_cons.2 ⟨by dsimp only; apply lin_PreProcess_ISO259Target, ?_⟩
  refine List.forall_mem_cons.2 ⟨by dsimp only; apply lin_PreProcess_ItransLL, ?_⟩
  refine List.forall_mem_cons.2 ⟨by dsimp only; apply Lin.fail _, ?_⟩
  refine List.forall_mem_cons.2 ⟨by dsimp only; apply lin_PreProcess_JavaneseMoveRepha, ?_⟩
  refine List.forall_mem_cons.2 ⟨by dsimp only; apply lin_PreProcess_JavaneseRomanLoCFix, ?_⟩
  refine List.forall_mem_cons.2 ⟨by dsimp only; apply lin_PreProcess_KawiMoveRepha, ?_⟩
  refine List.forall_mem_cons.2 ⟨by dsimp only; apply lin_PreProcess_KhandaTaRomanLoC, ?_⟩
  refine List.forall_mem_cons.2 ⟨by dsimp only; apply lin_PreProcess_KhmerLoCRomanLoCSource, ?_⟩
  refine List.forall_mem_cons.2 ⟨by dsimp only; apply lin_PreProcess_KhmerLoCRomanLoCTarget, ?_⟩
  refine List.forall_mem_cons.2 ⟨by dsimp only; apply lin_PreProcess_KhmerWordSplit, ?_⟩
  refine List.forall_mem_cons.2 ⟨by dsimp only; apply lin_PreProcess_KhuenRaHaamKaren, ?_⟩
  refine List.forall_mem_cons.2 ⟨by dsimp only; apply lin_PreProcess_LaoPhonetic, ?_⟩
  refine List.forall_mem_cons.2 ⟨by dsimp only; apply lin_PreProcess_LaoSajhayaOrthography, ?_⟩
  refine List.forall_mem_cons.2 ⟨by dsimp only; apply lin_PreProcess_LaoSajhayaOrthographywithA, ?_⟩
  refine List.forall_mem_cons.2 ⟨by dsimp only; apply lin_PreProcess_LaoTranscription, ?_⟩
  refine List.forall_mem_cons.2 ⟨by dsimp only; apply lin_PreProcess_LimbuDevanagariConvention, ?_⟩
  refine List.forall_mem_cons.2 ⟨by dsimp only; apply lin_PreProcess_LimbuSpellingSaI, ?_⟩
  refine List.forall_mem_cons.2 ⟨by dsimp only; apply lin_PreProcess_MalayalamHalfu, ?_⟩
  refine List.forall_mem_cons.2 ⟨by dsimp only; apply lin_PreProcess_MalayalamPrakrit, ?_⟩
  refine List.forall_mem_cons.2 ⟨by dsimp only; apply lin_PreProcess_MalayalamRomanLoCFix, ?_⟩
  refine List.forall_mem_cons.2 ⟨by dsimp only; apply lin_PreProcess_MalayalamTranscribe, ?_⟩
  refine List.forall_mem_cons.2 ⟨by dsimp only; apply lin_PreProcess_OriyaSubojinedVa, ?_⟩
  refine List.forall_mem_cons.2 ⟨by dsimp only; apply lin_PreProcess_OriyaTargetVa, ?_⟩
  refine List.forall_mem_cons.2 ⟨by dsimp only; apply lin_PreProcess_PersianDMGTarget, ?_⟩
  refine List.forall_mem_cons.2 ⟨by dsimp only; apply Lin.fail _, ?_⟩
  refine List.forall_mem_cons.2 ⟨by dsimp only; apply lin_PreProcess_PhliWawAyinResh, ?_⟩
  refine List.forall_mem_cons.2 ⟨by dsimp only; apply lin_PreProcess_PhlpMemQoph, ?_⟩
  refine List.forall_mem_cons.2 ⟨by dsimp only; apply lin_PreProcess_PhlpWawAyinResh, ?_⟩
  refine List.forall_mem_cons.2 ⟨by dsimp only; apply Lin.fail _, ?_⟩
  refine List.forall_mem_cons.2 ⟨by dsimp only; apply Lin.fail _, ?_⟩
  refine List.forall_mem_cons.2 ⟨by dsimp only; apply lin_PreProcess_RemoveJoiners, ?_⟩
  refine List.forall_mem_cons.2 ⟨by dsimp only; apply lin_PreProcess_RemoveSchwaHindi, ?_⟩
  refine List.forall_mem_cons.2 ⟨by dsimp only; apply lin_PreProcess_RetainDevangariDanda, ?_⟩
  refine List.forall_mem_cons.2 ⟨by dsimp only; apply Lin.fail _, ?_⟩
  refine List.forall_mem_cons.2 ⟨by dsimp only; apply lin_PreProcess_RomanLoCChandrabindu, ?_⟩
  refine List.forall_mem_cons.2 ⟨by dsimp only; apply lin_PreProcess_RomanLoCLaUnderscoreDoubleDot, ?_⟩
  refine List.forall_mem_cons.2 ⟨by dsimp only; apply lin_PreProcess_RomanLoCSLaDotLaUnderscore, ?_⟩
  refine List.forall_mem_cons.2 ⟨by dsimp only; apply lin_PreProcess_RomanLoCSasha, ?_⟩
  refine List.forall_mem_cons.2 ⟨by dsimp only; apply lin_PreProcess_RomanLoCVaWa, ?_⟩
  refine List.forall_mem_cons.2 ⟨by dsimp only; apply Lin.fail _, ?_⟩
  refine List.forall_mem_cons.2 ⟨by dsimp only; apply lin_PreProcess_SanskritLexicaizeHK, ?_⟩
  refine List.forall_mem_cons.2 ⟨by dsimp only; apply lin_PreProcess_SaurastraHaaruColonTamil, ?_⟩
  refine List.forall_mem_cons.2 ⟨by dsimp only; apply lin_PreProcess_SchwaFinalBengali, ?_⟩
  refine List.forall_mem_cons.2 ⟨by dsimp only; apply lin_PreProcess_SchwaFinalGujarati, ?_⟩
  refine List.forall_mem_cons.2 ⟨by dsimp only; apply lin_PreProcess_SchwaFinalGurmukhi, ?_⟩
  refine List.forall_mem_cons.2 ⟨by dsimp only; apply lin_PreProcess_SchwaFinalKhmer, ?_⟩
  refine List.forall_mem_cons.2 ⟨by dsimp only; apply lin_PreProcess_SchwaFinalKhmerLoC, ?_⟩
  refine List.forall_mem_cons.2 ⟨by dsimp only; apply lin_PreProcess_SchwaFinalWarangCiti, ?_⟩
  refine List.forall_mem_cons.2 ⟨by dsimp only; apply lin_PreProcess_ShanLoCRomanLoCSource, ?_⟩
  refine List.forall_mem_cons.2 ⟨by dsimp only; apply lin_PreProcess_ShanLoCRomanLoCTarget, ?_⟩
  refine List.forall_mem_cons.2 ⟨by dsimp only; apply lin_PreProcess_ShowChillus, ?_⟩
  refine List.forall_mem_cons.2 ⟨by dsimp only; apply lin_PreProcess_ShowKhandaTa, ?_⟩
  refine List.forall_mem_cons.2 ⟨by dsimp only; apply lin_PreProcess_SinhalaPali, ?_⟩
  refine List.forall_mem_cons.2 ⟨by dsimp only; apply lin_PreProcess_SogdReshAyin, ?_⟩
  refine List.forall_mem_cons.2 ⟨by dsimp only; apply lin_PreProcess_SogoReshAyinDaleth, ?_⟩
  refine List.forall_mem_cons.2 ⟨by dsimp only; apply lin_PreProcess_TaiKuen, ?_⟩
  refine List.forall_mem_cons.2 ⟨by dsimp only; apply lin_PreProcess_TaiThamLao, ?_⟩
  refine List.forall_mem_cons.2 ⟨by dsimp only; apply lin_PreProcess_TakriArchaicKha, ?_⟩
  refine List.forall_mem_cons.2 ⟨by dsimp only; apply lin_PreProcess_TamilNumeralSub, ?_⟩
  refine List.forall_mem_cons.2 ⟨by dsimp only; apply lin_PreProcess_TamilTranscribe, ?_⟩
  refine List.forall_mem_cons.2 ⟨by dsimp only; apply lin_PreProcess_TamilTranscribeCommon, ?_⟩
  refine List.forall_mem_cons.2 ⟨by dsimp only; apply lin_PreProcess_TamilTranscribeDialect, ?_⟩
  refine List.forall_mem_cons.2 ⟨by dsimp only; apply lin_PreProcess_ThaiOrthography, ?_⟩
  refine List.forall_mem_cons.2 ⟨by dsimp only; apply lin_PreProcess_ThaiPhonetic, ?_⟩
  refine List.forall_mem_cons.2 ⟨by dsimp only; apply lin_PreProcess_ThaiSajjhayaOrthography, ?_⟩
  refine List.forall_mem_cons.2 ⟨by dsimp only; apply lin_PreProcess_ThaiSajjhayawithA, ?_⟩
  refine List.forall_mem_cons.2 ⟨by dsimp only; apply lin_PreProcess_ThamLoCRomanLoCSource, ?_⟩
  refine List.forall_mem_cons.2 ⟨by dsimp only; apply lin_PreProcess_ThamLoCRomanLoCTarget, ?_⟩
  refine List.forall_mem_cons.2 ⟨by dsimp only; apply lin_PreProcess_TibetanLoCRomanLoCFix, ?_⟩
  refine List.forall_mem_cons.2 ⟨by dsimp only; apply lin_PreProcess_UnSupThaana, ?_⟩
  refine List.forall_mem_cons.2 ⟨by dsimp only; apply lin_PreProcess_UrduShortNotShown, ?_⟩
  refine List.forall_mem_cons.2 ⟨by dsimp only; apply lin_PreProcess_default, ?_⟩
  refine List.forall_mem_cons.2 ⟨by dsimp only; apply lin_PreProcess_egrantamil, ?_⟩
  refine List.forall_mem_cons.2 ⟨by dsimp only; apply lin_PreProcess_eiaudipthongs, ?_⟩
  refine List.forall_mem_cons.2 ⟨by dsimp only; apply lin_PreProcess_holamlong, ?_⟩
  refine List.forall_mem_cons.2 ⟨by dsimp only; apply lin_PreProcess_insertViramaSyriac, ?_⟩
  refine List.forall_mem_cons.2 ⟨by dsimp only; apply Lin.fail _, ?_⟩
  refine List.forall_mem_cons.2 ⟨by dsimp only; apply lin_PreProcess_joinVowelConsIAST, ?_⟩
  refine List.forall_mem_cons.2 ⟨by dsimp only; apply lin_PreProcess_joinVowelConsISO, ?_⟩
  refine List.forall_mem_cons.2 ⟨by dsimp only; apply lin_PreProcess_longEOISO, ?_⟩
  refine List.forall_mem_cons.2 ⟨by dsimp only; apply Lin.fail _, ?_⟩
  refine List.forall_mem_cons.2 ⟨by dsimp only; apply lin_PreProcess_novowelshebrewIndic, ?_⟩
  refine List.forall_mem_cons.2 ⟨by dsimp only; apply lin_PreProcess_novowelshebrewSemitic, ?_⟩
  refine List.forall_mem_cons.2 ⟨by dsimp only; apply lin_PreProcess_paliTham, ?_⟩
  refine List.forall_mem_cons.2 ⟨by dsimp only; apply lin_PreProcess_perisanizeArab, ?_⟩
  refine List.forall_mem_cons.2 ⟨by dsimp only; apply lin_PreProcess_removeChillus, ?_⟩
  refine List.forall_mem_cons.2 ⟨by dsimp only; apply lin_PreProcess_removeFinalSchwaArab, ?_⟩
  refine List.forall_mem_cons.2 ⟨by dsimp only; apply lin_PreProcess_removeZW, ?_⟩
  refine List.forall_mem_cons.2 ⟨by dsimp only; apply lin_PreProcess_retainLatin, ?_⟩
  refine List.forall_mem_cons.2 ⟨by dsimp only; apply lin_PreProcess_segmentBurmeseSyllables, ?_⟩
  refine List.forall_mem_cons.2 ⟨by dsimp only; apply lin_PreProcess_segmentShanSyllables, ?_⟩
  refine List.forall_mem_cons.2 ⟨by dsimp only; apply lin_PreProcess_segmentThamSyllabes, ?_⟩
  refine List.forall_mem_cons.2 ⟨by dsimp only; apply lin_PreProcess_semiticizeUrdu, ?_⟩
  refine List.forall_mem_cons.2 ⟨by dsimp only; apply lin_PreProcess_shvanakhall, ?_⟩
  refine List.forall_mem_cons.2 ⟨by dsimp only; apply lin_PreProcess_siddhamUnicode, ?_⟩
  refine List.forall_mem_cons.2 ⟨by dsimp only; apply lin_PreProcess_siddhammukta, ?_⟩
  refine List.forall_mem_cons.2 ⟨by dsimp only; apply lin_PreProcess_swapEe, ?_⟩
  refine List.forall_mem_cons.2 ⟨by dsimp only; apply lin_PreProcess_swapEeItrans, ?_⟩
  refine List.forall_mem_cons.2 ⟨by dsimp only; apply lin_PreProcess_wasvnukta, ?_⟩
  exact fun p hp => nomatch hp

theorem postFns_lin : ∀ p ∈ postFns, Lin p.2 := by
  unfold postFns
  refine List.forall_mem_cons.2 ⟨by dsimp only; apply lin_PostProcess_AhomClosed, ?_⟩
  refine List.forall_mem_cons.2 ⟨by dsimp only; apply lin_PostProcess_AlephMaterLectionis, ?_⟩
  refine List.forall_mem_cons.2 ⟨by dsimp only; apply lin_PostProcess_AmbigousTamilOrthography, ?_⟩
  refine List.forall_mem_cons.2 ⟨by dsimp only; apply lin_PostProcess_AnusvaraAsN, ?_⟩
  refine List.forall_mem_cons.2 ⟨by dsimp only; apply Lin.fail _, ?_⟩
  refine List.forall_mem_cons.2 ⟨by dsimp only; apply lin_PostProcess_AnusvaraToNasalIPA, ?_⟩
  refine List.forall_mem_cons.2 ⟨by dsimp only; apply lin_PostProcess_AnusvaratoNasalASTISO, ?_⟩
  refine List.forall_mem_cons.2 ⟨by dsimp only; apply lin_PostProcess_ArabAtoAleph, ?_⟩
  refine List.forall_mem_cons.2 ⟨by dsimp only; apply lin_PostProcess_ArabRemoveAdditions, ?_⟩
  refine List.forall_mem_cons.2 ⟨by dsimp only; apply lin_PostProcess_ArabicGimelGaGha, ?_⟩
  refine List.forall_mem_cons.2 ⟨by dsimp only; apply lin_PostProcess_ArabicGimelPaBa, ?_⟩
  refine List.forall_mem_cons.2 ⟨by dsimp only; apply lin_PostProcess_AvestanConventions, ?_⟩
  refine List.forall_mem_cons.2 ⟨by dsimp only; apply lin_PostProcess_BalineseArchaicJNA, ?_⟩
  refine List.forall_mem_cons.2 ⟨by dsimp only; apply lin_PostProcess_BalineseAvowels, ?_⟩
  refine List.forall_mem_cons.2 ⟨by dsimp only; apply Lin.fail _, ?_⟩
  refine List.forall_mem_cons.2 ⟨by dsimp only; apply lin_PostProcess_BalineseMoveRepha, ?_⟩
  refine List.forall_mem_cons.2 ⟨by dsimp only; apply lin_PostProcess_BalineseRomanLoCFix, ?_⟩
  refine List.forall_mem_cons.2 ⟨by dsimp only; apply lin_PostProcess_BalineseSimplified, ?_⟩
  refine List.forall_mem_cons.2 ⟨by dsimp only; apply lin_PostProcess_BengaliConjunctVB, ?_⟩
  refine List.forall_mem_cons.2 ⟨by dsimp only; apply lin_PostProcess_BengaliIntervocalicDDA, ?_⟩
  refine List.forall_mem_cons.2 ⟨by dsimp only; apply lin_PostProcess_BengaliOldRA, ?_⟩
  refine List.forall_mem_cons.2 ⟨by dsimp only; apply lin_PostProcess_BengaliRaBa, ?_⟩
  refine List.forall_mem_cons.2 ⟨by dsimp only; apply lin_PostProcess_BengaliSwitchYaYYa, ?_⟩
  refine List.forall_mem_cons.2 ⟨by dsimp only; apply lin_PostProcess_BengaliYYA, ?_⟩
  refine List.forall_mem_cons.2 ⟨by dsimp only; apply lin_PostProcess_BhaiksukiRetainSpace, ?_⟩
  refine List.forall_mem_cons.2 ⟨by dsimp only; apply lin_PostProcess_BurmeseRomanLoCSource, ?_⟩
  refine List.forall_mem_cons.2 ⟨by dsimp only; apply lin_PostProcess_BurmeseRomanLoCTarget, ?_⟩
  refine List.forall_mem_cons.2 ⟨by dsimp only; apply lin_PostProcess_ChakmaAVowels, ?_⟩
  refine List.forall_mem_cons.2 ⟨by dsimp only; apply lin_PostProcess_ChakmaEnableAllConjuncts, ?_⟩
  refine List.forall_mem_cons.2 ⟨by dsimp only; apply lin_PostProcess_ChakmaGemination, ?_⟩
  refine List.forall_mem_cons.2 ⟨by dsimp only; apply lin_PostProcess_ChakmaPali, ?_⟩
  refine List.forall_mem_cons.2 ⟨by dsimp only; apply lin_PostProcess_ChakmaVowelsIndependent, ?_⟩
  refine List.forall_mem_cons.2 ⟨by dsimp only; apply lin_PostProcess_ContextualLLa, ?_⟩
  refine List.forall_mem_cons.2 ⟨by dsimp only; apply lin_PostProcess_CyrillicPali, ?_⟩
  refine List.forall_mem_cons.2 ⟨by dsimp only; apply lin_PostProcess_DevanagariACandra, ?_⟩
  refine List.forall_mem_cons.2 ⟨by dsimp only; apply lin_PostProcess_DevanagariAVowels, ?_⟩
  refine List.forall_mem_cons.2 ⟨by dsimp only; apply lin_PostProcess_DevanagariAnusvara, ?_⟩
  refine List.forall_mem_cons.2 ⟨by dsimp only; apply lin_PostProcess_DevanagariPrishtamatra, ?_⟩
  refine List.forall_mem_cons.2 ⟨by dsimp only; apply lin_PostProcess_DevanagariRomanLoCFix, ?_⟩
  refine List.forall_mem_cons.2 ⟨by dsimp only; apply lin_PostProcess_DivesAkuruAlternateIndVowels, ?_⟩
  refine List.forall_mem_cons.2 ⟨by dsimp only; apply lin_PostProcess_DivesAkuruHomoOrganNasal, ?_⟩
  refine List.forall_mem_cons.2 ⟨by dsimp only; apply lin_PostProcess_DograShaKha, ?_⟩
  refine List.forall_mem_cons.2 ⟨by dsimp only; apply lin_PostProcess_Dot2Dandas, ?_⟩
  refine List.forall_mem_cons.2 ⟨by dsimp only; apply lin_PostProcess_Dot2Pipes, ?_⟩
  refine List.forall_mem_cons.2 ⟨by dsimp only; apply lin_PostProcess_FinalNNa, ?_⟩
  refine List.forall_mem_cons.2 ⟨by dsimp only; apply Lin.fail _, ?_⟩
  refine List.forall_mem_cons.2 ⟨by dsimp only; apply Lin.fail _, ?_⟩
  refine List.forall_mem_cons.2 ⟨by dsimp only; apply lin_PostProcess_GranthaOldau, ?_⟩
  refine List.forall_mem_cons.2 ⟨by dsimp only; apply lin_PostProcess_GranthaPrakrit, ?_⟩
  refine List.forall_mem_cons.2 ⟨by dsimp only; apply lin_PostProcess_GurmukhiCandrabindu, ?_⟩
  refine List.forall_mem_cons.2 ⟨by dsimp only; apply lin_PostProcess_GurmukhiRomanLoCFix, ?_⟩
  refine List.forall_mem_cons.2 ⟨by dsimp only; apply lin_PostProcess_GurmukhiTippiBindu, ?_⟩
  refine List.forall_mem_cons.2 ⟨by dsimp only; apply lin_PostProcess_GurmukhiTippiGemination, ?_⟩
  refine List.forall_mem_cons.2 ⟨by dsimp only; apply lin_PostProcess_GurmukhiYakaash, ?_⟩
  refine List.forall_mem_cons.2 ⟨by dsimp only; apply lin_PostProcess_HeberewQoph, ?_⟩
  refine List.forall_mem_cons.2 ⟨by dsimp only; apply lin_PostProcess_HebewShortO, ?_⟩
  refine List.forall_mem_cons.2 ⟨by dsimp only; apply lin_PostProcess_HebrewKatevMalei, ?_⟩
  refine List.forall_mem_cons.2 ⟨by dsimp only; apply lin_PostProcess_HebrewSBLSource, ?_⟩
  refine List.forall_mem_cons.2 ⟨by dsimp only; apply lin_PostProcess_HebrewSBLTarget, ?_⟩
  refine List.forall_mem_cons.2 ⟨by dsimp only; apply lin_PostProcess_HebrewVetVav, ?_⟩
  refine List.forall_mem_cons.2 ⟨by dsimp only; apply lin_PostProcess_HebrewnonFinalShort, ?_⟩
  refine List.forall_mem_cons.2 ⟨by dsimp only; apply lin_PostProcess_HindiMarathiRomanLoCFix, ?_⟩
  refine List.forall_mem_cons.2 ⟨by dsimp only; apply lin_PostProcess_HiraganaaunotDipthong, ?_⟩
  refine List.forall_mem_cons.2 ⟨by dsimp only; apply lin_PostProcess_IASTISONasalTilde, ?_⟩
  refine List.forall_mem_cons.2 ⟨by dsimp only; apply lin_PostProcess_IASTPali, ?_⟩
  refine List.forall_mem_cons.2 ⟨by dsimp only; apply lin_PostProcess_IPARemoveCross, ?_⟩
  refine List.forall_mem_cons.2 ⟨by dsimp only; apply lin_PostProcess_ISO233Source, ?_⟩
  refine List.forall_mem_cons.2 ⟨by dsimp only; apply lin_PostProcess_ISO233Target, ?_⟩
  refine List.forall_mem_cons.2 ⟨by dsimp only; apply lin_PostProcess_ISO259Source, ?_⟩
  refine List.forall_mem_cons.2 ⟨by dsimp only; apply lin_PostProcess_ISO259Target, ?_⟩
  refine List.forall_mem_cons.2 ⟨by dsimp only; apply Lin.fail _, ?_⟩
  refine List.forall_mem_cons.2 ⟨by dsimp only; apply Lin.fail _, ?_⟩
  refine List.forall_mem_cons.2 ⟨by dsimp only; apply lin_PostProcess_JavaneseArchaicJNA, ?_⟩
  refine List.forall_mem_cons.2 ⟨by dsimp only; apply lin_PostProcess_JavaneseAvowels, ?_⟩
  refine List.forall_mem_cons.2 ⟨by dsimp only; apply lin_PostProcess_JavaneseMoveRepha, ?_⟩
  refine List.forall_mem_cons.2 ⟨by dsimp only; apply lin_PostProcess_JavaneseRomanLoCFix, ?_⟩
  refine List.forall_mem_cons.2 ⟨by dsimp only; apply lin_PostProcess_JavaneseSimplified, ?_⟩
  refine List.forall_mem_cons.2 ⟨by dsimp only; apply lin_PostProcess_KaithiRetainSpace, ?_⟩
  refine List.forall_mem_cons.2 ⟨by dsimp only; apply lin_PostProcess_KannadaNakaraPollu, ?_⟩
  refine List.forall_mem_cons.2 ⟨by dsimp only; apply lin_PostProcess_KannadaNotRepha, ?_⟩
  refine List.forall_mem_cons.2 ⟨by dsimp only; apply lin_PostProcess_KannadaSpacingCandrabindu, ?_⟩
  refine List.forall_mem_cons.2 ⟨by dsimp only; apply lin_PostProcess_KawiAltAiAU, ?_⟩
  refine List.forall_mem_cons.2 ⟨by dsimp only; apply lin_PostProcess_KawiArchaicJNA, ?_⟩
  refine List.forall_mem_cons.2 ⟨by dsimp only; apply lin_PostProcess_KawiDecomposedVowel, ?_⟩
  refine List.forall_mem_cons.2 ⟨by dsimp only; apply lin_PostProcess_KawiMoveRepha, ?_⟩
  refine List.forall_mem_cons.2 ⟨by dsimp only; apply lin_PostProcess_KhamiShanMyanmarNumerals, ?_⟩
  refine List.forall_mem_cons.2 ⟨by dsimp only; apply lin_PostProcess_KhamtiShanRa, ?_⟩
  refine List.forall_mem_cons.2 ⟨by dsimp only; apply Lin.fail _, ?_⟩
  refine List.forall_mem_cons.2 ⟨by dsimp only; apply lin_PostProcess_KhandaTaRomanLoC, ?_⟩
  refine List.forall_mem_cons.2 ⟨by dsimp only; apply lin_PostProcess_KhmerLoCRomanLoCSource, ?_⟩
  refine List.forall_mem_cons.2 ⟨by dsimp only; apply lin_PostProcess_KhmerLoCRomanLoCTarget, ?_⟩
  refine List.forall_mem_cons.2 ⟨by dsimp only; apply lin_PostProcess_KhojkiQa, ?_⟩
  refine List.forall_mem_cons.2 ⟨by dsimp only; apply lin_PostProcess_KhojkiRRI, ?_⟩
  refine List.forall_mem_cons.2 ⟨by dsimp only; apply lin_PostProcess_KhojkiRetainSpace, ?_⟩
  refine List.forall_mem_cons.2 ⟨by dsimp only; apply lin_PostProcess_LaoNative, ?_⟩
  refine List.forall_mem_cons.2 ⟨by dsimp only; apply lin_PostProcess_LaoPhonetic, ?_⟩
  refine List.forall_mem_cons.2 ⟨by dsimp only; apply lin_PostProcess_LaoSajjhaya, ?_⟩
  refine List.forall_mem_cons.2 ⟨by dsimp only; apply lin_PostProcess_LaoSajjhayawithA, ?_⟩
  refine List.forall_mem_cons.2 ⟨by dsimp only; apply lin_PostProcess_LaoTranscription, ?_⟩
  refine List.forall_mem_cons.2 ⟨by dsimp only; apply lin_PostProcess_LatinPipes, ?_⟩
  refine List.forall_mem_cons.2 ⟨by dsimp only; apply lin_PostProcess_LatnInitialVowels, ?_⟩
  refine List.forall_mem_cons.2 ⟨by dsimp only; apply lin_PostProcess_LimbuDevanagariConvention, ?_⟩
  refine List.forall_mem_cons.2 ⟨by dsimp only; apply lin_PostProcess_LimbuSpellingSaI, ?_⟩
  refine List.forall_mem_cons.2 ⟨by dsimp only; apply lin_PostProcess_LimburemoveHistorical, ?_⟩
  refine List.forall_mem_cons.2 ⟨by dsimp only; apply lin_PostProcess_LoCMarc8, ?_⟩
  refine List.forall_mem_cons.2 ⟨by dsimp only; apply Lin.fail _, ?_⟩
  refine List.forall_mem_cons.2 ⟨by dsimp only; apply lin_PostProcess_MalayalamAnusvaraNasal, ?_⟩
  refine List.forall_mem_cons.2 ⟨by dsimp only; apply lin_PostProcess_MalayalamChillu, ?_⟩
  refine List.forall_mem_cons.2 ⟨by dsimp only; apply lin_PostProcess_MalayalamCircVirama, ?_⟩
  refine List.forall_mem_cons.2 ⟨by dsimp only; apply lin_PostProcess_MalayalamLineVirama, ?_⟩
  refine List.forall_mem_cons.2 ⟨by dsimp only; apply lin_PostProcess_MalayalamNTA, ?_⟩
  refine List.forall_mem_cons.2 ⟨by dsimp only; apply lin_PostProcess_MalayalamPrakrit, ?_⟩
  refine List.forall_mem_cons.2 ⟨by dsimp only; apply lin_PostProcess_MalayalamRomanLoCFix, ?_⟩
  refine List.forall_mem_cons.2 ⟨by dsimp only; apply lin_PostProcess_MalayalamTTNTA, ?_⟩
  refine List.forall_mem_cons.2 ⟨by dsimp only; apply lin_PostProcess_MalayalamremoveHistorical, ?_⟩
  refine List.forall_mem_cons.2 ⟨by dsimp only; apply lin_PostProcess_MarchenSanskritPalatals, ?_⟩
  refine List.forall_mem_cons.2 ⟨by dsimp only; apply lin_PostProcess_MedievalTamilOrthography, ?_⟩
  refine List.forall_mem_cons.2 ⟨by dsimp only; apply lin_PostProcess_MeeteiMayekremoveHistorical, ?_⟩
  refine List.forall_mem_cons.2 ⟨by dsimp only; apply lin_PostProcess_ModiRemoveLong, ?_⟩
  refine List.forall_mem_cons.2 ⟨by dsimp only; apply lin_PostProcess_MongolianSyllabize, ?_⟩
  refine List.forall_mem_cons.2 ⟨by dsimp only; apply lin_PostProcess_MultaniAbjad, ?_⟩
  refine List.forall_mem_cons.2 ⟨by dsimp only; apply lin_PostProcess_NandinagariPrishtamatra, ?_⟩
  refine List.forall_mem_cons.2 ⟨by dsimp only; apply lin_PostProcess_NasalTilde, ?_⟩
  refine List.forall_mem_cons.2 ⟨by dsimp only; apply Lin.fail _, ?_⟩
  refine List.forall_mem_cons.2 ⟨by dsimp only; apply lin_PostProcess_NewaDisableRepha, ?_⟩
  refine List.forall_mem_cons.2 ⟨by dsimp only; apply lin_PostProcess_NewaMurmurConsonants, ?_⟩
  refine List.forall_mem_cons.2 ⟨by dsimp only; apply lin_PostProcess_NewaSpecialTa, ?_⟩
  refine List.forall_mem_cons.2 ⟨by dsimp only; apply lin_PostProcess_OriyaVa, ?_⟩
  refine List.forall_mem_cons.2 ⟨by dsimp only; apply lin_PostProcess_OriyaVaAlt, ?_⟩
  refine List.forall_mem_cons.2 ⟨by dsimp only; apply lin_PostProcess_OriyaYYA, ?_⟩
  refine List.forall_mem_cons.2 ⟨by dsimp only; apply lin_PostProcess_PersianDMGSBLSource, ?_⟩
  refine List.forall_mem_cons.2 ⟨by dsimp only; apply lin_PostProcess_PersianDMGTarget, ?_⟩
  refine List.forall_mem_cons.2 ⟨by dsimp only; apply Lin.fail _, ?_⟩
  refine List.forall_mem_cons.2 ⟨by dsimp only; apply lin_PostProcess_PhagsPaSeal, ?_⟩
  refine List.forall_mem_cons.2 ⟨by dsimp only; apply lin_PostProcess_PhagsPaTib, ?_⟩
  refine List.forall_mem_cons.2 ⟨by dsimp only; apply lin_PostProcess_PhoneticMapping, ?_⟩
  refine List.forall_mem_cons.2 ⟨by dsimp only; apply lin_PostProcess_RemoveDiacritics, ?_⟩
  refine List.forall_mem_cons.2 ⟨by dsimp only; apply lin_PostProcess_RemoveDiacriticsTamil, ?_⟩
  refine List.forall_mem_cons.2 ⟨by dsimp only; apply Lin.fail _, ?_⟩
  refine List.forall_mem_cons.2 ⟨by dsimp only; apply lin_PostProcess_RephaDoubleMalayalam, ?_⟩
  refine List.forall_mem_cons.2 ⟨by dsimp only; apply Lin.fail _, ?_⟩
  refine List.forall_mem_cons.2 ⟨by dsimp only; apply lin_PostProcess_RetainGujaratiDanda, ?_⟩
  refine List.forall_mem_cons.2 ⟨by dsimp only; apply lin_PostProcess_RetainGurmukhiNumerals, ?_⟩
  refine List.forall_mem_cons.2 ⟨by dsimp only; apply Lin.fail _, ?_⟩
  refine List.forall_mem_cons.2 ⟨by dsimp only; apply lin_PostProcess_RetainKannadaDanda, ?_⟩
  refine List.forall_mem_cons.2 ⟨by dsimp only; apply lin_PostProcess_RetainKannadaNumerals, ?_⟩
  refine List.forall_mem_cons.2 ⟨by dsimp only; apply lin_PostProcess_RetainMalayalamDanda, ?_⟩
  refine List.forall_mem_cons.2 ⟨by dsimp only; apply lin_PostProcess_RetainMalayalamNumerals, ?_⟩
  refine List.forall_mem_cons.2 ⟨by dsimp only; apply Lin.fail _, ?_⟩
  refine List.forall_mem_cons.2 ⟨by dsimp only; apply lin_PostProcess_RetainTamilDanda, ?_⟩
  refine List.forall_mem_cons.2 ⟨by dsimp only; apply lin_PostProcess_RetainTamilNumerals, ?_⟩
  refine List.forall_mem_cons.2 ⟨by dsimp only; apply lin_PostProcess_RetainTeluguDanda, ?_⟩
  refine List.forall_mem_cons.2 ⟨by dsimp only; apply lin_PostProcess_RetainTeluguNumerals, ?_⟩
  refine List.forall_mem_cons.2 ⟨by dsimp only; apply Lin.fail _, ?_⟩
  refine List.forall_mem_cons.2 ⟨by dsimp only; apply lin_PostProcess_RomanLoCChandrabindu, ?_⟩
  refine List.forall_mem_cons.2 ⟨by dsimp only; apply lin_PostProcess_RomanLoCLaUnderscoreDoubleDot, ?_⟩
  refine List.forall_mem_cons.2 ⟨by dsimp only; apply lin_PostProcess_RomanLoCSLaDotLaUnderscore, ?_⟩
  refine List.forall_mem_cons.2 ⟨by dsimp only; apply lin_PostProcess_RomanLoCSasha, ?_⟩
  refine List.forall_mem_cons.2 ⟨by dsimp only; apply lin_PostProcess_RomanLoCVaWa, ?_⟩
  refine List.forall_mem_cons.2 ⟨by dsimp only; apply lin_PostProcess_RomanReadableLongEO, ?_⟩
  refine List.forall_mem_cons.2 ⟨by dsimp only; apply lin_PostProcess_SaurashtraHaru, ?_⟩
  refine List.forall_mem_cons.2 ⟨by dsimp only; apply lin_PostProcess_SaurastraHaaruColon, ?_⟩
  refine List.forall_mem_cons.2 ⟨by dsimp only; apply lin_PostProcess_ShanLoCRomanLoCSource, ?_⟩
  refine List.forall_mem_cons.2 ⟨by dsimp only; apply lin_PostProcess_ShanLoCRomanLoCTarget, ?_⟩
  refine List.forall_mem_cons.2 ⟨by dsimp only; apply lin_PostProcess_ShowSchwaHindi, ?_⟩
  refine List.forall_mem_cons.2 ⟨by dsimp only; apply lin_PostProcess_SinhalaChandrbinduAnusvara, ?_⟩
  refine List.forall_mem_cons.2 ⟨by dsimp only; apply lin_PostProcess_SinhalaConjuncts, ?_⟩
  refine List.forall_mem_cons.2 ⟨by dsimp only; apply lin_PostProcess_SinhalaDefaultConjuncts, ?_⟩
  refine List.forall_mem_cons.2 ⟨by dsimp only; apply lin_PostProcess_SinhalaPali, ?_⟩
  refine List.forall_mem_cons.2 ⟨by dsimp only; apply lin_PostProcess_SinhalaSannakaNasalization, ?_⟩
  refine List.forall_mem_cons.2 ⟨by dsimp only; apply lin_PostProcess_SogdReshAyin, ?_⟩
  refine List.forall_mem_cons.2 ⟨by dsimp only; apply lin_PostProcess_SogoReshAyinDaleth, ?_⟩
  refine List.forall_mem_cons.2 ⟨by dsimp only; apply lin_PostProcess_SoyomboFinals, ?_⟩
  refine List.forall_mem_cons.2 ⟨by dsimp only; apply lin_PostProcess_SoyomboInitials, ?_⟩
  refine List.forall_mem_cons.2 ⟨by dsimp only; apply lin_PostProcess_SoyomboSanskritPalatals, ?_⟩
  refine List.forall_mem_cons.2 ⟨by dsimp only; apply lin_PostProcess_SoyomboSpaceTscheg, ?_⟩
  refine List.forall_mem_cons.2 ⟨by dsimp only; apply lin_PostProcess_SoyomboSyllabize, ?_⟩
  refine List.forall_mem_cons.2 ⟨by dsimp only; apply lin_PostProcess_SundaneseHistoricConjuncts, ?_⟩
  refine List.forall_mem_cons.2 ⟨by dsimp only; apply lin_PostProcess_SundaneseRemoveHistoric, ?_⟩
  refine List.forall_mem_cons.2 ⟨by dsimp only; apply lin_PostProcess_TaiKuen, ?_⟩
  refine List.forall_mem_cons.2 ⟨by dsimp only; apply lin_PostProcess_TaiThamHighNga, ?_⟩
  refine List.forall_mem_cons.2 ⟨by dsimp only; apply lin_PostProcess_TaiThamLao, ?_⟩
  refine List.forall_mem_cons.2 ⟨by dsimp only; apply lin_PostProcess_TaiThamMoveNnga, ?_⟩
  refine List.forall_mem_cons.2 ⟨by dsimp only; apply lin_PostProcess_TaiThamO, ?_⟩
  refine List.forall_mem_cons.2 ⟨by dsimp only; apply lin_PostProcess_TakriArchaicKha, ?_⟩
  refine List.forall_mem_cons.2 ⟨by dsimp only; apply lin_PostProcess_TakriRemoveGemination, ?_⟩
  refine List.forall_mem_cons.2 ⟨by dsimp only; apply lin_PostProcess_TamilAddFirstVarga, ?_⟩
  refine List.forall_mem_cons.2 ⟨by dsimp only; apply lin_PostProcess_TamilDisableSHA, ?_⟩
  refine List.forall_mem_cons.2 ⟨by dsimp only; apply lin_PostProcess_TamilExtendedAnusvara, ?_⟩
  refine List.forall_mem_cons.2 ⟨by dsimp only; apply lin_PostProcess_TamilExtendedNNA, ?_⟩
  refine List.forall_mem_cons.2 ⟨by dsimp only; apply lin_PostProcess_TamilGranthaVisarga, ?_⟩
  refine List.forall_mem_cons.2 ⟨by dsimp only; apply lin_PostProcess_TamilNaToNNa, ?_⟩
  refine List.forall_mem_cons.2 ⟨by dsimp only; apply lin_PostProcess_TamilOmDisable, ?_⟩
  refine List.forall_mem_cons.2 ⟨by dsimp only; apply lin_PostProcess_TamilRemoveApostrophe, ?_⟩
  refine List.forall_mem_cons.2 ⟨by dsimp only; apply lin_PostProcess_TamilRemoveNumbers, ?_⟩
  refine List.forall_mem_cons.2 ⟨by dsimp only; apply lin_PostProcess_TamilSHADisable, ?_⟩
  refine List.forall_mem_cons.2 ⟨by dsimp only; apply lin_PostProcess_TamilStyleUUCore, ?_⟩
  refine List.forall_mem_cons.2 ⟨by dsimp only; apply lin_PostProcess_TamilStyleUUOther, ?_⟩
  refine List.forall_mem_cons.2 ⟨by dsimp only; apply lin_PostProcess_TamilSubScript, ?_⟩
  refine List.forall_mem_cons.2 ⟨by dsimp only; apply lin_PostProcess_TamilpredictDentaNa, ?_⟩
  refine List.forall_mem_cons.2 ⟨by dsimp only; apply lin_PostProcess_TamilpredictDentaNaExtended, ?_⟩
  refine List.forall_mem_cons.2 ⟨by dsimp only; apply lin_PostProcess_TeluguArasunnaChandrabindu, ?_⟩
  refine List.forall_mem_cons.2 ⟨by dsimp only; apply lin_PostProcess_TeluguNakaraPollu, ?_⟩
  refine List.forall_mem_cons.2 ⟨by dsimp only; apply lin_PostProcess_TeluguRemoveAeAo, ?_⟩
  refine List.forall_mem_cons.2 ⟨by dsimp only; apply lin_PostProcess_TeluguRemoveNukta, ?_⟩
  refine List.forall_mem_cons.2 ⟨by dsimp only; apply lin_PostProcess_TeluguReph, ?_⟩
  refine List.forall_mem_cons.2 ⟨by dsimp only; apply lin_PostProcess_TeluguTamilRra, ?_⟩
  refine List.forall_mem_cons.2 ⟨by dsimp only; apply lin_PostProcess_TeluguTamilZha, ?_⟩
  refine List.forall_mem_cons.2 ⟨by dsimp only; apply lin_PostProcess_ThaanaRemoveHistorical, ?_⟩
  refine List.forall_mem_cons.2 ⟨by dsimp only; apply Lin.fail _, ?_⟩
  refine List.forall_mem_cons.2 ⟨by dsimp only; apply lin_PostProcess_ThaiNativeConsonants, ?_⟩
  refine List.forall_mem_cons.2 ⟨by dsimp only; apply lin_PostProcess_ThaiSajjhayaOrthography, ?_⟩
  refine List.forall_mem_cons.2 ⟨by dsimp only; apply lin_PostProcess_ThaiSajjhayawithA, ?_⟩
  refine List.forall_mem_cons.2 ⟨by dsimp only; apply lin_PostProcess_ThaiTranscription, ?_⟩
  refine List.forall_mem_cons.2 ⟨by dsimp only; apply lin_PostProcess_ThaiVisargaSaraA, ?_⟩
  refine List.forall_mem_cons.2 ⟨by dsimp only; apply lin_PostProcess_ThamLoCRomanLoCSource, ?_⟩
  refine List.forall_mem_cons.2 ⟨by dsimp only; apply lin_PostProcess_ThamLoCRomanLoCTarget, ?_⟩
  refine List.forall_mem_cons.2 ⟨by dsimp only; apply lin_PostProcess_ThamShiftMaiKangLai, ?_⟩
  refine List.forall_mem_cons.2 ⟨by dsimp only; apply lin_PostProcess_ThamTallADisable, ?_⟩
  refine List.forall_mem_cons.2 ⟨by dsimp only; apply lin_PostProcess_ThamTallAOthers, ?_⟩
  refine List.forall_mem_cons.2 ⟨by dsimp only; apply lin_PostProcess_TibetanLoCRomanLoCFix, ?_⟩
  refine List.forall_mem_cons.2 ⟨by dsimp only; apply lin_PostProcess_TibetanNada, ?_⟩
  refine List.forall_mem_cons.2 ⟨by dsimp only; apply lin_PostProcess_TibetanRemoveBa, ?_⟩
  refine List.forall_mem_cons.2 ⟨by dsimp only; apply lin_PostProcess_TibetanRemoveVirama, ?_⟩
  refine List.forall_mem_cons.2 ⟨by dsimp only; apply lin_PostProcess_TibetanSanskritPalatals, ?_⟩
  refine List.forall_mem_cons.2 ⟨by dsimp only; apply lin_PostProcess_TibetanSyllabize, ?_⟩
  refine List.forall_mem_cons.2 ⟨by dsimp only; apply lin_PostProcess_TibetanTsheg, ?_⟩
  refine List.forall_mem_cons.2 ⟨by dsimp only; apply lin_PostProcess_UrduAlternateUU, ?_⟩
  refine List.forall_mem_cons.2 ⟨by dsimp only; apply lin_PostProcess_UrduRemoveShortVowels, ?_⟩
  refine List.forall_mem_cons.2 ⟨by dsimp only; apply lin_PostProcess_UseAlternateI1, ?_⟩
  refine List.forall_mem_cons.2 ⟨by dsimp only; apply lin_PostProcess_UseAlternateI2, ?_⟩
  refine List.forall_mem_cons.2 ⟨by dsimp only; apply lin_PostProcess_UseAlternateII, ?_⟩
  refine List.forall_mem_cons.2 ⟨by dsimp only; apply lin_PostProcess_UseAlternateU, ?_⟩
  refine List.forall_mem_cons.2 ⟨by dsimp only; apply lin_PostProcess_UseAlternateVSU, ?_⟩
  refine List.forall_mem_cons.2 ⟨by dsimp only; apply lin_PostProcess_UseAlternateVSUU, ?_⟩
  refine List.forall_mem_cons.2 ⟨by dsimp only; apply lin_PostProcess_UseAlternateYA, ?_⟩
  refine List.forall_mem_cons.2 ⟨by dsimp only; apply lin_PostProcess_UseAlternateo1, ?_⟩
  refine List.forall_mem_cons.2 ⟨by dsimp only; apply lin_PostProcess_UseAlternateo2, ?_⟩
  refine List.forall_mem_cons.2 ⟨by dsimp only; apply Lin.fail _, ?_⟩
  refine List.forall_mem_cons.2 ⟨by dsimp only; apply lin_PostProcess_WarangCitiModernOrthogaphy, ?_⟩
  refine List.forall_mem_cons.2 ⟨by dsimp only; apply Lin.fail _, ?_⟩
  refine List.forall_mem_cons.2 ⟨by dsimp only; apply Lin.fail _, ?_⟩
  refine List.forall_mem_cons.2 ⟨by dsimp only; apply lin_PostProcess_ZanabazarSanskritPalatals, ?_⟩
  refine List.forall_mem_cons.2 ⟨by dsimp only; apply lin_PostProcess_ZanabazarSquareAiAu, ?_⟩
  refine List.forall_mem_cons.2 ⟨by dsimp only; apply lin_PostProcess_ZanabazarSquareContextual, ?_⟩
  refine List.forall_mem_cons.2 ⟨by dsimp only; apply lin_PostProcess_ZanabazarSquareMongolianFinal, ?_⟩
  refine List.forall_mem_cons.2 ⟨by dsimp only; apply lin_PostProcess_ZanzabarSpaceTsheg, ?_⟩
  refine List.forall_mem_cons.2 ⟨by dsimp only; apply lin_PostProcess_alephAyinLatnAlternate, ?_⟩
  refine List.forall_mem_cons.2 ⟨by dsimp only; apply lin_PostProcess_alephAyinLatnAlternate2, ?_⟩
  refine List.forall_mem_cons.2 ⟨by dsimp only; apply lin_PostProcess_arabChaSa, ?_⟩
  refine List.forall_mem_cons.2 ⟨by dsimp only; apply lin_PostProcess_arabPaFa, ?_⟩
  refine List.forall_mem_cons.2 ⟨by dsimp only; apply lin_PostProcess_arabicRemoveAdditionsPhonetic, ?_⟩
  refine List.forall_mem_cons.2 ⟨by dsimp only; apply lin_PostProcess_arabizeLatn, ?_⟩
  refine List.forall_mem_cons.2 ⟨by dsimp only; apply lin_PostProcess_archaicAIAU, ?_⟩
  refine List.forall_mem_cons.2 ⟨by dsimp only; apply lin_PostProcess_capitalizeSentence, ?_⟩
  refine List.forall_mem_cons.2 ⟨by dsimp only; apply lin_PostProcess_default, ?_⟩
  refine List.forall_mem_cons.2 ⟨by dsimp only; apply Lin.fail _, ?_⟩
  refine List.forall_mem_cons.2 ⟨by dsimp only; apply lin_PostProcess_devanagaribalbodh, ?_⟩
  refine List.forall_mem_cons.2 ⟨by dsimp only; apply lin_PostProcess_devanagarijain, ?_⟩
  refine List.forall_mem_cons.2 ⟨by dsimp only; apply lin_PostProcess_devanagarinepali, ?_⟩
  refine List.forall_mem_cons.2 ⟨by dsimp only; apply lin_PostProcess_devanagariuttara, ?_⟩
  refine List.forall_mem_cons.2 ⟨by dsimp only; apply lin_PostProcess_dotReph, ?_⟩
  refine List.forall_mem_cons.2 ⟨by dsimp only; apply lin_PostProcess_easternsyriac, ?_⟩
  refine List.forall_mem_cons.2 ⟨by dsimp only; apply lin_PostProcess_egrantamil, ?_⟩
  refine List.forall_mem_cons.2 ⟨by dsimp only; apply lin_PostProcess_estrangelasyriac, ?_⟩
  refine List.forall_mem_cons.2 ⟨by dsimp only; apply lin_PostProcess_gainGimel, ?_⟩
  refine List.forall_mem_cons.2 ⟨by dsimp only; apply lin_PostProcess_granthafinal, ?_⟩
  refine List.forall_mem_cons.2 ⟨by dsimp only; apply lin_PostProcess_granthaserif, ?_⟩
  refine List.forall_mem_cons.2 ⟨by dsimp only; apply lin_PostProcess_hebraizeLatn, ?_⟩
  refine List.forall_mem_cons.2 ⟨by dsimp only; apply lin_PostProcess_historicChillu, ?_⟩
  refine List.forall_mem_cons.2 ⟨by dsimp only; apply lin_PostProcess_indicDandas, ?_⟩
  refine List.forall_mem_cons.2 ⟨by dsimp only; apply lin_PostProcess_indicNumerals, ?_⟩
  refine List.forall_mem_cons.2 ⟨by dsimp only; apply lin_PostProcess_inherentAO, ?_⟩
  refine List.forall_mem_cons.2 ⟨by dsimp only; apply lin_PostProcess_insertARomanSemitic, ?_⟩
  refine List.forall_mem_cons.2 ⟨by dsimp only; apply lin_PostProcess_jainomDevangari, ?_⟩
  refine List.forall_mem_cons.2 ⟨by dsimp only; apply lin_PostProcess_kawitan, ?_⟩
  refine List.forall_mem_cons.2 ⟨by dsimp only; apply lin_PostProcess_khandatabatova, ?_⟩
  refine List.forall_mem_cons.2 ⟨by dsimp only; apply lin_PostProcess_mDotAboveToBelow, ?_⟩
  refine List.forall_mem_cons.2 ⟨by dsimp only; apply lin_PostProcess_mDotBelowToAbove, ?_⟩
  refine List.forall_mem_cons.2 ⟨by dsimp only; apply lin_PostProcess_nepaldevafont, ?_⟩
  refine List.forall_mem_cons.2 ⟨by dsimp only; apply lin_PostProcess_noLongEO, ?_⟩
  refine List.forall_mem_cons.2 ⟨by dsimp only; apply lin_PostProcess_olddogra, ?_⟩
  refine List.forall_mem_cons.2 ⟨by dsimp only; apply lin_PostProcess_oldtamilortho, ?_⟩
  refine List.forall_mem_cons.2 ⟨by dsimp only; apply lin_PostProcess_persianPaGaFaJa, ?_⟩
  refine List.forall_mem_cons.2 ⟨by dsimp only; apply lin_PostProcess_ranjanalantsa, ?_⟩
  refine List.forall_mem_cons.2 ⟨by dsimp only; apply lin_PostProcess_ranjanawartu, ?_⟩
  refine List.forall_mem_cons.2 ⟨by dsimp only; apply lin_PostProcess_readableItrans, ?_⟩
  refine List.forall_mem_cons.2 ⟨by dsimp only; apply lin_PostProcess_removeDiacritics, ?_⟩
  refine List.forall_mem_cons.2 ⟨by dsimp only; apply lin_PostProcess_removeDiacriticsArabic, ?_⟩
  refine List.forall_mem_cons.2 ⟨by dsimp only; apply lin_PostProcess_removeDiacriticsPersian, ?_⟩
  refine List.forall_mem_cons.2 ⟨by dsimp only; apply lin_PostProcess_removeDiacriticsSyriac, ?_⟩
  refine List.forall_mem_cons.2 ⟨by dsimp only; apply lin_PostProcess_removeMajliyana, ?_⟩
  refine List.forall_mem_cons.2 ⟨by dsimp only; apply lin_PostProcess_removeNikkud, ?_⟩
  refine List.forall_mem_cons.2 ⟨by dsimp only; apply lin_PostProcess_removePaliAhom, ?_⟩
  refine List.forall_mem_cons.2 ⟨by dsimp only; apply lin_PostProcess_removeQussaya, ?_⟩
  refine List.forall_mem_cons.2 ⟨by dsimp only; apply lin_PostProcess_removeRukkaka, ?_⟩
  refine List.forall_mem_cons.2 ⟨by dsimp only; apply lin_PostProcess_removeSegmentSpacesBurmese, ?_⟩
  refine List.forall_mem_cons.2 ⟨by dsimp only; apply lin_PostProcess_removeSemiticLetters, ?_⟩
  refine List.forall_mem_cons.2 ⟨by dsimp only; apply lin_PostProcess_removeSukunEnd, ?_⟩
  refine List.forall_mem_cons.2 ⟨by dsimp only; apply lin_PostProcess_removeVowelsSyriac, ?_⟩
  refine List.forall_mem_cons.2 ⟨by dsimp only; apply lin_PostProcess_removetddash, ?_⟩
  refine List.forall_mem_cons.2 ⟨by dsimp only; apply lin_PostProcess_romanFullStop, ?_⟩
  refine List.forall_mem_cons.2 ⟨by dsimp only; apply lin_PostProcess_romanNumerals, ?_⟩
  refine List.forall_mem_cons.2 ⟨by dsimp only; apply lin_PostProcess_siddhamBija, ?_⟩
  refine List.forall_mem_cons.2 ⟨by dsimp only; apply lin_PostProcess_siddhamap, ?_⟩
  refine List.forall_mem_cons.2 ⟨by dsimp only; apply lin_PostProcess_siddhammukta, ?_⟩
  refine List.forall_mem_cons.2 ⟨by dsimp only; apply lin_PostProcess_sundapura, ?_⟩
  refine List.forall_mem_cons.2 ⟨by dsimp only; apply lin_PostProcess_swapEe, ?_⟩
  refine List.forall_mem_cons.2 ⟨by dsimp only; apply lin_PostProcess_swapEeItrans, ?_⟩
  refine List.forall_mem_cons.2 ⟨by dsimp only; apply lin_PostProcess_syriacRoman, ?_⟩
  refine List.forall_mem_cons.2 ⟨by dsimp only; apply lin_PostProcess_syriacVowelsBelow, ?_⟩
  refine List.forall_mem_cons.2 ⟨by dsimp only; apply lin_PostProcess_syriacWesternOToU, ?_⟩
  refine List.forall_mem_cons.2 ⟨by dsimp only; apply lin_PostProcess_syricizeLatn, ?_⟩
  refine List.forall_mem_cons.2 ⟨by dsimp only; apply lin_PostProcess_tavThreedot, ?_⟩
  refine List.forall_mem_cons.2 ⟨by dsimp only; apply lin_PostProcess_tavTwodot, ?_⟩
  refine List.forall_mem_cons.2 ⟨by dsimp only; apply Lin.fail _, ?_⟩
  refine List.forall_mem_cons.2 ⟨by dsimp only; apply lin_PostProcess_tibetandbumed, ?_⟩
  refine List.forall_mem_cons.2 ⟨by dsimp only; apply lin_PostProcess_tokushuon, ?_⟩
  refine List.forall_mem_cons.2 ⟨by dsimp only; apply lin_PostProcess_tradOrtho, ?_⟩
  refine List.forall_mem_cons.2 ⟨by dsimp only; apply lin_PostProcess_urduRemoveInherent, ?_⟩
  refine List.forall_mem_cons.2 ⟨by dsimp only; apply lin_PostProcess_urduizeLatn, ?_⟩
  refine List.forall_mem_cons.2 ⟨by dsimp only; apply lin_PostProcess_useKtivMale, ?_⟩
  refine List.forall_mem_cons.2 ⟨by dsimp only; apply lin_PostProcess_verticalKana, ?_⟩
  refine List.forall_mem_cons.2 ⟨by dsimp only; apply lin_PostProcess_verticalSiddham, ?_⟩
  refine List.forall_mem_cons.2 ⟨by dsimp only; apply lin_PostProcess_vtobJapanese, ?_⟩
  refine List.forall_mem_cons.2 ⟨by dsimp only; apply lin_PostProcess_westernsyriac, ?_⟩
  exact fun p hp => nomatch hp

end Verif
