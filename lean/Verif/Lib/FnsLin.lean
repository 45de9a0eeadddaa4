import Verif.Lib.Linear
import Verif.Model.Dispatch

/-!
# The text functions of the output and input fixes are linear

Generated by tools/genlin.py.
-/

namespace Verif

set_option maxHeartbeats 4000000

theorem lin_ConvertFix_SinhalaIPAFix : Lin ConvertFix.SinhalaIPAFix := by
  unfold ConvertFix.SinhalaIPAFix
  lin

theorem lin_ConvertFix_VedicSvarsIndicLatin : Lin ConvertFix.VedicSvarsIndicLatin := by
  unfold ConvertFix.VedicSvarsIndicLatin
  lin

theorem lin_ConvertFix_VedicSvarasOthers (Target : PyStr) : Lin (ConvertFix.VedicSvarasOthers Target) := by
  unfold ConvertFix.VedicSvarasOthers
  lin

theorem lin_ConvertFix_VedicSvarasDiacrtics (Target : PyStr) : Lin (ConvertFix.VedicSvarasDiacrtics Target) := by
  unfold ConvertFix.VedicSvarasDiacrtics
  lin

theorem lin_ConvertFix_VedicSvarasCyrillic (Target : PyStr) : Lin (ConvertFix.VedicSvarasCyrillic Target) := by
  unfold ConvertFix.VedicSvarasCyrillic
  lin

theorem lin_ConvertFix_FixRomanOutput (Target : PyStr) : Lin (ConvertFix.FixRomanOutput Target) := by
  unfold ConvertFix.FixRomanOutput
  lin

theorem lin_ConvertFix_FixVedic (Target : PyStr) : Lin (ConvertFix.FixVedic Target) := by
  unfold ConvertFix.FixVedic
  lin
  all_goals with_reducible first | apply lin_ConvertFix_VedicSvarasDiacrtics | apply lin_ConvertFix_VedicSvarasCyrillic | apply lin_ConvertFix_VedicSvarasOthers

theorem lin_ConvertFix_FixAvestan (reverse : Bool) : Lin (ConvertFix.FixAvestan reverse) := by
  unfold ConvertFix.FixAvestan
  lin

theorem lin_ConvertFix_FixHanifiRohingya (reverse : Bool) : Lin (ConvertFix.FixHanifiRohingya reverse) := by
  unfold ConvertFix.FixHanifiRohingya
  lin

theorem lin_ConvertFix_FixIPA (reverse : Bool) : Lin (ConvertFix.FixIPA reverse) := by
  unfold ConvertFix.FixIPA
  lin

theorem lin_ConvertFix_FixMongolian (reverse : Bool) : Lin (ConvertFix.FixMongolian reverse) := by
  unfold ConvertFix.FixMongolian
  lin

theorem lin_ConvertFix_FixMro (reverse : Bool) : Lin (ConvertFix.FixMro reverse) := by
  unfold ConvertFix.FixMro
  lin

theorem lin_ConvertFix_FixRomanColloquial (reverse : Bool) : Lin (ConvertFix.FixRomanColloquial reverse) := by
  unfold ConvertFix.FixRomanColloquial
  lin

theorem lin_ConvertFix_FixRomanReadable (reverse : Bool) : Lin (ConvertFix.FixRomanReadable reverse) := by
  unfold ConvertFix.FixRomanReadable
  lin

theorem lin_ConvertFix_FixSantali (reverse : Bool) : Lin (ConvertFix.FixSantali reverse) := by
  unfold ConvertFix.FixSantali
  lin

theorem lin_ConvertFix_FixSoraSompeng (reverse : Bool) : Lin (ConvertFix.FixSoraSompeng reverse) := by
  unfold ConvertFix.FixSoraSompeng
  lin

theorem lin_ConvertFix_FixWancho (reverse : Bool) : Lin (ConvertFix.FixWancho reverse) := by
  unfold ConvertFix.FixWancho
  lin

theorem lin_ConvertFix_FixWarangCiti (reverse : Bool) : Lin (ConvertFix.FixWarangCiti reverse) := by
  unfold ConvertFix.FixWarangCiti
  lin

theorem lin_ConvertFix_PostFixRomanOutput (Source : PyStr) (Target : PyStr) : Lin (ConvertFix.PostFixRomanOutput Source Target) := by
  unfold ConvertFix.PostFixRomanOutput
  lin
  all_goals with_reducible first | apply lin_ConvertFix_FixVedic | apply lin_ConvertFix_SinhalaIPAFix | apply lin_ConvertFix_FixIPA | apply lin_ConvertFix_FixSantali | apply lin_ConvertFix_FixAvestan | apply lin_ConvertFix_FixSoraSompeng | apply lin_ConvertFix_FixWarangCiti | apply lin_ConvertFix_FixWancho | apply lin_ConvertFix_FixMro | apply lin_ConvertFix_FixRomanReadable | apply lin_ConvertFix_FixRomanColloquial | apply lin_ConvertFix_FixHanifiRohingya | apply lin_ConvertFix_FixMongolian

theorem lin_ConvertFix_FixHebr (Source : PyStr) (reverse : Bool) : Lin (ConvertFix.FixHebr Source reverse) := by
  unfold ConvertFix.FixHebr
  lin

theorem lin_ConvertFix_FixHebrew (reverse : Bool) : Lin (ConvertFix.FixHebrew reverse) := by
  unfold ConvertFix.FixHebrew
  lin

theorem lin_ConvertFix_FixMasaramGondi (reverse : Bool) : Lin (ConvertFix.FixMasaramGondi reverse) := by
  unfold ConvertFix.FixMasaramGondi
  lin

theorem lin_ConvertFix_FixGunjalaGondi (reverse : Bool) : Lin (ConvertFix.FixGunjalaGondi reverse) := by
  unfold ConvertFix.FixGunjalaGondi
  lin

theorem lin_ConvertFix_FixSoyombo (reverse : Bool) : Lin (ConvertFix.FixSoyombo reverse) := by
  unfold ConvertFix.FixSoyombo
  lin

theorem lin_ConvertFix_KharoshthiNumerals (reverse : Bool) : Lin (ConvertFix.KharoshthiNumerals reverse) := by
  unfold ConvertFix.KharoshthiNumerals
  lin

theorem lin_ConvertFix_FixKharoshthi (reverse : Bool) : Lin (ConvertFix.FixKharoshthi reverse) := by
  unfold ConvertFix.FixKharoshthi
  lin
  all_goals with_reducible first | apply lin_ConvertFix_KharoshthiNumerals

theorem lin_ConvertFix_FixMarchen (reverse : Bool) : Lin (ConvertFix.FixMarchen reverse) := by
  unfold ConvertFix.FixMarchen
  lin

theorem lin_ConvertFix_FixSiddham (reverse : Bool) : Lin (ConvertFix.FixSiddham reverse) := by
  unfold ConvertFix.FixSiddham
  lin

theorem lin_ConvertFix_FixBhaiksuki (reverse : Bool) : Lin (ConvertFix.FixBhaiksuki reverse) := by
  unfold ConvertFix.FixBhaiksuki
  lin

theorem lin_ConvertFix_FixKhudawadi (reverse : Bool) : Lin (ConvertFix.FixKhudawadi reverse) := by
  unfold ConvertFix.FixKhudawadi
  lin

theorem lin_ConvertFix_CorrectRuLu (Target : PyStr) (reverse : Bool) : Lin (ConvertFix.CorrectRuLu Target reverse) := by
  unfold ConvertFix.CorrectRuLu
  lin

theorem lin_PostProcess_RetainDandasIndic (Target : PyStr) (reverse : Bool) : Lin (PostProcess.RetainDandasIndic Target reverse) := by
  unfold PostProcess.RetainDandasIndic
  lin

theorem lin_PostProcess_RetainIndicNumerals (Target : PyStr) (reverse : Bool) : Lin (PostProcess.RetainIndicNumerals Target reverse) := by
  unfold PostProcess.RetainIndicNumerals
  lin

theorem lin_ConvertFix_FixTamil (reverse : Bool) : Lin (ConvertFix.FixTamil reverse) := by
  unfold ConvertFix.FixTamil
  lin
  all_goals with_reducible first | apply lin_ConvertFix_CorrectRuLu | apply lin_PostProcess_RetainDandasIndic | apply lin_PostProcess_RetainIndicNumerals

theorem lin_ConvertFix_FixOriya (reverse : Bool) : Lin (ConvertFix.FixOriya reverse) := by
  unfold ConvertFix.FixOriya
  lin

theorem lin_PostProcess_InsertGeminationSign (Target : PyStr) : Lin (PostProcess.InsertGeminationSign Target) := by
  unfold PostProcess.InsertGeminationSign
  lin

theorem lin_PostProcess_ReverseGeminationSign (Target : PyStr) : Lin (PostProcess.ReverseGeminationSign Target) := by
  unfold PostProcess.ReverseGeminationSign
  lin

theorem lin_ConvertFix_FixGurmukhiLoC (reverse : Bool) : Lin (ConvertFix.FixGurmukhiLoC reverse) := by
  unfold ConvertFix.FixGurmukhiLoC
  lin
  all_goals with_reducible first | apply lin_ConvertFix_CorrectRuLu | apply lin_PostProcess_InsertGeminationSign | apply lin_PostProcess_RetainIndicNumerals | apply lin_PostProcess_ReverseGeminationSign

theorem lin_PostProcess_GurmukhiYakaash (reverse : Bool) : Lin (PostProcess.GurmukhiYakaash reverse) := by
  unfold PostProcess.GurmukhiYakaash
  lin

theorem lin_ConvertFix_FixGurmukhi (reverse : Bool) : Lin (ConvertFix.FixGurmukhi reverse) := by
  unfold ConvertFix.FixGurmukhi
  lin
  all_goals with_reducible first | apply lin_ConvertFix_CorrectRuLu | apply lin_PostProcess_InsertGeminationSign | apply lin_PostProcess_RetainIndicNumerals | apply lin_PostProcess_ReverseGeminationSign | apply lin_PostProcess_GurmukhiYakaash

theorem lin_ConvertFix_ShiftDiacritics (Target : PyStr) (reverse : Bool) : Lin (ConvertFix.ShiftDiacritics Target reverse) := by
  unfold ConvertFix.ShiftDiacritics
  lin

theorem lin_ConvertFix_FixTamilExtended (reverse : Bool) : Lin (ConvertFix.FixTamilExtended reverse) := by
  unfold ConvertFix.FixTamilExtended
  lin

theorem lin_ConvertFix_FixTamilGrantha (reverse : Bool) : Lin (ConvertFix.FixTamilGrantha reverse) := by
  unfold ConvertFix.FixTamilGrantha
  lin

theorem lin_ConvertFix_FixKhmer (reverse : Bool) (target : PyStr) : Lin (ConvertFix.FixKhmer reverse target) := by
  unfold ConvertFix.FixKhmer
  lin

theorem lin_ConvertFix_FixKhmerLoC (reverse : Bool) : Lin (ConvertFix.FixKhmerLoC reverse) := by
  unfold ConvertFix.FixKhmerLoC
  lin
  all_goals with_reducible first | apply lin_ConvertFix_FixKhmer

theorem lin_ConvertFix_FixKhamtiShan (reverse : Bool) : Lin (ConvertFix.FixKhamtiShan reverse) := by
  unfold ConvertFix.FixKhamtiShan
  lin

theorem lin_ConvertFix_FixTaiLaing (reverse : Bool) : Lin (ConvertFix.FixTaiLaing reverse) := by
  unfold ConvertFix.FixTaiLaing
  lin

theorem lin_ConvertFix_FixShan (reverse : Bool) : Lin (ConvertFix.FixShan reverse) := by
  unfold ConvertFix.FixShan
  lin

theorem lin_ConvertFix_FixBurmese (reverse : Bool) : Lin (ConvertFix.FixBurmese reverse) := by
  unfold ConvertFix.FixBurmese
  lin

theorem lin_ConvertFix_FixMon (reverse : Bool) : Lin (ConvertFix.FixMon reverse) := by
  unfold ConvertFix.FixMon
  lin
  all_goals with_reducible first | apply lin_ConvertFix_FixBurmese

theorem lin_ConvertFix_AddRepha (Script : PyStr) (Repha : PyStr) (reverse : Bool) : Lin (ConvertFix.AddRepha Script Repha reverse) := by
  unfold ConvertFix.AddRepha
  lin

theorem lin_ConvertFix_FixTagbanwa (reverse : Bool) : Lin (ConvertFix.FixTagbanwa reverse) := by
  unfold ConvertFix.FixTagbanwa
  lin
  all_goals with_reducible first | apply lin_PostProcess_InsertGeminationSign

theorem lin_ConvertFix_FixBuhid (reverse : Bool) : Lin (ConvertFix.FixBuhid reverse) := by
  unfold ConvertFix.FixBuhid
  lin
  all_goals with_reducible first | apply lin_PostProcess_InsertGeminationSign

theorem lin_ConvertFix_FixBuginese (reverse : Bool) : Lin (ConvertFix.FixBuginese reverse) := by
  unfold ConvertFix.FixBuginese
  lin
  all_goals with_reducible first | apply lin_PostProcess_InsertGeminationSign

theorem lin_ConvertFix_FixBalinese (reverse : Bool) : Lin (ConvertFix.FixBalinese reverse) := by
  unfold ConvertFix.FixBalinese
  lin
  all_goals with_reducible first | apply lin_ConvertFix_AddRepha

theorem lin_ConvertFix_FixDivesAkuru (reverse : Bool) : Lin (ConvertFix.FixDivesAkuru reverse) := by
  unfold ConvertFix.FixDivesAkuru
  lin

theorem lin_ConvertFix_FixKawi (reverse : Bool) : Lin (ConvertFix.FixKawi reverse) := by
  unfold ConvertFix.FixKawi
  lin

theorem lin_ConvertFix_FixJavanese (reverse : Bool) : Lin (ConvertFix.FixJavanese reverse) := by
  unfold ConvertFix.FixJavanese
  lin
  all_goals with_reducible first | apply lin_ConvertFix_AddRepha

theorem lin_ConvertFix_PersoArabicPuntuation (reverse : Bool) : Lin (ConvertFix.PersoArabicPuntuation reverse) := by
  unfold ConvertFix.PersoArabicPuntuation
  lin

theorem lin_ConvertFix_FixUrduShahmukhi (Target : PyStr) (reverse : Bool) : Lin (ConvertFix.FixUrduShahmukhi Target reverse) := by
  unfold ConvertFix.FixUrduShahmukhi
  lin
  all_goals with_reducible first | apply lin_ConvertFix_PersoArabicPuntuation

theorem lin_ConvertFix_FixUrdu (reverse : Bool) : Lin (ConvertFix.FixUrdu reverse) := by
  unfold ConvertFix.FixUrdu
  lin
  all_goals with_reducible first | apply lin_ConvertFix_FixUrduShahmukhi

theorem lin_ConvertFix_FixShahmukhi (reverse : Bool) : Lin (ConvertFix.FixShahmukhi reverse) := by
  unfold ConvertFix.FixShahmukhi
  lin
  all_goals with_reducible first | apply lin_ConvertFix_FixUrduShahmukhi

theorem lin_ConvertFix_FixThaana (reverse : Bool) : Lin (ConvertFix.FixThaana reverse) := by
  unfold ConvertFix.FixThaana
  lin
  all_goals with_reducible first | apply lin_PostProcess_InsertGeminationSign | apply lin_PostProcess_ReverseGeminationSign

theorem lin_ConvertFix_FixSaurashtra (reverse : Bool) : Lin (ConvertFix.FixSaurashtra reverse) := by
  unfold ConvertFix.FixSaurashtra
  lin

theorem lin_ConvertFix_FixTibetan (reverse : Bool) (swapNative : Bool) : Lin (ConvertFix.FixTibetan reverse swapNative) := by
  unfold ConvertFix.FixTibetan
  lin

theorem lin_ConvertFix_FixTibetanLoC (reverse : Bool) : Lin (ConvertFix.FixTibetanLoC reverse) := by
  unfold ConvertFix.FixTibetanLoC
  lin
  all_goals with_reducible first | apply lin_ConvertFix_FixTibetan

theorem lin_ConvertFix_ReverseVowelSigns (Script : PyStr) (reverse : Bool) : Lin (ConvertFix.ReverseVowelSigns Script reverse) := by
  unfold ConvertFix.ReverseVowelSigns
  lin

theorem lin_ConvertFix_ThaiReverseVowelSigns (reverse : Bool) : Lin (ConvertFix.ThaiReverseVowelSigns reverse) := by
  unfold ConvertFix.ThaiReverseVowelSigns
  lin
  all_goals with_reducible first | apply lin_ConvertFix_ReverseVowelSigns

theorem lin_ConvertFix_FixKhomThai (reverse : Bool) : Lin (ConvertFix.FixKhomThai reverse) := by
  unfold ConvertFix.FixKhomThai
  lin
  all_goals with_reducible first | apply lin_ConvertFix_ThaiReverseVowelSigns

theorem lin_ConvertFix_ThaiDigraphConjuncts (reverse : Bool) : Lin (ConvertFix.ThaiDigraphConjuncts reverse) := by
  unfold ConvertFix.ThaiDigraphConjuncts
  lin

theorem lin_PostProcess_AnusvaraToNasal (Target : PyStr) : Lin (PostProcess.AnusvaraToNasal Target) := by
  unfold PostProcess.AnusvaraToNasal
  lin

theorem lin_PostProcess_ThaiLaoTranscription (Script : PyStr) (shortA : PyStr) (shortAconj : PyStr) (reverse : Bool) (anusvaraChange : Bool) : Lin (PostProcess.ThaiLaoTranscription Script shortA shortAconj reverse anusvaraChange) := by
  unfold PostProcess.ThaiLaoTranscription
  lin
  all_goals with_reducible first | apply lin_PostProcess_AnusvaraToNasal

theorem lin_ConvertFix_FixThai (reverse : Bool) : Lin (ConvertFix.FixThai reverse) := by
  unfold ConvertFix.FixThai
  lin
  all_goals with_reducible first | apply lin_ConvertFix_ThaiReverseVowelSigns | apply lin_ConvertFix_ThaiDigraphConjuncts | apply lin_PostProcess_ThaiLaoTranscription

theorem lin_ConvertFix_LaoPaliTranscribe (reverse : Bool) (anusvaraChange : Bool) : Lin (ConvertFix.LaoPaliTranscribe reverse anusvaraChange) := by
  unfold ConvertFix.LaoPaliTranscribe
  lin
  all_goals with_reducible first | apply lin_PostProcess_ThaiLaoTranscription

theorem lin_ConvertFix_FixLaoPali (reverse : Bool) : Lin (ConvertFix.FixLaoPali reverse) := by
  unfold ConvertFix.FixLaoPali
  lin
  all_goals with_reducible first | apply lin_ConvertFix_ReverseVowelSigns | apply lin_ConvertFix_LaoPaliTranscribe

theorem lin_ConvertFix_FixMakasar (reverse : Bool) : Lin (ConvertFix.FixMakasar reverse) := by
  unfold ConvertFix.FixMakasar
  lin
  all_goals with_reducible first | apply lin_PostProcess_InsertGeminationSign

theorem lin_ConvertFix_LaoTranscribe (reverse : Bool) : Lin (ConvertFix.LaoTranscribe reverse) := by
  unfold ConvertFix.LaoTranscribe
  lin
  all_goals with_reducible first | apply lin_PostProcess_ThaiLaoTranscription

theorem lin_ConvertFix_FixLao (reverse : Bool) : Lin (ConvertFix.FixLao reverse) := by
  unfold ConvertFix.FixLao
  lin
  all_goals with_reducible first | apply lin_ConvertFix_ReverseVowelSigns | apply lin_ConvertFix_LaoTranscribe

theorem lin_ConvertFix_OldPersianNumeral (reverse : Bool) : Lin (ConvertFix.OldPersianNumeral reverse) := by
  unfold ConvertFix.OldPersianNumeral
  lin

theorem lin_ConvertFix_OldPersianSyllable (reverse : Bool) : Lin (ConvertFix.OldPersianSyllable reverse) := by
  unfold ConvertFix.OldPersianSyllable
  lin

theorem lin_ConvertFix_FixOldPersian (reverse : Bool) : Lin (ConvertFix.FixOldPersian reverse) := by
  unfold ConvertFix.FixOldPersian
  lin
  all_goals with_reducible first | apply lin_ConvertFix_OldPersianSyllable | apply lin_ConvertFix_OldPersianNumeral

theorem lin_PostProcess_SinhalaDefaultConjuncts : Lin PostProcess.SinhalaDefaultConjuncts := by
  unfold PostProcess.SinhalaDefaultConjuncts
  lin

theorem lin_ConvertFix_FixSinhala (reverse : Bool) : Lin (ConvertFix.FixSinhala reverse) := by
  unfold ConvertFix.FixSinhala
  lin
  all_goals with_reducible first | apply lin_PostProcess_SinhalaDefaultConjuncts | apply lin_PostProcess_RetainIndicNumerals

theorem lin_ConvertFix_FixLimbu (reverse : Bool) : Lin (ConvertFix.FixLimbu reverse) := by
  unfold ConvertFix.FixLimbu
  lin

theorem lin_ConvertFix_FixLimbuLoC (reverse : Bool) : Lin (ConvertFix.FixLimbuLoC reverse) := by
  unfold ConvertFix.FixLimbuLoC
  lin
  all_goals with_reducible first | apply lin_ConvertFix_FixLimbu

theorem lin_PostProcess_DevanagariPrishtamatra (reverse : Bool) : Lin (PostProcess.DevanagariPrishtamatra reverse) := by
  unfold PostProcess.DevanagariPrishtamatra
  lin

theorem lin_ConvertFix_FixDevanagari (reverse : Bool) : Lin (ConvertFix.FixDevanagari reverse) := by
  unfold ConvertFix.FixDevanagari
  lin
  all_goals with_reducible first | apply lin_PostProcess_DevanagariPrishtamatra

theorem lin_ConvertFix_FixKaithi (reverse : Bool) : Lin (ConvertFix.FixKaithi reverse) := by
  unfold ConvertFix.FixKaithi
  lin

theorem lin_ConvertFix_FixLao2 (reverse : Bool) : Lin (ConvertFix.FixLao2 reverse) := by
  unfold ConvertFix.FixLao2
  lin
  all_goals with_reducible first | apply lin_ConvertFix_FixLao

theorem lin_PostProcess_NandinagariPrishtamatra (reverse : Bool) : Lin (PostProcess.NandinagariPrishtamatra reverse) := by
  unfold PostProcess.NandinagariPrishtamatra
  lin

theorem lin_ConvertFix_FixNandinagari (reverse : Bool) : Lin (ConvertFix.FixNandinagari reverse) := by
  unfold ConvertFix.FixNandinagari
  lin
  all_goals with_reducible first | apply lin_PostProcess_NandinagariPrishtamatra

theorem lin_ConvertFix_FixLepcha (reverse : Bool) : Lin (ConvertFix.FixLepcha reverse) := by
  unfold ConvertFix.FixLepcha
  lin

theorem lin_PostProcess_SundaneseHistoricConjuncts (reverse : Bool) : Lin (PostProcess.SundaneseHistoricConjuncts reverse) := by
  unfold PostProcess.SundaneseHistoricConjuncts
  lin

theorem lin_ConvertFix_FixSundanese (reverse : Bool) : Lin (ConvertFix.FixSundanese reverse) := by
  unfold ConvertFix.FixSundanese
  lin
  all_goals with_reducible first | apply lin_PostProcess_SundaneseHistoricConjuncts

theorem lin_ConvertFix_FixRejang (reverse : Bool) : Lin (ConvertFix.FixRejang reverse) := by
  unfold ConvertFix.FixRejang
  lin

theorem lin_PostProcess_ChakmaGemination (reverse : Bool) : Lin (PostProcess.ChakmaGemination reverse) := by
  unfold PostProcess.ChakmaGemination
  lin

theorem lin_ConvertFix_FixChakma (reverse : Bool) : Lin (ConvertFix.FixChakma reverse) := by
  unfold ConvertFix.FixChakma
  lin
  all_goals with_reducible first | apply lin_PostProcess_ChakmaGemination

theorem lin_ConvertFix_FixIAST (reverse : Bool) : Lin (ConvertFix.FixIAST reverse) := by
  unfold ConvertFix.FixIAST
  lin

theorem lin_ConvertFix_FixPhagsPa (reverse : Bool) : Lin (ConvertFix.FixPhagsPa reverse) := by
  unfold ConvertFix.FixPhagsPa
  lin

theorem lin_ConvertFix_FixLatn (Source : PyStr) (reverse : Bool) : Lin (ConvertFix.FixLatn Source reverse) := by
  unfold ConvertFix.FixLatn
  lin

theorem lin_ConvertFix_FixArab (Source : PyStr) (reverse : Bool) : Lin (ConvertFix.FixArab Source reverse) := by
  unfold ConvertFix.FixArab
  lin
  all_goals with_reducible first | apply lin_ConvertFix_PersoArabicPuntuation

theorem lin_ConvertFix_FixThaa (Source : PyStr) (reverse : Bool) : Lin (ConvertFix.FixThaa Source reverse) := by
  unfold ConvertFix.FixThaa
  lin
  all_goals with_reducible first | apply lin_ConvertFix_PersoArabicPuntuation

theorem lin_ConvertFix_FixArab_Fa (Source : PyStr) (reverse : Bool) : Lin (ConvertFix.FixArab_Fa Source reverse) := by
  unfold ConvertFix.FixArab_Fa
  lin
  all_goals with_reducible first | apply lin_ConvertFix_FixArab

theorem lin_ConvertFix_FixArab_Ur (Source : PyStr) (reverse : Bool) : Lin (ConvertFix.FixArab_Ur Source reverse) := by
  unfold ConvertFix.FixArab_Ur
  lin
  all_goals with_reducible first | apply lin_ConvertFix_FixArab

theorem lin_ConvertFix_FixUgar (Source : PyStr) (reverse : Bool) : Lin (ConvertFix.FixUgar Source reverse) := by
  unfold ConvertFix.FixUgar
  lin

theorem lin_ConvertFix_FixSogd (Source : PyStr) (reverse : Bool) : Lin (ConvertFix.FixSogd Source reverse) := by
  unfold ConvertFix.FixSogd
  lin

theorem lin_PostProcess_MalayalamChillu (reverse : Bool) (preserve : Bool) : Lin (PostProcess.MalayalamChillu reverse preserve) := by
  unfold PostProcess.MalayalamChillu
  lin

theorem lin_ConvertFix_FixMalayalam (reverse : Bool) : Lin (ConvertFix.FixMalayalam reverse) := by
  unfold ConvertFix.FixMalayalam
  lin
  all_goals with_reducible first | apply lin_PostProcess_MalayalamChillu | apply lin_PostProcess_RetainDandasIndic | apply lin_PostProcess_RetainIndicNumerals

theorem lin_ConvertFix_FixTelugu (reverse : Bool) : Lin (ConvertFix.FixTelugu reverse) := by
  unfold ConvertFix.FixTelugu
  lin
  all_goals with_reducible first | apply lin_PostProcess_RetainDandasIndic | apply lin_PostProcess_RetainIndicNumerals

theorem lin_ConvertFix_FixMeeteiMayek (reverse : Bool) : Lin (ConvertFix.FixMeeteiMayek reverse) := by
  unfold ConvertFix.FixMeeteiMayek
  lin

theorem lin_ConvertFix_FixBatakSima (reverse : Bool) : Lin (ConvertFix.FixBatakSima reverse) := by
  unfold ConvertFix.FixBatakSima
  lin

theorem lin_ConvertFix_FixCham (reverse : Bool) : Lin (ConvertFix.FixCham reverse) := by
  unfold ConvertFix.FixCham
  lin

theorem lin_PostProcess_FixTallA (TallACons : PyStr) : Lin (PostProcess.FixTallA TallACons) := by
  unfold PostProcess.FixTallA
  lin

theorem lin_ConvertFix_FixTaiTham (reverse : Bool) : Lin (ConvertFix.FixTaiTham reverse) := by
  unfold ConvertFix.FixTaiTham
  lin
  all_goals with_reducible first | apply lin_PostProcess_FixTallA

theorem lin_ConvertFix_FixLaoTham (reverse : Bool) : Lin (ConvertFix.FixLaoTham reverse) := by
  unfold ConvertFix.FixLaoTham
  lin
  all_goals with_reducible first | apply lin_ConvertFix_FixTaiTham

theorem lin_ConvertFix_FixThamLoC (reverse : Bool) : Lin (ConvertFix.FixThamLoC reverse) := by
  unfold ConvertFix.FixThamLoC
  lin
  all_goals with_reducible first | apply lin_ConvertFix_FixTaiTham

theorem lin_ConvertFix_FixLueTham (reverse : Bool) : Lin (ConvertFix.FixLueTham reverse) := by
  unfold ConvertFix.FixLueTham
  lin
  all_goals with_reducible first | apply lin_ConvertFix_FixTaiTham

theorem lin_ConvertFix_FixKhuenTham (reverse : Bool) : Lin (ConvertFix.FixKhuenTham reverse) := by
  unfold ConvertFix.FixKhuenTham
  lin
  all_goals with_reducible first | apply lin_ConvertFix_FixTaiTham

theorem lin_PostProcess_KhandaTa (Target : PyStr) (reverse : Bool) : Lin (PostProcess.KhandaTa Target reverse) := by
  unfold PostProcess.KhandaTa
  lin

theorem lin_ConvertFix_FixBengali (reverse : Bool) : Lin (ConvertFix.FixBengali reverse) := by
  unfold ConvertFix.FixBengali
  lin
  all_goals with_reducible first | apply lin_PostProcess_KhandaTa

theorem lin_ConvertFix_FixAssamese (reverse : Bool) : Lin (ConvertFix.FixAssamese reverse) := by
  unfold ConvertFix.FixAssamese
  lin
  all_goals with_reducible first | apply lin_PostProcess_KhandaTa

theorem lin_ConvertFix_FixSharada (reverse : Bool) : Lin (ConvertFix.FixSharada reverse) := by
  unfold ConvertFix.FixSharada
  lin
  all_goals with_reducible first | apply lin_PostProcess_KhandaTa

theorem lin_ConvertFix_FixKannada (reverse : Bool) : Lin (ConvertFix.FixKannada reverse) := by
  unfold ConvertFix.FixKannada
  lin
  all_goals with_reducible first | apply lin_PostProcess_RetainDandasIndic

theorem lin_ConvertFix_FixGrantha (reverse : Bool) : Lin (ConvertFix.FixGrantha reverse) := by
  unfold ConvertFix.FixGrantha
  lin

theorem lin_ConvertFix_FixMahajani (reverse : Bool) : Lin (ConvertFix.FixMahajani reverse) := by
  unfold ConvertFix.FixMahajani
  lin

theorem lin_ConvertFix_FixAhom (reverse : Bool) : Lin (ConvertFix.FixAhom reverse) := by
  unfold ConvertFix.FixAhom
  lin

theorem lin_ConvertFix_FixMultani (reverse : Bool) : Lin (ConvertFix.FixMultani reverse) := by
  unfold ConvertFix.FixMultani
  lin

theorem lin_ConvertFix_FixGujarati (reverse : Bool) : Lin (ConvertFix.FixGujarati reverse) := by
  unfold ConvertFix.FixGujarati
  lin
  all_goals with_reducible first | apply lin_PostProcess_RetainDandasIndic

theorem lin_ConvertFix_FixZanabazarSquare (reverse : Bool) : Lin (ConvertFix.FixZanabazarSquare reverse) := by
  unfold ConvertFix.FixZanabazarSquare
  lin

theorem lin_ConvertFix_FixKhojki (reverse : Bool) : Lin (ConvertFix.FixKhojki reverse) := by
  unfold ConvertFix.FixKhojki
  lin
  all_goals with_reducible first | apply lin_PostProcess_InsertGeminationSign | apply lin_PostProcess_ReverseGeminationSign

theorem lin_ConvertFix_FixNewa (reverse : Bool) : Lin (ConvertFix.FixNewa reverse) := by
  unfold ConvertFix.FixNewa
  lin

theorem lin_PostProcess_default (langage : PyStr) : Lin (PostProcess.default langage) := by
  unfold PostProcess.default
  lin

theorem fixIndicFns_lin : ∀ p ∈ fixIndicFns, ∀ b, Lin (p.2 b) := by
  unfold fixIndicFns
  repeat (refine List.forall_mem_cons.2 ⟨fun b => ?_, ?_⟩; · dsimp only; with_reducible first | apply lin_ConvertFix_FixAhom | apply lin_ConvertFix_FixArab | apply lin_ConvertFix_FixArab_Fa | apply lin_ConvertFix_FixArab_Ur | apply lin_ConvertFix_FixAssamese | apply lin_ConvertFix_FixAvestan | apply lin_ConvertFix_FixBalinese | apply lin_ConvertFix_FixBatakSima | apply lin_ConvertFix_FixBengali | apply lin_ConvertFix_FixBhaiksuki | apply lin_ConvertFix_FixBuginese | apply lin_ConvertFix_FixBuhid | apply lin_ConvertFix_FixBurmese | apply lin_ConvertFix_FixChakma | apply lin_ConvertFix_FixCham | apply lin_ConvertFix_FixDevanagari | apply lin_ConvertFix_FixDivesAkuru | apply lin_ConvertFix_FixGrantha | apply lin_ConvertFix_FixGujarati | apply lin_ConvertFix_FixGunjalaGondi | apply lin_ConvertFix_FixGurmukhi | apply lin_ConvertFix_FixGurmukhiLoC | apply lin_ConvertFix_FixHanifiRohingya | apply lin_ConvertFix_FixHebr | apply lin_ConvertFix_FixHebrew | apply lin_ConvertFix_FixIAST | apply lin_ConvertFix_FixIPA | apply lin_ConvertFix_FixJavanese | apply lin_ConvertFix_FixKaithi | apply lin_ConvertFix_FixKannada | apply lin_ConvertFix_FixKawi | apply lin_ConvertFix_FixKhamtiShan | apply lin_ConvertFix_FixKharoshthi | apply lin_ConvertFix_FixKhmer | apply lin_ConvertFix_FixKhmerLoC | apply lin_ConvertFix_FixKhojki | apply lin_ConvertFix_FixKhomThai | apply lin_ConvertFix_FixKhudawadi | apply lin_ConvertFix_FixKhuenTham | apply lin_ConvertFix_FixLao | apply lin_ConvertFix_FixLao2 | apply lin_ConvertFix_FixLaoPali | apply lin_ConvertFix_FixLaoTham | apply lin_ConvertFix_FixLatn | apply lin_ConvertFix_FixLepcha | apply lin_ConvertFix_FixLimbu | apply lin_ConvertFix_FixLimbuLoC | apply lin_ConvertFix_FixLueTham | apply lin_ConvertFix_FixMahajani | apply lin_ConvertFix_FixMakasar | apply lin_ConvertFix_FixMalayalam | apply lin_ConvertFix_FixMarchen | apply lin_ConvertFix_FixMasaramGondi | apply lin_ConvertFix_FixMeeteiMayek | apply lin_ConvertFix_FixMon | apply lin_ConvertFix_FixMongolian | apply lin_ConvertFix_FixMro | apply lin_ConvertFix_FixMultani | apply lin_ConvertFix_FixNandinagari | apply lin_ConvertFix_FixNewa | apply lin_ConvertFix_FixOldPersian | apply lin_ConvertFix_FixOriya | apply lin_ConvertFix_FixPhagsPa | apply lin_ConvertFix_FixRejang | apply lin_ConvertFix_FixRomanColloquial | apply lin_ConvertFix_FixRomanOutput | apply lin_ConvertFix_FixRomanReadable | apply lin_ConvertFix_FixSantali | apply lin_ConvertFix_FixSaurashtra | apply lin_ConvertFix_FixShahmukhi | apply lin_ConvertFix_FixShan | apply lin_ConvertFix_FixSharada | apply lin_ConvertFix_FixSiddham | apply lin_ConvertFix_FixSinhala | apply lin_ConvertFix_FixSogd | apply lin_ConvertFix_FixSoraSompeng | apply lin_ConvertFix_FixSoyombo | apply lin_ConvertFix_FixSundanese | apply lin_ConvertFix_FixTagbanwa | apply lin_ConvertFix_FixTaiLaing | apply lin_ConvertFix_FixTaiTham | apply lin_ConvertFix_FixTamil | apply lin_ConvertFix_FixTamilExtended | apply lin_ConvertFix_FixTamilGrantha | apply lin_ConvertFix_FixTelugu | apply lin_ConvertFix_FixThaa | apply lin_ConvertFix_FixThaana | apply lin_ConvertFix_FixThai | apply lin_ConvertFix_FixThamLoC | apply lin_ConvertFix_FixTibetan | apply lin_ConvertFix_FixTibetanLoC | apply lin_ConvertFix_FixUgar | apply lin_ConvertFix_FixUrdu | apply lin_ConvertFix_FixWancho | apply lin_ConvertFix_FixWarangCiti | apply lin_ConvertFix_FixZanabazarSquare | apply lin_ConvertFix_PostFixRomanOutput | apply lin_ConvertFix_ShiftDiacritics | apply lin_ConvertFix_VedicSvarsIndicLatin)
  exact fun p hp => nomatch hp

end Verif
