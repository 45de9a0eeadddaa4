import Verif.Spec.Scripts
import Verif.Spec.Semitic

/-!
# Options and scripts of the no-crash property
-/

namespace Verif

/-- Scripts modelled both with a table of letters and as Semitic scripts. -/
def dualScripts : List PyStr := us!["Hebrew", "Thaana", "Urdu", "Shahmukhi"]

/-- Semitic scripts and their romanisations. -/
def semiticScripts : List PyStr := semiticNames ++ us!["Latn", "Type"]

/-- The Semitic scripts in which Indic double letters stay double. -/
def doublingSemitic : List PyStr := us!["Arab-Pa", "Arab-Ur", "Hebr-Ar", "Arab-Fa", "Arab", "Hebr", "Latn"]

/-- Semitic romanisation standards that can be read. -/
def standardsRead : List PyStr := us!["ISO259", "HebrewSBL", "ISO233"]

/-- Semitic romanisation standards that can be written. -/
def standardsWritten : List PyStr := us!["ISO259", "HebrewSBL", "ISO233", "PersianDMG"]

/-- Pre-options that raise an exception on every text: functions that need more arguments than the
text, or that are broken. -/
def failingPre : List PyStr := us!["AnuChandraEq", "BalineseJavaneseMoveRepha", "FixSemiticRoman", "IPAIndic",
  "JapanesePreProcess", "OriyaSubojinedVa", "PhagsPaArrange", "PreProcess", "RemoveFinal", "RetainPipeDanda",
  "RomanPreFix", "joinVowelCons", "normalize", "removeZW"]

/-- Post-options that raise an exception on every text. -/
def failingPost : List PyStr := us!["AnusvaraToNasal", "BalineseJavaneseMoveRepha", "FixSemiticRoman", "FixTallA",
  "InsertGeminationSign", "JapanesePostProcess", "KhandaTa", "MToAnusvara", "NasalToAnusvara", "PhagsPaRearrange",
  "RemoveSchwa", "RetainDandasIndic", "RetainIndicNumerals", "RetainRomanNumerals", "ReverseGeminationSign",
  "ThaiLaoTranscription", "VaToBa", "YYAEverywhere", "YaToYYa", "defaultPost", "tbadiff"]

/-- Pre-options whose effect the model leaves open (`khmernltk`). -/
def externalPre : List PyStr := us!["KhmerWordSplit"]

/-- Post-options whose effect the model leaves open (they rewrite their own matches). -/
def externalPost : List PyStr := us!["GranthaPrakrit", "capitalizeSentence"]

/-- Post-options that drop or copy arbitrary characters. -/
def movingPost : List PyStr := us!["TaiThamMoveNnga", "TakriRemoveGemination"]

/-- Scripts of the Batak family: the library lists them as having an ALA-LC romanisation, but has no table
for it. -/
def batakScripts : List PyStr := us!["BatakKaro", "BatakManda", "BatakPakpak", "BatakSima", "BatakToba"]

/-- The option `name` is among the requested ones: names of options are compared without case. -/
def Requested (E : Env) (options : List PyStr) (name : PyStr) : Prop := ∃ o ∈ options, E.lower o = E.lower name

end Verif
