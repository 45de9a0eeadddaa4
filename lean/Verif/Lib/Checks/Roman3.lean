import Verif.Lib.RomanOut
import Verif.Spec.CoreTable

namespace Verif

theorem preRomanOk_Newa : preRomanOk coreNewa = true := by decide +kernel
theorem preRomanOk_Takri : preRomanOk coreTakri = true := by decide +kernel
theorem preRomanOk_SylotiNagri : preRomanOk coreSylotiNagri = true := by decide +kernel
theorem preRomanOk_Tirhuta : preRomanOk coreTirhuta = true := by decide +kernel
theorem preRomanOk_Modi : preRomanOk coreModi = true := by decide +kernel
theorem preRomanOk_Kaithi : preRomanOk coreKaithi = true := by decide +kernel
theorem preRomanOk_Kharoshthi : preRomanOk coreKharoshthi = true := by decide +kernel
theorem preRomanOk_Telugu : preRomanOk coreTelugu = true := by decide +kernel
theorem preRomanOk_Kannada : preRomanOk coreKannada = true := by decide +kernel
theorem preRomanOk_Malayalam : preRomanOk coreMalayalam = true := by decide +kernel
theorem preRomanOk_Gujarati : preRomanOk coreGujarati = true := by decide +kernel
theorem preRomanOk_Bengali : preRomanOk coreBengali = true := by decide +kernel
theorem preRomanOk_Oriya : preRomanOk coreOriya = true := by decide +kernel
theorem preRomanOk_Gurmukhi : preRomanOk coreGurmukhi = true := by decide +kernel
theorem preRomanOk_Tamil : preRomanOk coreTamil = true := by decide +kernel
theorem preRomanOk_Assamese : preRomanOk coreAssamese = true := by decide +kernel
theorem preRomanOk_Saurashtra : preRomanOk coreSaurashtra = true := by decide +kernel
theorem preRomanOk_TamilBrahmi : preRomanOk coreTamilBrahmi = true := by decide +kernel
theorem preRomanOk_Grantha : preRomanOk coreGrantha = true := by decide +kernel
theorem preRomanOk_TamilGrantha : preRomanOk coreTamilGrantha = true := by decide +kernel
theorem preRomanOk_Sinhala : preRomanOk coreSinhala = true := by decide +kernel
theorem preRomanOk_Khmer : preRomanOk coreKhmer = true := by decide +kernel
theorem preRomanOk_Burmese : preRomanOk coreBurmese = true := by decide +kernel
theorem preRomanOk_Balinese : preRomanOk coreBalinese = true := by decide +kernel
theorem preRomanOk_Javanese : preRomanOk coreJavanese = true := by decide +kernel
theorem preRomanOk_Tibetan : preRomanOk coreTibetan = true := by decide +kernel
theorem preRomanOk_OldPersian : preRomanOk coreOldPersian = true := by decide +kernel
theorem preRomanOk_Limbu : preRomanOk coreLimbu = true := by decide +kernel
theorem preRomanOk_Lepcha : preRomanOk coreLepcha = true := by decide +kernel
theorem preRomanOk_Sundanese : preRomanOk coreSundanese = true := by decide +kernel
theorem preRomanOk_Tagalog : preRomanOk coreTagalog = true := by decide +kernel
theorem preRomanOk_Tagbanwa : preRomanOk coreTagbanwa = true := by decide +kernel
theorem preRomanOk_Buginese : preRomanOk coreBuginese = true := by decide +kernel
theorem preRomanOk_Chakma : preRomanOk coreChakma = true := by decide +kernel
theorem preRomanOk_MeeteiMayek : preRomanOk coreMeeteiMayek = true := by decide +kernel
theorem preRomanOk_BatakKaro : preRomanOk coreBatakKaro = true := by decide +kernel
theorem preRomanOk_BatakPakpak : preRomanOk coreBatakPakpak = true := by decide +kernel
theorem preRomanOk_BatakSima : preRomanOk coreBatakSima = true := by decide +kernel
theorem preRomanOk_BatakToba : preRomanOk coreBatakToba = true := by decide +kernel
theorem preRomanOk_BatakManda : preRomanOk coreBatakManda = true := by decide +kernel
theorem preRomanOk_Cham : preRomanOk coreCham = true := by decide +kernel
theorem preRomanOk_TaiTham : preRomanOk coreTaiTham = true := by decide +kernel
theorem preRomanOk_Brahmi : preRomanOk coreBrahmi = true := by decide +kernel

end Verif
