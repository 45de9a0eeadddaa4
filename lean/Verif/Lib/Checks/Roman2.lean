import Verif.Lib.RomanOut
import Verif.Spec.CoreTable

namespace Verif

theorem preRomanOk_DivesAkuru : preRomanOk coreDivesAkuru = true := by decide +kernel
theorem preRomanOk_TibetanLoC : preRomanOk coreTibetanLoC = true := by decide +kernel
theorem preRomanOk_GurmukhiLoC : preRomanOk coreGurmukhiLoC = true := by decide +kernel
theorem preRomanOk_LimbuLoC : preRomanOk coreLimbuLoC = true := by decide +kernel
theorem preRomanOk_ThamLoC : preRomanOk coreThamLoC = true := by decide +kernel
theorem preRomanOk_KhmerLoC : preRomanOk coreKhmerLoC = true := by decide +kernel
theorem preRomanOk_ShanLoC : preRomanOk coreShanLoC = true := by decide +kernel
theorem preRomanOk_BengaliRaBa : preRomanOk coreBengaliRaBa = true := by decide +kernel
theorem preRomanOk_Makasar : preRomanOk coreMakasar = true := by decide +kernel
theorem preRomanOk_Nandinagari : preRomanOk coreNandinagari = true := by decide +kernel
theorem preRomanOk_Kawi : preRomanOk coreKawi = true := by decide +kernel
theorem preRomanOk_Pallava : preRomanOk corePallava = true := by decide +kernel
theorem preRomanOk_LaoTham : preRomanOk coreLaoTham = true := by decide +kernel
theorem preRomanOk_LueTham : preRomanOk coreLueTham = true := by decide +kernel
theorem preRomanOk_KhuenTham : preRomanOk coreKhuenTham = true := by decide +kernel
theorem preRomanOk_TamilExtended : preRomanOk coreTamilExtended = true := by decide +kernel
theorem preRomanOk_Marchen : preRomanOk coreMarchen = true := by decide +kernel
theorem preRomanOk_MasaramGondi : preRomanOk coreMasaramGondi = true := by decide +kernel
theorem preRomanOk_GunjalaGondi : preRomanOk coreGunjalaGondi = true := by decide +kernel
theorem preRomanOk_Soyombo : preRomanOk coreSoyombo = true := by decide +kernel
theorem preRomanOk_Dogra : preRomanOk coreDogra = true := by decide +kernel
theorem preRomanOk_KhomThai : preRomanOk coreKhomThai = true := by decide +kernel
theorem preRomanOk_KhamtiShan : preRomanOk coreKhamtiShan = true := by decide +kernel
theorem preRomanOk_TaiLaing : preRomanOk coreTaiLaing = true := by decide +kernel
theorem preRomanOk_Mon : preRomanOk coreMon = true := by decide +kernel
theorem preRomanOk_Khojki : preRomanOk coreKhojki = true := by decide +kernel
theorem preRomanOk_Shan : preRomanOk coreShan = true := by decide +kernel
theorem preRomanOk_Ranjana : preRomanOk coreRanjana = true := by decide +kernel
theorem preRomanOk_ZanabazarSquare : preRomanOk coreZanabazarSquare = true := by decide +kernel
theorem preRomanOk_Rejang : preRomanOk coreRejang = true := by decide +kernel
theorem preRomanOk_GranthaGrantamil : preRomanOk coreGranthaGrantamil = true := by decide +kernel
theorem preRomanOk_Devanagari : preRomanOk coreDevanagari = true := by decide +kernel
theorem preRomanOk_Multani : preRomanOk coreMultani = true := by decide +kernel
theorem preRomanOk_Ahom : preRomanOk coreAhom = true := by decide +kernel
theorem preRomanOk_Mahajani : preRomanOk coreMahajani = true := by decide +kernel
theorem preRomanOk_Hanunoo : preRomanOk coreHanunoo = true := by decide +kernel
theorem preRomanOk_Buhid : preRomanOk coreBuhid = true := by decide +kernel
theorem preRomanOk_Siddham : preRomanOk coreSiddham = true := by decide +kernel
theorem preRomanOk_SiddhamDevanagari : preRomanOk coreSiddhamDevanagari = true := by decide +kernel
theorem preRomanOk_GranthaPandya : preRomanOk coreGranthaPandya = true := by decide +kernel
theorem preRomanOk_Vatteluttu : preRomanOk coreVatteluttu = true := by decide +kernel
theorem preRomanOk_Khudawadi : preRomanOk coreKhudawadi = true := by decide +kernel
theorem preRomanOk_Bhaiksuki : preRomanOk coreBhaiksuki = true := by decide +kernel
theorem preRomanOk_Sharada : preRomanOk coreSharada = true := by decide +kernel

end Verif
