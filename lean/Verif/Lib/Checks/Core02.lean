import Verif.Lib.Letterwise
import Verif.Spec.CoreTable

namespace Verif

theorem coreOk_KhuenTham : coreOk coreKhuenTham = true := by decide +kernel
theorem coreOk_TamilExtended : coreOk coreTamilExtended = true := by decide +kernel
theorem coreOk_Marchen : coreOk coreMarchen = true := by decide +kernel
theorem coreOk_MasaramGondi : coreOk coreMasaramGondi = true := by decide +kernel
theorem coreOk_GunjalaGondi : coreOk coreGunjalaGondi = true := by decide +kernel
theorem coreOk_Soyombo : coreOk coreSoyombo = true := by decide +kernel
theorem coreOk_Dogra : coreOk coreDogra = true := by decide +kernel

end Verif
