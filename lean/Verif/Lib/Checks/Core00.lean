import Verif.Lib.Letterwise
import Verif.Spec.CoreTable

namespace Verif

theorem coreOk_DivesAkuru : coreOk coreDivesAkuru = true := by decide +kernel
theorem coreOk_TibetanLoC : coreOk coreTibetanLoC = true := by decide +kernel
theorem coreOk_GurmukhiLoC : coreOk coreGurmukhiLoC = true := by decide +kernel
theorem coreOk_LimbuLoC : coreOk coreLimbuLoC = true := by decide +kernel
theorem coreOk_ThamLoC : coreOk coreThamLoC = true := by decide +kernel
theorem coreOk_KhmerLoC : coreOk coreKhmerLoC = true := by decide +kernel
theorem coreOk_ShanLoC : coreOk coreShanLoC = true := by decide +kernel

end Verif
