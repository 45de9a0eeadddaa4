import Verif.Lib.Letterwise
import Verif.Spec.CoreTable

namespace Verif

theorem coreOk_Kaithi : coreOk coreKaithi = true := by decide +kernel
theorem coreOk_Kharoshthi : coreOk coreKharoshthi = true := by decide +kernel
theorem coreOk_Telugu : coreOk coreTelugu = true := by decide +kernel
theorem coreOk_Kannada : coreOk coreKannada = true := by decide +kernel
theorem coreOk_Malayalam : coreOk coreMalayalam = true := by decide +kernel
theorem coreOk_Gujarati : coreOk coreGujarati = true := by decide +kernel
theorem coreOk_Bengali : coreOk coreBengali = true := by decide +kernel

end Verif
