import Verif.Lib.Letterwise
import Verif.Spec.CoreTable

namespace Verif

theorem coreOk_BengaliRaBa : coreOk coreBengaliRaBa = true := by decide +kernel
theorem coreOk_Makasar : coreOk coreMakasar = true := by decide +kernel
theorem coreOk_Nandinagari : coreOk coreNandinagari = true := by decide +kernel
theorem coreOk_Kawi : coreOk coreKawi = true := by decide +kernel
theorem coreOk_Pallava : coreOk corePallava = true := by decide +kernel
theorem coreOk_LaoTham : coreOk coreLaoTham = true := by decide +kernel
theorem coreOk_LueTham : coreOk coreLueTham = true := by decide +kernel

end Verif
