import Verif.Lib.Letterwise
import Verif.Spec.CoreTable

namespace Verif

theorem coreOk_Bhaiksuki : coreOk coreBhaiksuki = true := by decide +kernel
theorem coreOk_Sharada : coreOk coreSharada = true := by decide +kernel
theorem coreOk_Newa : coreOk coreNewa = true := by decide +kernel
theorem coreOk_Takri : coreOk coreTakri = true := by decide +kernel
theorem coreOk_SylotiNagri : coreOk coreSylotiNagri = true := by decide +kernel
theorem coreOk_Tirhuta : coreOk coreTirhuta = true := by decide +kernel
theorem coreOk_Modi : coreOk coreModi = true := by decide +kernel

end Verif
