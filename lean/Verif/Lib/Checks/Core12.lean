import Verif.Lib.Letterwise
import Verif.Spec.CoreTable

namespace Verif

theorem coreOk_Cham : coreOk coreCham = true := by decide +kernel
theorem coreOk_TaiTham : coreOk coreTaiTham = true := by decide +kernel
theorem coreOk_Brahmi : coreOk coreBrahmi = true := by decide +kernel

end Verif
