import Verif.Lib.Letterwise
import Verif.Spec.CoreTable

namespace Verif

theorem coreOk_OldPersian : coreOk coreOldPersian = true := by decide +kernel
theorem coreOk_Limbu : coreOk coreLimbu = true := by decide +kernel
theorem coreOk_Lepcha : coreOk coreLepcha = true := by decide +kernel
theorem coreOk_Sundanese : coreOk coreSundanese = true := by decide +kernel
theorem coreOk_Tagalog : coreOk coreTagalog = true := by decide +kernel
theorem coreOk_Tagbanwa : coreOk coreTagbanwa = true := by decide +kernel
theorem coreOk_Buginese : coreOk coreBuginese = true := by decide +kernel

end Verif
