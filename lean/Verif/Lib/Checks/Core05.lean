import Verif.Lib.Letterwise
import Verif.Spec.CoreTable

namespace Verif

theorem coreOk_Hanunoo : coreOk coreHanunoo = true := by decide +kernel
theorem coreOk_Buhid : coreOk coreBuhid = true := by decide +kernel
theorem coreOk_Siddham : coreOk coreSiddham = true := by decide +kernel
theorem coreOk_SiddhamDevanagari : coreOk coreSiddhamDevanagari = true := by decide +kernel
theorem coreOk_GranthaPandya : coreOk coreGranthaPandya = true := by decide +kernel
theorem coreOk_Vatteluttu : coreOk coreVatteluttu = true := by decide +kernel
theorem coreOk_Khudawadi : coreOk coreKhudawadi = true := by decide +kernel

end Verif
