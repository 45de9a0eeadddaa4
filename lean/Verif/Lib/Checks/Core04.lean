import Verif.Lib.Letterwise
import Verif.Spec.CoreTable

namespace Verif

theorem coreOk_ZanabazarSquare : coreOk coreZanabazarSquare = true := by decide +kernel
theorem coreOk_Rejang : coreOk coreRejang = true := by decide +kernel
theorem coreOk_GranthaGrantamil : coreOk coreGranthaGrantamil = true := by decide +kernel
theorem coreOk_Devanagari : coreOk coreDevanagari = true := by decide +kernel
theorem coreOk_Multani : coreOk coreMultani = true := by decide +kernel
theorem coreOk_Ahom : coreOk coreAhom = true := by decide +kernel
theorem coreOk_Mahajani : coreOk coreMahajani = true := by decide +kernel

end Verif
