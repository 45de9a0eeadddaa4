import Verif.Lib.Letterwise
import Verif.Spec.CoreTable

namespace Verif

theorem coreOk_Oriya : coreOk coreOriya = true := by decide +kernel
theorem coreOk_Gurmukhi : coreOk coreGurmukhi = true := by decide +kernel
theorem coreOk_Tamil : coreOk coreTamil = true := by decide +kernel
theorem coreOk_Assamese : coreOk coreAssamese = true := by decide +kernel
theorem coreOk_Saurashtra : coreOk coreSaurashtra = true := by decide +kernel
theorem coreOk_TamilBrahmi : coreOk coreTamilBrahmi = true := by decide +kernel
theorem coreOk_Grantha : coreOk coreGrantha = true := by decide +kernel

end Verif
