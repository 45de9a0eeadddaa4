import Verif.Lib.Letterwise
import Verif.Spec.CoreTable

namespace Verif

theorem coreOk_TamilGrantha : coreOk coreTamilGrantha = true := by decide +kernel
theorem coreOk_Sinhala : coreOk coreSinhala = true := by decide +kernel
theorem coreOk_Khmer : coreOk coreKhmer = true := by decide +kernel
theorem coreOk_Burmese : coreOk coreBurmese = true := by decide +kernel
theorem coreOk_Balinese : coreOk coreBalinese = true := by decide +kernel
theorem coreOk_Javanese : coreOk coreJavanese = true := by decide +kernel
theorem coreOk_Tibetan : coreOk coreTibetan = true := by decide +kernel

end Verif
