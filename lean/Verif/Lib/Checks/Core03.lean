import Verif.Lib.Letterwise
import Verif.Spec.CoreTable

namespace Verif

theorem coreOk_KhomThai : coreOk coreKhomThai = true := by decide +kernel
theorem coreOk_KhamtiShan : coreOk coreKhamtiShan = true := by decide +kernel
theorem coreOk_TaiLaing : coreOk coreTaiLaing = true := by decide +kernel
theorem coreOk_Mon : coreOk coreMon = true := by decide +kernel
theorem coreOk_Khojki : coreOk coreKhojki = true := by decide +kernel
theorem coreOk_Shan : coreOk coreShan = true := by decide +kernel
theorem coreOk_Ranjana : coreOk coreRanjana = true := by decide +kernel

end Verif
