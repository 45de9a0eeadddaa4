import Verif.Lib.Letterwise
import Verif.Spec.CoreTable

namespace Verif

theorem coreOk_Chakma : coreOk coreChakma = true := by decide +kernel
theorem coreOk_MeeteiMayek : coreOk coreMeeteiMayek = true := by decide +kernel
theorem coreOk_BatakKaro : coreOk coreBatakKaro = true := by decide +kernel
theorem coreOk_BatakPakpak : coreOk coreBatakPakpak = true := by decide +kernel
theorem coreOk_BatakSima : coreOk coreBatakSima = true := by decide +kernel
theorem coreOk_BatakToba : coreOk coreBatakToba = true := by decide +kernel
theorem coreOk_BatakManda : coreOk coreBatakManda = true := by decide +kernel

end Verif
