import Verif.Lib.Checks.Core00
import Verif.Lib.Checks.Core01
import Verif.Lib.Checks.Core02
import Verif.Lib.Checks.Core03
import Verif.Lib.Checks.Core04
import Verif.Lib.Checks.Core05
import Verif.Lib.Checks.Core06
import Verif.Lib.Checks.Core07
import Verif.Lib.Checks.Core08
import Verif.Lib.Checks.Core09
import Verif.Lib.Checks.Core10
import Verif.Lib.Checks.Core11
import Verif.Lib.Checks.Core12

/-!
# All core checks
-/

namespace Verif

theorem coreOk_all : ∀ e ∈ coreTable, coreOk e = true := by
  unfold coreTable
  refine List.forall_mem_cons.2 ⟨coreOk_DivesAkuru, ?_⟩
  refine List.forall_mem_cons.2 ⟨coreOk_TibetanLoC, ?_⟩
  refine List.forall_mem_cons.2 ⟨coreOk_GurmukhiLoC, ?_⟩
  refine List.forall_mem_cons.2 ⟨coreOk_LimbuLoC, ?_⟩
  refine List.forall_mem_cons.2 ⟨coreOk_ThamLoC, ?_⟩
  refine List.forall_mem_cons.2 ⟨coreOk_KhmerLoC, ?_⟩
  refine List.forall_mem_cons.2 ⟨coreOk_ShanLoC, ?_⟩
  refine List.forall_mem_cons.2 ⟨coreOk_BengaliRaBa, ?_⟩
  refine List.forall_mem_cons.2 ⟨coreOk_Makasar, ?_⟩
  refine List.forall_mem_cons.2 ⟨coreOk_Nandinagari, ?_⟩
  refine List.forall_mem_cons.2 ⟨coreOk_Kawi, ?_⟩
  refine List.forall_mem_cons.2 ⟨coreOk_Pallava, ?_⟩
  refine List.forall_mem_cons.2 ⟨coreOk_LaoTham, ?_⟩
  refine List.forall_mem_cons.2 ⟨coreOk_LueTham, ?_⟩
  refine List.forall_mem_cons.2 ⟨coreOk_KhuenTham, ?_⟩
  refine List.forall_mem_cons.2 ⟨coreOk_TamilExtended, ?_⟩
  refine List.forall_mem_cons.2 ⟨coreOk_Marchen, ?_⟩
  refine List.forall_mem_cons.2 ⟨coreOk_MasaramGondi, ?_⟩
  refine List.forall_mem_cons.2 ⟨coreOk_GunjalaGondi, ?_⟩
  refine List.forall_mem_cons.2 ⟨coreOk_Soyombo, ?_⟩
  refine List.forall_mem_cons.2 ⟨coreOk_Dogra, ?_⟩
  refine List.forall_mem_cons.2 ⟨coreOk_KhomThai, ?_⟩
  refine List.forall_mem_cons.2 ⟨coreOk_KhamtiShan, ?_⟩
  refine List.forall_mem_cons.2 ⟨coreOk_TaiLaing, ?_⟩
  refine List.forall_mem_cons.2 ⟨coreOk_Mon, ?_⟩
  refine List.forall_mem_cons.2 ⟨coreOk_Khojki, ?_⟩
  refine List.forall_mem_cons.2 ⟨coreOk_Shan, ?_⟩
  refine List.forall_mem_cons.2 ⟨coreOk_Ranjana, ?_⟩
  refine List.forall_mem_cons.2 ⟨coreOk_ZanabazarSquare, ?_⟩
  refine List.forall_mem_cons.2 ⟨coreOk_Rejang, ?_⟩
  refine List.forall_mem_cons.2 ⟨coreOk_GranthaGrantamil, ?_⟩
  refine List.forall_mem_cons.2 ⟨coreOk_Devanagari, ?_⟩
  refine List.forall_mem_cons.2 ⟨coreOk_Multani, ?_⟩
  refine List.forall_mem_cons.2 ⟨coreOk_Ahom, ?_⟩
  refine List.forall_mem_cons.2 ⟨coreOk_Mahajani, ?_⟩
  refine List.forall_mem_cons.2 ⟨coreOk_Hanunoo, ?_⟩
  refine List.forall_mem_cons.2 ⟨coreOk_Buhid, ?_⟩
  refine List.forall_mem_cons.2 ⟨coreOk_Siddham, ?_⟩
  refine List.forall_mem_cons.2 ⟨coreOk_SiddhamDevanagari, ?_⟩
  refine List.forall_mem_cons.2 ⟨coreOk_GranthaPandya, ?_⟩
  refine List.forall_mem_cons.2 ⟨coreOk_Vatteluttu, ?_⟩
  refine List.forall_mem_cons.2 ⟨coreOk_Khudawadi, ?_⟩
  refine List.forall_mem_cons.2 ⟨coreOk_Bhaiksuki, ?_⟩
  refine List.forall_mem_cons.2 ⟨coreOk_Sharada, ?_⟩
  refine List.forall_mem_cons.2 ⟨coreOk_Newa, ?_⟩
  refine List.forall_mem_cons.2 ⟨coreOk_Takri, ?_⟩
  refine List.forall_mem_cons.2 ⟨coreOk_SylotiNagri, ?_⟩
  refine List.forall_mem_cons.2 ⟨coreOk_Tirhuta, ?_⟩
  refine List.forall_mem_cons.2 ⟨coreOk_Modi, ?_⟩
  refine List.forall_mem_cons.2 ⟨coreOk_Kaithi, ?_⟩
  refine List.forall_mem_cons.2 ⟨coreOk_Kharoshthi, ?_⟩
  refine List.forall_mem_cons.2 ⟨coreOk_Telugu, ?_⟩
  refine List.forall_mem_cons.2 ⟨coreOk_Kannada, ?_⟩
  refine List.forall_mem_cons.2 ⟨coreOk_Malayalam, ?_⟩
  refine List.forall_mem_cons.2 ⟨coreOk_Gujarati, ?_⟩
  refine List.forall_mem_cons.2 ⟨coreOk_Bengali, ?_⟩
  refine List.forall_mem_cons.2 ⟨coreOk_Oriya, ?_⟩
  refine List.forall_mem_cons.2 ⟨coreOk_Gurmukhi, ?_⟩
  refine List.forall_mem_cons.2 ⟨coreOk_Tamil, ?_⟩
  refine List.forall_mem_cons.2 ⟨coreOk_Assamese, ?_⟩
  refine List.forall_mem_cons.2 ⟨coreOk_Saurashtra, ?_⟩
  refine List.forall_mem_cons.2 ⟨coreOk_TamilBrahmi, ?_⟩
  refine List.forall_mem_cons.2 ⟨coreOk_Grantha, ?_⟩
  refine List.forall_mem_cons.2 ⟨coreOk_TamilGrantha, ?_⟩
  refine List.forall_mem_cons.2 ⟨coreOk_Sinhala, ?_⟩
  refine List.forall_mem_cons.2 ⟨coreOk_Khmer, ?_⟩
  refine List.forall_mem_cons.2 ⟨coreOk_Burmese, ?_⟩
  refine List.forall_mem_cons.2 ⟨coreOk_Balinese, ?_⟩
  refine List.forall_mem_cons.2 ⟨coreOk_Javanese, ?_⟩
  refine List.forall_mem_cons.2 ⟨coreOk_Tibetan, ?_⟩
  refine List.forall_mem_cons.2 ⟨coreOk_OldPersian, ?_⟩
  refine List.forall_mem_cons.2 ⟨coreOk_Limbu, ?_⟩
  refine List.forall_mem_cons.2 ⟨coreOk_Lepcha, ?_⟩
  refine List.forall_mem_cons.2 ⟨coreOk_Sundanese, ?_⟩
  refine List.forall_mem_cons.2 ⟨coreOk_Tagalog, ?_⟩
  refine List.forall_mem_cons.2 ⟨coreOk_Tagbanwa, ?_⟩
  refine List.forall_mem_cons.2 ⟨coreOk_Buginese, ?_⟩
  refine List.forall_mem_cons.2 ⟨coreOk_Chakma, ?_⟩
  refine List.forall_mem_cons.2 ⟨coreOk_MeeteiMayek, ?_⟩
  refine List.forall_mem_cons.2 ⟨coreOk_BatakKaro, ?_⟩
  refine List.forall_mem_cons.2 ⟨coreOk_BatakPakpak, ?_⟩
  refine List.forall_mem_cons.2 ⟨coreOk_BatakSima, ?_⟩
  refine List.forall_mem_cons.2 ⟨coreOk_BatakToba, ?_⟩
  refine List.forall_mem_cons.2 ⟨coreOk_BatakManda, ?_⟩
  refine List.forall_mem_cons.2 ⟨coreOk_Cham, ?_⟩
  refine List.forall_mem_cons.2 ⟨coreOk_TaiTham, ?_⟩
  refine List.forall_mem_cons.2 ⟨coreOk_Brahmi, ?_⟩
  exact List.forall_mem_nil _

end Verif
