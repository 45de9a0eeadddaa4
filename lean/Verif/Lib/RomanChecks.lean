import Verif.Lib.Checks.Roman0
import Verif.Lib.Checks.Roman1
import Verif.Lib.Checks.Roman2
import Verif.Lib.Checks.Roman3

/-!
# All checks for romanisations
-/

namespace Verif

theorem preRomanOk_all : ∀ e ∈ coreTable, preRomanOk e = true := by
  unfold coreTable
  refine List.forall_mem_cons.2 ⟨preRomanOk_DivesAkuru, ?_⟩
  refine List.forall_mem_cons.2 ⟨preRomanOk_TibetanLoC, ?_⟩
  refine List.forall_mem_cons.2 ⟨preRomanOk_GurmukhiLoC, ?_⟩
  refine List.forall_mem_cons.2 ⟨preRomanOk_LimbuLoC, ?_⟩
  refine List.forall_mem_cons.2 ⟨preRomanOk_ThamLoC, ?_⟩
  refine List.forall_mem_cons.2 ⟨preRomanOk_KhmerLoC, ?_⟩
  refine List.forall_mem_cons.2 ⟨preRomanOk_ShanLoC, ?_⟩
  refine List.forall_mem_cons.2 ⟨preRomanOk_BengaliRaBa, ?_⟩
  refine List.forall_mem_cons.2 ⟨preRomanOk_Makasar, ?_⟩
  refine List.forall_mem_cons.2 ⟨preRomanOk_Nandinagari, ?_⟩
  refine List.forall_mem_cons.2 ⟨preRomanOk_Kawi, ?_⟩
  refine List.forall_mem_cons.2 ⟨preRomanOk_Pallava, ?_⟩
  refine List.forall_mem_cons.2 ⟨preRomanOk_LaoTham, ?_⟩
  refine List.forall_mem_cons.2 ⟨preRomanOk_LueTham, ?_⟩
  refine List.forall_mem_cons.2 ⟨preRomanOk_KhuenTham, ?_⟩
  refine List.forall_mem_cons.2 ⟨preRomanOk_TamilExtended, ?_⟩
  refine List.forall_mem_cons.2 ⟨preRomanOk_Marchen, ?_⟩
  refine List.forall_mem_cons.2 ⟨preRomanOk_MasaramGondi, ?_⟩
  refine List.forall_mem_cons.2 ⟨preRomanOk_GunjalaGondi, ?_⟩
  refine List.forall_mem_cons.2 ⟨preRomanOk_Soyombo, ?_⟩
  refine List.forall_mem_cons.2 ⟨preRomanOk_Dogra, ?_⟩
  refine List.forall_mem_cons.2 ⟨preRomanOk_KhomThai, ?_⟩
  refine List.forall_mem_cons.2 ⟨preRomanOk_KhamtiShan, ?_⟩
  refine List.forall_mem_cons.2 ⟨preRomanOk_TaiLaing, ?_⟩
  refine List.forall_mem_cons.2 ⟨preRomanOk_Mon, ?_⟩
  refine List.forall_mem_cons.2 ⟨preRomanOk_Khojki, ?_⟩
  refine List.forall_mem_cons.2 ⟨preRomanOk_Shan, ?_⟩
  refine List.forall_mem_cons.2 ⟨preRomanOk_Ranjana, ?_⟩
  refine List.forall_mem_cons.2 ⟨preRomanOk_ZanabazarSquare, ?_⟩
  refine List.forall_mem_cons.2 ⟨preRomanOk_Rejang, ?_⟩
  refine List.forall_mem_cons.2 ⟨preRomanOk_GranthaGrantamil, ?_⟩
  refine List.forall_mem_cons.2 ⟨preRomanOk_Devanagari, ?_⟩
  refine List.forall_mem_cons.2 ⟨preRomanOk_Multani, ?_⟩
  refine List.forall_mem_cons.2 ⟨preRomanOk_Ahom, ?_⟩
  refine List.forall_mem_cons.2 ⟨preRomanOk_Mahajani, ?_⟩
  refine List.forall_mem_cons.2 ⟨preRomanOk_Hanunoo, ?_⟩
  refine List.forall_mem_cons.2 ⟨preRomanOk_Buhid, ?_⟩
  refine List.forall_mem_cons.2 ⟨preRomanOk_Siddham, ?_⟩
  refine List.forall_mem_cons.2 ⟨preRomanOk_SiddhamDevanagari, ?_⟩
  refine List.forall_mem_cons.2 ⟨preRomanOk_GranthaPandya, ?_⟩
  refine List.forall_mem_cons.2 ⟨preRomanOk_Vatteluttu, ?_⟩
  refine List.forall_mem_cons.2 ⟨preRomanOk_Khudawadi, ?_⟩
  refine List.forall_mem_cons.2 ⟨preRomanOk_Bhaiksuki, ?_⟩
  refine List.forall_mem_cons.2 ⟨preRomanOk_Sharada, ?_⟩
  refine List.forall_mem_cons.2 ⟨preRomanOk_Newa, ?_⟩
  refine List.forall_mem_cons.2 ⟨preRomanOk_Takri, ?_⟩
  refine List.forall_mem_cons.2 ⟨preRomanOk_SylotiNagri, ?_⟩
  refine List.forall_mem_cons.2 ⟨preRomanOk_Tirhuta, ?_⟩
  refine List.forall_mem_cons.2 ⟨preRomanOk_Modi, ?_⟩
  refine List.forall_mem_cons.2 ⟨preRomanOk_Kaithi, ?_⟩
  refine List.forall_mem_cons.2 ⟨preRomanOk_Kharoshthi, ?_⟩
  refine List.forall_mem_cons.2 ⟨preRomanOk_Telugu, ?_⟩
  refine List.forall_mem_cons.2 ⟨preRomanOk_Kannada, ?_⟩
  refine List.forall_mem_cons.2 ⟨preRomanOk_Malayalam, ?_⟩
  refine List.forall_mem_cons.2 ⟨preRomanOk_Gujarati, ?_⟩
  refine List.forall_mem_cons.2 ⟨preRomanOk_Bengali, ?_⟩
  refine List.forall_mem_cons.2 ⟨preRomanOk_Oriya, ?_⟩
  refine List.forall_mem_cons.2 ⟨preRomanOk_Gurmukhi, ?_⟩
  refine List.forall_mem_cons.2 ⟨preRomanOk_Tamil, ?_⟩
  refine List.forall_mem_cons.2 ⟨preRomanOk_Assamese, ?_⟩
  refine List.forall_mem_cons.2 ⟨preRomanOk_Saurashtra, ?_⟩
  refine List.forall_mem_cons.2 ⟨preRomanOk_TamilBrahmi, ?_⟩
  refine List.forall_mem_cons.2 ⟨preRomanOk_Grantha, ?_⟩
  refine List.forall_mem_cons.2 ⟨preRomanOk_TamilGrantha, ?_⟩
  refine List.forall_mem_cons.2 ⟨preRomanOk_Sinhala, ?_⟩
  refine List.forall_mem_cons.2 ⟨preRomanOk_Khmer, ?_⟩
  refine List.forall_mem_cons.2 ⟨preRomanOk_Burmese, ?_⟩
  refine List.forall_mem_cons.2 ⟨preRomanOk_Balinese, ?_⟩
  refine List.forall_mem_cons.2 ⟨preRomanOk_Javanese, ?_⟩
  refine List.forall_mem_cons.2 ⟨preRomanOk_Tibetan, ?_⟩
  refine List.forall_mem_cons.2 ⟨preRomanOk_OldPersian, ?_⟩
  refine List.forall_mem_cons.2 ⟨preRomanOk_Limbu, ?_⟩
  refine List.forall_mem_cons.2 ⟨preRomanOk_Lepcha, ?_⟩
  refine List.forall_mem_cons.2 ⟨preRomanOk_Sundanese, ?_⟩
  refine List.forall_mem_cons.2 ⟨preRomanOk_Tagalog, ?_⟩
  refine List.forall_mem_cons.2 ⟨preRomanOk_Tagbanwa, ?_⟩
  refine List.forall_mem_cons.2 ⟨preRomanOk_Buginese, ?_⟩
  refine List.forall_mem_cons.2 ⟨preRomanOk_Chakma, ?_⟩
  refine List.forall_mem_cons.2 ⟨preRomanOk_MeeteiMayek, ?_⟩
  refine List.forall_mem_cons.2 ⟨preRomanOk_BatakKaro, ?_⟩
  refine List.forall_mem_cons.2 ⟨preRomanOk_BatakPakpak, ?_⟩
  refine List.forall_mem_cons.2 ⟨preRomanOk_BatakSima, ?_⟩
  refine List.forall_mem_cons.2 ⟨preRomanOk_BatakToba, ?_⟩
  refine List.forall_mem_cons.2 ⟨preRomanOk_BatakManda, ?_⟩
  refine List.forall_mem_cons.2 ⟨preRomanOk_Cham, ?_⟩
  refine List.forall_mem_cons.2 ⟨preRomanOk_TaiTham, ?_⟩
  refine List.forall_mem_cons.2 ⟨preRomanOk_Brahmi, ?_⟩
  exact List.forall_mem_nil _

end Verif
