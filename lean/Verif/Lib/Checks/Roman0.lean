import Verif.Lib.RomanOut
import Verif.Spec.CoreTable

namespace Verif

theorem romanOk_SLP1 : romanOk romanSLP1 = true := by decide +kernel
theorem romanOk_WX : romanOk romanWX = true := by decide +kernel
theorem romanOk_HK : romanOk romanHK = true := by decide +kernel
theorem romanOk_IAST : romanOk romanIAST = true := by decide +kernel
theorem romanOk_IASTPali : romanOk romanIASTPali = true := by decide +kernel
theorem romanOk_ISO : romanOk romanISO = true := by decide +kernel
theorem romanOk_ISOPali : romanOk romanISOPali = true := by decide +kernel
theorem romanOk_Titus : romanOk romanTitus = true := by decide +kernel
theorem romanOk_Aksharaa : romanOk romanAksharaa = true := by decide +kernel
theorem romanOk_Velthuis : romanOk romanVelthuis = true := by decide +kernel
theorem romanOk_Itrans : romanOk romanItrans = true := by decide +kernel

theorem romanOk_all : ∀ r ∈ romanTable, romanOk r = true := by
  unfold romanTable
  refine List.forall_mem_cons.2 ⟨romanOk_SLP1, ?_⟩
  refine List.forall_mem_cons.2 ⟨romanOk_WX, ?_⟩
  refine List.forall_mem_cons.2 ⟨romanOk_HK, ?_⟩
  refine List.forall_mem_cons.2 ⟨romanOk_IAST, ?_⟩
  refine List.forall_mem_cons.2 ⟨romanOk_IASTPali, ?_⟩
  refine List.forall_mem_cons.2 ⟨romanOk_ISO, ?_⟩
  refine List.forall_mem_cons.2 ⟨romanOk_ISOPali, ?_⟩
  refine List.forall_mem_cons.2 ⟨romanOk_Titus, ?_⟩
  refine List.forall_mem_cons.2 ⟨romanOk_Aksharaa, ?_⟩
  refine List.forall_mem_cons.2 ⟨romanOk_Velthuis, ?_⟩
  refine List.forall_mem_cons.2 ⟨romanOk_Itrans, ?_⟩
  exact List.forall_mem_nil _

end Verif
