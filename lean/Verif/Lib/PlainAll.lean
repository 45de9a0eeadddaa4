import Verif.Lib.Checks.Src0
import Verif.Lib.Checks.Src1
import Verif.Lib.Checks.Src2
import Verif.Lib.Checks.Src3
import Verif.Lib.Checks.Src4
import Verif.Lib.Checks.Src5
import Verif.Lib.Checks.Src6
import Verif.Lib.Checks.Src7
import Verif.Lib.Checks.Tgt0
import Verif.Lib.Checks.Tgt1
import Verif.Lib.Checks.Tgt2
import Verif.Lib.Checks.Tgt3
import Verif.Lib.Checks.Tgt4
import Verif.Lib.Checks.Tgt5
import Verif.Lib.Checks.Tgt6
import Verif.Lib.Checks.Tgt7
import Verif.Lib.Checks.Tgt8
import Verif.Lib.Checks.Tgt9
import Verif.Lib.Checks.Tgt10
import Verif.Lib.Checks.Tgt11
import Verif.Lib.Checks.Tgt12
import Verif.Lib.Checks.Tgt13

/-!
# All plain scripts pass the checks

Generated by tools/genchecks.py.
-/

namespace Verif

def chunksSrc : List (List PyStr) := [chunkSrc0, chunkSrc1, chunkSrc2, chunkSrc3, chunkSrc4, chunkSrc5, chunkSrc6, chunkSrc7]

theorem chunksSrc_ok : ∀ c ∈ chunksSrc, c.all srcEvery = true := by
  unfold chunksSrc
  refine List.forall_mem_cons.2 ⟨chunkSrc0_ok, ?_⟩
  refine List.forall_mem_cons.2 ⟨chunkSrc1_ok, ?_⟩
  refine List.forall_mem_cons.2 ⟨chunkSrc2_ok, ?_⟩
  refine List.forall_mem_cons.2 ⟨chunkSrc3_ok, ?_⟩
  refine List.forall_mem_cons.2 ⟨chunkSrc4_ok, ?_⟩
  refine List.forall_mem_cons.2 ⟨chunkSrc5_ok, ?_⟩
  refine List.forall_mem_cons.2 ⟨chunkSrc6_ok, ?_⟩
  refine List.forall_mem_cons.2 ⟨chunkSrc7_ok, ?_⟩
  exact fun c hc => nomatch hc

set_option maxRecDepth 1000000 in
theorem chunksSrc_all : (GM.IndicScripts ++ GM.LatinScripts).all (fun S => !(plainSrc S) || chunksSrc.any (strMem S)) = true := by
  decide +kernel

theorem srcEvery_all {S : PyStr} (h : plainSrc S = true) : srcEvery S = true := by
  have hm : S ∈ GM.IndicScripts ++ GM.LatinScripts := by
    simp only [plainSrc, Bool.and_eq_true, Bool.or_eq_true] at h
    exact List.mem_append.2 (h.1.1.1.1.1.1.1.1.1.imp strMem_iff.1 strMem_iff.1)
  have := List.all_eq_true.1 chunksSrc_all S hm
  rw [h] at this
  simp only [Bool.not_true, Bool.false_or, List.any_eq_true] at this
  obtain ⟨c, hc, hS⟩ := this
  exact List.all_eq_true.1 (chunksSrc_ok c hc) S (strMem_iff.1 hS)

def chunksTgt : List (List PyStr) := [chunkTgt0, chunkTgt1, chunkTgt2, chunkTgt3, chunkTgt4, chunkTgt5, chunkTgt6, chunkTgt7, chunkTgt8, chunkTgt9, chunkTgt10, chunkTgt11, chunkTgt12, chunkTgt13]

theorem chunksTgt_ok : ∀ c ∈ chunksTgt, c.all tgtEvery = true := by
  unfold chunksTgt
  refine List.forall_mem_cons.2 ⟨chunkTgt0_ok, ?_⟩
  refine List.forall_mem_cons.2 ⟨chunkTgt1_ok, ?_⟩
  refine List.forall_mem_cons.2 ⟨chunkTgt2_ok, ?_⟩
  refine List.forall_mem_cons.2 ⟨chunkTgt3_ok, ?_⟩
  refine List.forall_mem_cons.2 ⟨chunkTgt4_ok, ?_⟩
  refine List.forall_mem_cons.2 ⟨chunkTgt5_ok, ?_⟩
  refine List.forall_mem_cons.2 ⟨chunkTgt6_ok, ?_⟩
  refine List.forall_mem_cons.2 ⟨chunkTgt7_ok, ?_⟩
  refine List.forall_mem_cons.2 ⟨chunkTgt8_ok, ?_⟩
  refine List.forall_mem_cons.2 ⟨chunkTgt9_ok, ?_⟩
  refine List.forall_mem_cons.2 ⟨chunkTgt10_ok, ?_⟩
  refine List.forall_mem_cons.2 ⟨chunkTgt11_ok, ?_⟩
  refine List.forall_mem_cons.2 ⟨chunkTgt12_ok, ?_⟩
  refine List.forall_mem_cons.2 ⟨chunkTgt13_ok, ?_⟩
  exact fun c hc => nomatch hc

set_option maxRecDepth 1000000 in
theorem chunksTgt_all : (GM.IndicScripts ++ GM.LatinScripts).all (fun S => !(plainTgt S) || chunksTgt.any (strMem S)) = true := by
  decide +kernel

theorem tgtEvery_all {S : PyStr} (h : plainTgt S = true) : tgtEvery S = true := by
  have hm : S ∈ GM.IndicScripts ++ GM.LatinScripts := by
    simp only [plainTgt, Bool.and_eq_true, Bool.or_eq_true] at h
    exact List.mem_append.2 (h.1.1.1.1.1.1.1.1.1.imp strMem_iff.1 strMem_iff.1)
  have := List.all_eq_true.1 chunksTgt_all S hm
  rw [h] at this
  simp only [Bool.not_true, Bool.false_or, List.any_eq_true] at this
  obtain ⟨c, hc, hS⟩ := this
  exact List.all_eq_true.1 (chunksTgt_ok c hc) S (strMem_iff.1 hS)

theorem srcFull_all {S : PyStr} (h : plainSrc S = true) : srcFull S = true := ((Bool.and_eq_true _ _).mp (srcEvery_all h)).1
theorem srcLines_all {S : PyStr} (h : plainSrc S = true) : srcLines S = true := ((Bool.and_eq_true _ _).mp (srcEvery_all h)).2
theorem tgtFull_all {T : PyStr} (h : plainTgt T = true) : tgtFull T = true :=
  ((Bool.and_eq_true _ _).mp ((Bool.and_eq_true _ _).mp (tgtEvery_all h)).1).1
theorem tgtFresh_all {T : PyStr} (h : plainTgt T = true) : tgtFresh T = true :=
  ((Bool.and_eq_true _ _).mp ((Bool.and_eq_true _ _).mp (tgtEvery_all h)).1).2
theorem tgtLines_all {T : PyStr} (h : plainTgt T = true) : tgtLines T = true := ((Bool.and_eq_true _ _).mp (tgtEvery_all h)).2

end Verif
