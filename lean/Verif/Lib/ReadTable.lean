import Verif.Lib.RomanConv
import Verif.Spec.RomanTable
import Verif.Spec.CoreTable

/-!
# Checks of the romanisations that are read
-/

namespace Verif

theorem readOk_all : ∀ r ∈ readTable, readOk r = true := by
  refine List.all_eq_true.1 (?_ : readTable.all readOk = true)
  decide +kernel

theorem readRulesOk_all : ∀ r ∈ readTable, readRulesOk r = true := by
  refine List.all_eq_true.1 (?_ : readTable.all readRulesOk = true)
  decide +kernel

theorem readPreOk_all : ∀ r ∈ readTable, readPreOk r = true := by
  refine List.all_eq_true.1 (?_ : readTable.all readPreOk = true)
  decide +kernel

theorem readOmOk_all : ∀ r ∈ readTable, readOmOk r = true := by
  refine List.all_eq_true.1 (?_ : readTable.all readOmOk = true)
  decide +kernel

theorem readFacts_of {r : RomanEntry} (h : r ∈ readTable) : ReadFacts r :=
  readFacts (readOk_all r h) (readRulesOk_all r h) (readPreOk_all r h)

theorem readTargets_all : ∀ e ∈ coreTable, clearOfInter e = true ∧ shortAlike e = true := by
  have : (coreTable.all fun e => clearOfInter e && shortAlike e) = true := by decide +kernel
  intro e he
  have := List.all_eq_true.1 this e he
  rwa [Bool.and_eq_true] at this

end Verif
