import Verif.Model.Dispatch
import Verif.Lib.NoFailAna

/-!
# Post-options raise no exception and keep neutral characters, except the listed ones
-/

namespace Verif

set_option maxRecDepth 1000000

set_option Elab.async false

/-- The check of an option. -/
def postFnsOk (p : PyStr × Gen Unit) : Bool :=
  match strMem p.1 failingPost with
  | true => true
  | false => match strMem p.1 externalPost with
    | true => true
    | false => (optAna (!(strMem p.1 movingPost))).ok p.2.prog

theorem postFns_0 : (postFns.take 110).all postFnsOk = true := by decide +kernel
theorem postFns_1 : (postFns.drop 110).all postFnsOk = true := by decide +kernel

theorem postFns_safe : postFns.all postFnsOk = true := by
  rw [← List.take_append_drop 110 postFns, List.all_append, Bool.and_eq_true]
  refine ⟨postFns_0, ?_⟩
  exact postFns_1

end Verif
