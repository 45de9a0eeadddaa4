import Verif.Model.Dispatch
import Verif.Lib.NoFailAna

/-!
# Pre-options raise no exception and keep neutral characters, except the listed ones
-/

namespace Verif

set_option maxRecDepth 1000000

set_option Elab.async false

/-- The check of an option. -/
def preFnsOk (p : PyStr × Gen Unit) : Bool :=
  match strMem p.1 failingPre with
  | true => true
  | false => match strMem p.1 externalPre with
    | true => true
    | false => (optAna true).ok p.2.prog

theorem preFns_0 : (preFns.take 40).all preFnsOk = true := by decide +kernel
theorem preFns_1 : (preFns.drop 40).all preFnsOk = true := by decide +kernel

theorem preFns_safe : preFns.all preFnsOk = true := by
  rw [← List.take_append_drop 40 preFns, List.all_append, Bool.and_eq_true]
  refine ⟨preFns_0, ?_⟩
  exact preFns_1

end Verif
