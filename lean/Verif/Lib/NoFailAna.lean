import Verif.Lib.PlainChecks
import Verif.Spec.NoFail

/-!
# The analysis of conversions with options

No exception; with `kp`, neutral characters are kept as well.
-/

namespace Verif

/-- No exception, no new compatibility ideograph, and with `kp` neutral characters kept. -/
def optAna (kp : Bool) : Ana := (goodAna neu kp false).and (noNewAna (guardSet false))

theorem optOk_iff {kp : Bool} {p : Prog} : (optAna kp).ok p = true ↔
    p.safe false = true ∧ (kp = true → p.keeps neu = true) ∧ p.noNew (guardSet false) = true := by
  show (p.good neu kp false && p.noNew (guardSet false)) = true ↔ _
  rw [Bool.and_eq_true, Prog.good_iff]
  constructor
  · rintro ⟨⟨a, b, -⟩, c⟩
    exact ⟨a, b, c⟩
  · rintro ⟨a, b, c⟩
    exact ⟨⟨a, b, fun h => by cases h⟩, c⟩

theorem optOk_of {kp : Bool} {p : Prog} (h : (optAna true).ok p = true) : (optAna kp).ok p = true := by
  rw [optOk_iff] at *
  exact ⟨h.1, fun _ => h.2.1 rfl, h.2.2⟩

end Verif
