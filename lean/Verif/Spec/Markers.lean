import Verif.Lib.ReBlocked

/-!
# Internal marker characters

Private characters that the conversion functions insert and remove again.
-/

namespace Verif

/-- U+F000: written after every consonant on the way from an Indic to a Roman script. -/
def inherentMarker : Nat := 0xF000

/-- The other markers: U+F001 (vowel sign), U+05CC and U+05CD (appended to Semitic text),
U+02C2 (a shield of the output functions). -/
def otherMarkers : List Nat := [0xF001, 0x05CC, 0x05CD, 0x02C2]

/-- The diacritics that `nativize` promises to remove. -/
def removableDiacritics : List Nat := [0x02BC, 0x02C7, 0x02C6, 0x02D8, 0x00B7]

/-- U+F000 as a set the analyses can use. -/
def onlyF000 : CharSet where
  mem := fun c => Nat.beq c 0xF000
  rangeOut := fun a b => Nat.blt 0xF000 a || Nat.blt b 0xF000
  noSpace := false
  range_sound := by
    intro a b c h h1 h2
    simp only [Bool.or_eq_true, Nat.blt_eq] at h
    cases h3 : Nat.beq c 0xF000 with
    | false => rfl
    | true => rw [Nat.beq_eq] at h3; omega
  space_sound := by simp

end Verif
