import Verif.Spec.RomanTable

/-!
# ITRANS text with parts that are not to be converted
-/

namespace Verif

/-- A text with marked parts: `a₁ ## p₁ ## a₂ ## p₂ ## ... ## z`. -/
def markedText : List (PyStr × PyStr) → PyStr → PyStr
  | [], z => z
  | (a, p) :: l, z => a ++ (u! "##") ++ p ++ (u! "##") ++ markedText l z

/-- The same without the marks. -/
def unmarkedText : List (PyStr × PyStr) → PyStr → PyStr
  | [], z => z
  | (a, p) :: l, z => a ++ p ++ unmarkedText l z

/-- Spellings that ITRANS reads as other spellings of the same letters: aa as A, w as v, ... -/
def itransVariants : List PyStr :=
  us!["O", "aa", "ii", "uu", "RRi", "RRI", "LLi", "LLI", "N^", "JN", "chh", "shh", "x", "GY", ".n", ".m", ".h",
    "AUM", "E", "J", "c.o", "c.e", "ee", "dny", "oo", "w"]

/-- Text in the plain spelling of ITRANS: without variants. -/
structure PlainItrans (t : PyStr) : Prop where
  variants : ∀ f ∈ itransVariants, ¬ f <:+: t
  /-- kS is a variant of kSh -/
  kSh : ∀ a b, t = a ++ (u! "kS") ++ b → b.head? = some 104

end Verif
