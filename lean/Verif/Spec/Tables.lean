import Verif.Model.Convert

/-!
# Specification: letter tables and replacement rules
-/

namespace Verif

/-- The sections whose letters are converted one for one (all but Om, which is treated apart). -/
def letterSecs : List Sec := [.Aytham, .SignMap, .AyogavahaMap, .NuktaMap, .ViramaMap, .VowelSignMap,
  .SouthVowelSignMap, .ModernVowelSignMap, .SinhalaVowelSignMap, .VowelMap, .SouthVowelMap, .ModernVowelMap,
  .SinhalaVowelMap, .ConsonantMap, .SouthConsonantMap, .NuktaConsonantMap, .SinhalaConsonantMap, .NumeralMap]

/-- The same, without the vowel signs and the virama: a romanisation writes no vowel signs. -/
def romanSecs : List Sec := [.Aytham, .SignMap, .AyogavahaMap, .NuktaMap, .VowelMap, .SouthVowelMap,
  .ModernVowelMap, .SinhalaVowelMap, .ConsonantMap, .SouthConsonantMap, .NuktaConsonantMap,
  .SinhalaConsonantMap, .NumeralMap]

/-- The section of vowel signs and virama. -/
def Sec.sign (s : Sec) : Bool :=
  match s with
  | .ViramaMap | .VowelSignMap | .SouthVowelSignMap | .ModernVowelSignMap | .SinhalaVowelSignMap => true
  | _ => false

/-- The section of independent vowels. -/
def Sec.vowel (s : Sec) : Bool :=
  match s with
  | .VowelMap | .SouthVowelMap | .ModernVowelMap | .SinhalaVowelMap => true
  | _ => false

/-- The section of consonants. -/
def Sec.consonant (s : Sec) : Bool :=
  match s with
  | .ConsonantMap | .SouthConsonantMap | .NuktaConsonantMap | .SinhalaConsonantMap => true
  | _ => false

/-- The letter as it is. -/
def plain (_ : Sec) (x : PyStr) : PyStr := x

/-- Vowel signs marked as dependent. -/
def markSigns (s : Sec) (x : PyStr) : PyStr :=
  match s.sign with
  | true => (u! "ṿ") ++ x
  | false => x

/-- Consonants followed by the schwa marker, vowels preceded by the dependent marker. -/
def markSchwa (s : Sec) (x : PyStr) : PyStr :=
  match s.consonant, s.vowel with
  | true, _ => x ++ [0xF000]
  | false, true => (u! "ṿ") ++ x
  | false, false => x

/-- The rules: the i-th letter of every section of `S` becomes the i-th letter of the same section
of `T`, each letter marked as `f` and `g` say. -/
def rules (secs : List Sec) (f g : Sec → PyStr → PyStr) (S T : PyStr) : List (PyStr × PyStr) :=
  secs.flatMap fun s => ((modAttr S s).zip (modAttr T s)).map fun p => (f s p.1, g s p.2)

/-- Rules with longer left-hand sides come before rules with shorter ones. -/
def LongestFirst (L : List (PyStr × PyStr)) : Prop := L.Pairwise fun p q => q.1.length ≤ p.1.length

/-- No rule takes away a part of the left-hand side of a later rule. -/
def NoShadow (L : List (PyStr × PyStr)) : Prop :=
  L.Pairwise fun p q => p.1 <:+: q.1 → p.1 = q.1

end Verif
