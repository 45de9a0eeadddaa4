import Verif.Core.Prog

/-!
# Letter-table sections and the shape of a script module

Generated by tools/gentables.py.
-/

namespace Verif

/-- The variables of a script module (ScriptMap/**/*.py). -/
inductive Sec where
  | VowelMap
  | SouthVowelMap
  | ModernVowelMap
  | SinhalaVowelMap
  | VowelSignMap
  | SouthVowelSignMap
  | ModernVowelSignMap
  | SinhalaVowelSignMap
  | ViramaMap
  | AyogavahaMap
  | NuktaMap
  | ConsonantMap
  | SouthConsonantMap
  | NuktaConsonantMap
  | SinhalaConsonantMap
  | SignMap
  | NumeralMap
  | Aytham
  | OmMap
  deriving Repr, DecidableEq

/-- A script module: its letter lists. -/
structure Tbl where
  /-- `VowelMap` -/
  VowelMap : List PyStr
  /-- `SouthVowelMap` -/
  SouthVowelMap : List PyStr
  /-- `ModernVowelMap` -/
  ModernVowelMap : List PyStr
  /-- `SinhalaVowelMap` -/
  SinhalaVowelMap : List PyStr
  /-- `VowelSignMap` -/
  VowelSignMap : List PyStr
  /-- `SouthVowelSignMap` -/
  SouthVowelSignMap : List PyStr
  /-- `ModernVowelSignMap` -/
  ModernVowelSignMap : List PyStr
  /-- `SinhalaVowelSignMap` -/
  SinhalaVowelSignMap : List PyStr
  /-- `ViramaMap` -/
  ViramaMap : List PyStr
  /-- `AyogavahaMap` -/
  AyogavahaMap : List PyStr
  /-- `NuktaMap` -/
  NuktaMap : List PyStr
  /-- `ConsonantMap` -/
  ConsonantMap : List PyStr
  /-- `SouthConsonantMap` -/
  SouthConsonantMap : List PyStr
  /-- `NuktaConsonantMap` -/
  NuktaConsonantMap : List PyStr
  /-- `SinhalaConsonantMap` -/
  SinhalaConsonantMap : List PyStr
  /-- `SignMap` -/
  SignMap : List PyStr
  /-- `NumeralMap` -/
  NumeralMap : List PyStr
  /-- `Aytham` -/
  Aytham : List PyStr
  /-- `OmMap` -/
  OmMap : List PyStr
  deriving Repr, DecidableEq

/-- `getattr(module, name)` -/
def Tbl.get (t : Tbl) : Sec → List PyStr
  | .VowelMap => t.VowelMap
  | .SouthVowelMap => t.SouthVowelMap
  | .ModernVowelMap => t.ModernVowelMap
  | .SinhalaVowelMap => t.SinhalaVowelMap
  | .VowelSignMap => t.VowelSignMap
  | .SouthVowelSignMap => t.SouthVowelSignMap
  | .ModernVowelSignMap => t.ModernVowelSignMap
  | .SinhalaVowelSignMap => t.SinhalaVowelSignMap
  | .ViramaMap => t.ViramaMap
  | .AyogavahaMap => t.AyogavahaMap
  | .NuktaMap => t.NuktaMap
  | .ConsonantMap => t.ConsonantMap
  | .SouthConsonantMap => t.SouthConsonantMap
  | .NuktaConsonantMap => t.NuktaConsonantMap
  | .SinhalaConsonantMap => t.SinhalaConsonantMap
  | .SignMap => t.SignMap
  | .NumeralMap => t.NumeralMap
  | .Aytham => t.Aytham
  | .OmMap => t.OmMap

end Verif
