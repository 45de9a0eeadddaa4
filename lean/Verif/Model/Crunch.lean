import Verif.Model.Tables
import Verif.Model.GM

/-!
# `ScriptPath`, `CrunchSymbols`, `CrunchList` (GeneralMap.py:12-37)
-/

namespace Verif

/-- The module of a script, if it exists. -/
def tblOf (script : PyStr) : Option Tbl := dictGet? scriptTables script

/-- All letters of the given sections. -/
def Tbl.crunch (t : Tbl) : List Sec → List PyStr
  | [] => []
  | s :: l => t.get s ++ t.crunch l

/-- GeneralMap.py:25-27 `CrunchSymbols(Part, Script)`.  `ScriptPath` returns `None` for an
unknown script, on which `importlib.import_module` raises `AttributeError`; a listed script
without module (`RomanLoC`) raises `ModuleNotFoundError`. -/
def crunchSymbols (part : List Sec) (script : PyStr) : Gen (List PyStr) :=
  match tblOf script with
  | some t => fun k => k (t.crunch part)
  | none =>
    match pyIn script GM.Roman with
    | true => fail .external
    | false => fail .attributeError

/-- GeneralMap.py:29-37 `CrunchList(List, Script)`.  On an unknown script it logs and returns
`''`; indexing that raises `IndexError`, which is also what indexing the empty list does here.
(Simplification: `'' + list` would raise `TypeError` in Python.) -/
def crunchList (s : Sec) (script : PyStr) : Gen (List PyStr) :=
  match tblOf script with
  | some t => fun k => k (t.get s)
  | none => fun k => k []

/-- A variable of a script module imported by name (`Tamil.Aytham`); the modules so used all
exist (a missing one would be the empty list here). -/
def modAttr (script : PyStr) (s : Sec) : List PyStr :=
  match tblOf script with
  | some t => t.get s
  | none => []

/-- Python's three-argument `zip`. -/
def pyZip3 {α β γ : Type} (a : List α) (b : List β) (c : List γ) : List (α × β × γ) := a.zip (b.zip c)

end Verif
