import Verif.Model.BaseRegistry
import Verif.Model.FallBack
import Verif.Model.Tables
import Verif.Model.Crunch
import Verif.Model.GM

/-!
# Importing the script modules: `add_additional_chars` (GeneralMap.py:302-340) and the module cache
-/

namespace Verif

/-- The lists of `GM.CharmapLists` (GeneralMap.py:299) as sections. -/
def charmapSecs : List (PyStr × Sec) := [
  ((u! "VowelMap"), .VowelMap), ((u! "VowelSignMap"), .VowelSignMap), ((u! "ConsonantMap"), .ConsonantMap),
  ((u! "SignMap"), .SignMap), ((u! "AyogavahaMap"), .AyogavahaMap), ((u! "ModernVowelMap"), .ModernVowelMap),
  ((u! "ModernVowelSignMap"), .ModernVowelSignMap)]

/-- `getattr(fb, charlist)` (FallBack.py) -/
def fallbackOf : Sec → List FB.Entry
  | .VowelMap => FB.VowelMap
  | .VowelSignMap => FB.VowelSignMap
  | .ConsonantMap => FB.ConsonantMap
  | .SignMap => FB.SignMap
  | .AyogavahaMap => FB.AyogavahaMap
  | .ModernVowelMap => FB.ModernVowelMap
  | .ModernVowelSignMap => FB.ModernVowelSignMap
  | _ => []

/-- `script_char_map[charlist] = l` (the dictionary holds the module's own lists) -/
def Tbl.put (t : Tbl) (l : List PyStr) : Sec → Tbl
  | .VowelMap => { t with VowelMap := l }
  | .VowelSignMap => { t with VowelSignMap := l }
  | .ConsonantMap => { t with ConsonantMap := l }
  | .SignMap => { t with SignMap := l }
  | .AyogavahaMap => { t with AyogavahaMap := l }
  | .ModernVowelMap => { t with ModernVowelMap := l }
  | .ModernVowelSignMap => { t with ModernVowelSignMap := l }
  | _ => t

/-- `l[i]` of a list, `none` for an `IndexError` -/
def listAt (l : List PyStr) (i : Int) : Option PyStr :=
  match i with
  | .ofNat n => l[n]?
  | .negSucc n => match Nat.ble (n + 1) l.length with
    | true => l[l.length - (n + 1)]?
    | false => none

/-- GeneralMap.py:309-337: the letter one FallBack entry adds; `cur` is the list so far, `num` the
position of the entry, `base` the first private code point of the interchange alphabet -/
def additionalChar (script nukta : PyStr) (base : Nat) (cur : List PyStr) (num : Nat) (e : FB.Entry) : Option PyStr :=
  match dictGet? e.given script with
  | some x => some x
  | none =>
    match strEq script (u! "Inter") with
    | true => some [base + num]
    | false =>
      let o := match strMem script GM.ReversibleScripts with
        | true => e.othersRev
        | false => e.othersNonRev
      let first := match o.idx with
        | .negSucc 0 => some []
        | i => listAt cur i
      match first, o.second with
      | some f, none => some f
      | some f, some s => some (f ++ (match strEq s (u! "nukta") with
        | true => nukta
        | false => s))
      | none, _ => none

/-- GeneralMap.py:308-337: the loop over the entries of one list -/
def additionalGo (script nukta : PyStr) (base : Nat) : Nat → List PyStr → List FB.Entry → Option (List PyStr)
  | _, cur, [] => some cur
  | num, cur, e :: es =>
    match additionalChar script nukta base cur num e with
    | some x => additionalGo script nukta base (num + 1) (cur ++ [x]) es
    | none => none

/-- GeneralMap.py:302-337 `add_additional_chars`: every list in turn; `none` when it raises -/
def addAdditionalChars (script : PyStr) : List (PyStr × Sec) → Tbl → Option Tbl
  | [], t => some t
  | (name, s) :: l, t =>
    match dictGet? GM.InterAdd name, t.NuktaMap with
    | some (base :: _), nukta :: _ =>
      match additionalGo script nukta base 0 (t.get s) (fallbackOf s) with
      | some cur => addAdditionalChars script l (t.put cur s)
      | none => none
    | _, _ => none

/-- What executing the module of a script leaves in it: its lists, extended once
(last lines of every ScriptMap/**/*.py). -/
def executeModule (script : PyStr) : Option Tbl :=
  match dictGet? baseTables script with
  | some t => addAdditionalChars script charmapSecs t
  | none => none

/-! ## The module cache -/

/-- `sys.modules`, restricted to the script modules: the modules imported so far with their lists. -/
abbrev Modules := List (PyStr × Tbl)

/-- `importlib.import_module(ScriptPath(script))`: a cached module is not executed again. -/
def importModule (m : Modules) (script : PyStr) : Modules × Option Tbl :=
  match dictGet? m script with
  | some t => (m, some t)
  | none =>
    match executeModule script with
    | some t => ((script, t) :: m, some t)
    | none => (m, none)

/-- A history of imports. -/
def importAll (m : Modules) : List PyStr → Modules
  | [] => m
  | s :: l => importAll (importModule m s).1 l

end Verif
