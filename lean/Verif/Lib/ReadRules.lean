import Verif.Lib.RomanStages

/-!
# What is checked of the letters of a romanisation that is read
-/

namespace Verif

/-- The first entry of a key. -/
def findKey (x : PyStr) : List (PyStr × PyStr) → Option PyStr
  | [] => none
  | p :: L => match strEq x p.1 with | true => some p.2 | false => findKey x L

theorem findKey_eq (x : PyStr) (L : List (PyStr × PyStr)) : L.lookup x = findKey x L := by
  induction L with
  | nil => rfl
  | cons p L ih =>
    obtain ⟨k, o⟩ := p
    cases h : strEq x k with
    | true =>
      have := strEq_iff.1 h
      subst this
      simp [findKey, List.lookup, h]
    | false =>
      have : (x == k) = false := by
        rw [beq_eq_false_iff_ne]; exact strEq_false.1 h
      simp [findKey, List.lookup, h, this, ih]

/-- The first entry of the key is this one. -/
def keyIs (L : List (PyStr × PyStr)) (x o : PyStr) : Bool :=
  match findKey x L with
  | some o' => strEq o o'
  | none => false

/-- There is no entry of the key. -/
def noKey (L : List (PyStr × PyStr)) (x : PyStr) : Bool :=
  match findKey x L with
  | some _ => false
  | none => true

theorem keyIs_iff {L : List (PyStr × PyStr)} {x o : PyStr} (h : keyIs L x o = true) : L.lookup x = some o := by
  rw [findKey_eq]
  unfold keyIs at h
  split at h
  · rename_i o' ho; rw [strEq_iff.1 h]; exact ho
  · cases h

theorem noKey_iff {L : List (PyStr × PyStr)} {x : PyStr} (h : noKey L x = true) : L.lookup x = none := by
  rw [findKey_eq]
  unfold noKey at h
  split at h
  · cases h
  · assumption

/-- The spelling of the section is covered and can be read. -/
def readCovered (r : RomanEntry) (s : Sec) (y : PyStr) : Bool :=
  match soundOf s y with
  | .cons y => strMem y r.conss
  | .vowel y => strMem y r.vowels
  | .sign y => strMem y r.vowels
  | .mark y => strMem y r.marks && !(strMem y r.conss)
  | _ => false

def isNuktaSec : Sec → Bool
  | .NuktaMap => true
  | _ => false

/-- The characters of the intermediate alphabet. -/
def interChars : PyStr := cDep :: cSep :: cVir :: interK.N :: interK.A :: (interK.C ++ (interK.V ++ interKeys.flatten))

def readRulesAt (r : RomanEntry) (L : List (PyStr × PyStr)) (k m : Nat) : Bool :=
  L.all (fun p => !(p.1.isEmpty) && p.1.all (fun c => !(isNeutral c)) && !(p.2.isEmpty) && p.2.all fun c => !(maskMem k c)) &&
  letterSecs.all (fun s => ((modAttr r.script s).zip (modAttr GM.Inter s)).all fun p =>
    match readCovered r s p.1 with | true => keyIs L p.1 p.2 && !(isNuktaSec s) | false => true) &&
  keyIs L (inherentA r.script) [interK.A] && noKey L [cSep] &&
  r.free.all fun c => natMem c r.oneWay || (noKey L [c] && !(maskMem m c))

/-- The letters of the romanisation. -/
def readRulesOk (r : RomanEntry) : Bool :=
  withNat (maskOf ((interPairs r.script).flatMap Prod.fst)) fun k => withNat (maskOf interChars) fun m =>
    readRulesAt r (interPairs r.script) k m

end Verif
