import Verif.Lib.LineParts
import Verif.Spec.Lines

/-!
# The checks per script for working part by part
-/

namespace Verif

/-- The vertical bar is watched for the sources in which it is written for the full stop. -/
def barOf (S : PyStr) : List Nat :=
  match pyIn S GM.pipeScripts with
  | true => [124]
  | false => []

/-- Input normalisation and the source's rules work part by part on texts without `W`. -/
def lineFirstOk (W zs : List Nat) (S : PyStr) (kd : Kind) : Bool :=
  preReps.all (fun r => (PreProcess.PreProcess S r [] []).prog.dropLower.calm W zs) && (headPieces S kd).prog.calm W zs

/-- What depends on the source when Om is not looked for. -/
def srcFirst (zs : List Nat) (S : PyStr) : Bool :=
  hasTbl S && hasHead .OmMap S && allLetters (linesAna zs).src S &&
  (match pyIn S GM.LatinScripts with
  | true => lineFirstOk (barOf S) zs S .LL
  | false => (linesAna zs).src (headSec .OmMap S) && lineFirstOk [] zs S .II)

/-- What depends on the source when Om is looked for and `c` is not in the text. -/
def srcOm (zs : List Nat) (S : PyStr) (c : Nat) : Bool :=
  match pyIn S GM.LatinScripts with
  | true =>
    lineFirstOk (c :: barOf S) zs S .LI &&
    (omSubs (omPunc (lettersOf S GM.Signs)) (headSec .OmMap S) []).prog.dormant (c :: barOf S) &&
    (omSubs (u! "(\\s)") (headSec .OmMap S) []).prog.dormant (c :: barOf S)
  | false =>
    lineFirstOk [c] zs S .II &&
    (omSubs (omPunc (lettersOf S GM.Signs)) (headSec .OmMap S) []).prog.dormant [c]

/-- The separators around which the source works part by part. -/
def srcEdges (S : PyStr) : List Nat :=
  match strMem S (crossSources newline), strMem S (crossSources blank) with
  | true, _ => []
  | false, true => [newline]
  | false, false => [newline, blank]

/-- The separators around which the target works part by part. -/
def tgtEdges (T : PyStr) : List Nat :=
  match strMem T (crossTargets newline), strMem T (crossTargets blank) with
  | true, _ => []
  | false, true => [newline]
  | false, false => [newline, blank]

/-- Om is written with one character of an Indic script. -/
def oneOm (S : PyStr) : Bool := !(pyIn S GM.LatinScripts) && Nat.beq (headSec .OmMap S).length 1

def srcLines (S : PyStr) : Bool :=
  match srcEdges S with
  | [] => true
  | zs => srcFirst zs S && (oneOm S || (omLetters S).all fun c => Nat.ble 33 c && srcOm zs S c)

def tgtLines (T : PyStr) : Bool :=
  match tgtEdges T with
  | [] => true
  | zs => tgtOk (linesAna zs) T

end Verif
