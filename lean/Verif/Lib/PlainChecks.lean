import Verif.Lib.FreshAna
import Verif.Lib.LineChecks
import Verif.Spec.Neutral
import Verif.Spec.Markers

/-!
# The checks made once per script
-/

namespace Verif

/-- Both analyses: exceptions, neutral characters; no new U+F000 or
compatibility ideograph. -/
def mainAna (kp inr : Bool) : Ana := (goodAna neu kp inr).and (noNewAna (guardSet true))

def srcFull (S : PyStr) : Bool := srcOk (mainAna (!(strMem S loseSrc)) true) S

/-- No watched character is left by `p`. -/
def cleans (l : List Nat) (p : Prog) (d : List Nat) : Bool := (p.dirt (fun c => natMem c l) l d).isEmpty

def tgtFull (T : PyStr) : Bool :=
  tgtOk (mainAna (!(strMem T loseTgt)) true) T &&
  cleans otherMarkers (finishT T true).prog [] && cleans otherMarkers (finishT T false).prog [] &&
  (match pyEq T (u! "Tamil") with
    | true => cleans removableDiacritics.tail (finishT T true).prog removableDiacritics.tail
    | false => cleans removableDiacritics (finishT T true).prog removableDiacritics) &&
  (match pyIn T GM.IndicScripts with
    | true => true
    | false => cleans [inherentMarker] (headIL T).prog [inherentMarker])

/-- All checks of a source.  They are made together because the programs are then computed once. -/
def srcEvery (S : PyStr) : Bool := srcFull S && srcLines S

/-- All checks of a target. -/
def tgtEvery (T : PyStr) : Bool := tgtFull T && tgtFresh T && tgtLines T

end Verif
