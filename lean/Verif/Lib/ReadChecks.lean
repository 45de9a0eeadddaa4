import Verif.Lib.Still

/-!
# What is checked of a romanisation that is read
-/

namespace Verif

/-- The characters of romanised text that can be read. -/
def RomanEntry.readChars (r : RomanEntry) : PyStr :=
  (r.conss.flatten ++ (r.vowels.flatten ++ (r.marks.flatten ++ (r.free ++ (cSep :: inherentA r.script))))).filter
    fun c => !(natMem c r.oneWay)

/-- Long vowels written with a combining macron. -/
def looseMacrons : List PyStr := [[97, 0x304], [105, 0x304], [117, 0x304], [101, 0x304], [111, 0x304]]

/-- Sequences that do not occur in readable text. -/
def readAvoid (r : RomanEntry) : List PyStr := romanCodes r.script ++ looseMacrons

/-- The pieces of readable text. -/
def RomanEntry.pieces (r : RomanEntry) : List PyStr :=
  [u! "_"] ++ ([inherentA r.script] ++ (r.conss ++ (r.vowels ++ (r.marks ++ r.free.map fun c => [c]))))

/-- Loose macrons do not occur: no piece begins with the second character or contains both. -/
def macronsOk (r : RomanEntry) : Bool :=
  looseMacrons.all fun f => match f with
    | [_, y] => !(isNeutral y) && r.pieces.all fun p => !(isInfix f p) && (match p with | c :: _ => !(Nat.beq c y) | [] => false)
    | _ => false

/-- Lower-casing and composition. -/
def isCaseOrForm : Host → Bool
  | .lower => true
  | .nfc => true
  | _ => false

/-- They are used where capital letters are read as small ones. -/
def keptHosts (r : RomanEntry) (h : Host) : Bool :=
  match r.oneWay with
  | [] => false
  | _ => isCaseOrForm h

theorem kept_of {E : Env} {r : RomanEntry} (hK : E.KeepsSpelt r) {t x : PyStr} (ht : Spelt r t) (hx : x ∈ [t, r.write t])
    (g : Host) (hg : keptHosts r g = true) : E.host g x = .ok x := by
  unfold keptHosts at hg
  split at hg
  · cases hg
  · rename_i hne
    have := hK (fun h => hne h) t ht x hx
    cases g <;> first | exact this.1 | exact this.2 | cases hg

/-- Before the letters are replaced. -/
def readProgAt (m w : Nat) (r : RomanEntry) (T : PyStr) : Bool :=
  match r.hiatus with
  | [] => (PreProcess.PreProcess r.script T [] []).prog.still (mixSet m) (readAvoid r) (keptHosts r)
  | H => (PreProcess.PreProcess r.script T [] []).prog.applies (mixSet w) [] (mixSet m) (readAvoid r) (keptHosts r)
      (H.map fun p => (p.2, p.1))

def omPatsOk (A : CharSet) (F : List PyStr) (punc om : PyStr) : Bool :=
  patIdle A F (punc ++ om ++ punc) && patIdle A F ((u! "^") ++ om ++ punc) &&
    patIdle A F (punc ++ om ++ (u! "$")) && patIdle A F ((u! "^") ++ om ++ (u! "$"))

/-- The steps before the letters are replaced leave the spelling alone. -/
def readPreOk (r : RomanEntry) : Bool :=
  withNat (maskOf r.readChars) fun m => withNat (maskOf (r.readChars ++ r.hiatus.flatMap Prod.snd)) fun w =>
    readProgAt m w r (u! "Devanagari") && readProgAt m w r (u! "Tamil") &&
    (preLI r.script).prog.still (mixSet m) (readAvoid r) (keptHosts r)

/-- The patterns for Om do not occur. -/
def readOmOk (r : RomanEntry) : Bool :=
  withNat (maskOf r.readChars) fun m =>
    omPatsOk (mixSet m) (readAvoid r) (omPunc (lettersOf r.script GM.Signs)) (headSec .OmMap r.script) &&
    omPatsOk (mixSet m) (readAvoid r) (u! "(\\s)") (headSec .OmMap r.script)

end Verif
