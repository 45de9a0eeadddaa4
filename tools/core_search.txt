-- Search for the core letters (copy to a .lean file and run it with lake env lean in /verif/lean).
import Verif.Lib.Letterwise
open Verif
def str (s : PyStr) := String.ofList (s.map Char.ofNat)
structure SS where
  a : List Nat
  F : List PyStr
  rem : List Nat := []
  fails : List String := []
partial def fixP (s : SS) (A : CharSet) : Prog → Option SS
  | .done => none
  | .rep x y k =>
    if dead A s.F x || x == y then fixP s A k else
      match x with
      | [c] => some {s with a := s.a.erase c, rem := c :: s.rem}
      | [] => some {s with fails := s!"rep []" :: s.fails, a := []}
      | _ => some {s with F := s.F ++ [x]}
  | .sub p t k =>
    match compileSub p t with
    | none => none
    | some (r, _) =>
      if r.blocked A then fixP s A k else
      match r.live A s.F with
      | (_, []) => fixP s A k
      | (_, l) =>
        let tails := (l.map (List.drop 1)).eraseDups
        if l.all (fun w => w.length ≥ 3) && tails.length * 8 ≤ l.length then some {s with F := s.F ++ tails}
        else if l.all (fun w => w.length ≥ 2) && l.length ≤ 80 then some {s with F := s.F ++ l.eraseDups}
        else match l.find? (fun w => w.length == 1) with
          | some [c] => some {s with a := s.a.erase c, rem := c :: s.rem}
          | _ =>
            let best := s.a.foldl (fun (b : Nat × Nat) c =>
              let n := (l.filter (fun w => w.contains c)).length
              if n > b.1 && c > 127 then (n, c) else b) (0, 0)
            if best.1 > 0 then some {s with a := s.a.erase best.2, rem := best.2 :: s.rem}
            else some {s with fails := s!"sub {(str p).take 60}→{str t} live {l.length}" :: s.fails, a := []}
  | .app y _ => some {s with fails := s!"app {str y}" :: s.fails, a := []}
  | .pre y _ => some {s with fails := s!"pre {str y}" :: s.fails, a := []}
  | .set y _ => some {s with fails := s!"set {str y}" :: s.fails, a := []}
  | .ite _ t e k => (fixP s A t).orElse fun _ => (fixP s A e).orElse fun _ => fixP s A k
  | .attempt p k => (fixP s A p).orElse fun _ => fixP s A k
  | .evens sep p k => if dead A s.F sep then (fixP s A p).orElse fun _ => fixP s A k else some {s with fails := s!"evens" :: s.fails, a := []}
  | .host _ _ => some {s with fails := s!"host" :: s.fails, a := []}
  | .nat _ k => match (u! "0123456789").find? A.mem with
    | some c => some {s with a := s.a.erase c, rem := c :: s.rem}
    | none => fixP s A k
  | .fail _ => none

def progsOf (S : PyStr) : List Prog :=
  [(PreProcess.PreProcess S (u! "Devanagari") [] []).prog, (PreProcess.PreProcess S (u! "Tamil") [] []).prog, (prefixII S).prog,
   (indicOm (lettersOf S GM.Signs) (headSec .OmMap S) (u! "X")).prog,
   ((lettersOf S letterSecs).filter (·.length ≥ 2)).foldr (fun x k => Prog.rep x [] k) .done,
   (endII S).prog, (finishT S false).prog]

def marker (c : Nat) : Bool := (0x2B0 ≤ c && c ≤ 0x2FF) || (c ≥ 0x0300 && c ≤ 0x036F) || [0x964,0x965,0xB7,0xB2,0xB3,0x2074,0x2019,0x200C,0x200D].contains c

def cands (S : PyStr) : List Nat :=
  let ls := lettersOf S letterSecs
  let drop : List Nat := if S == u! "Malayalam" then [0xD4D] else if S == (u! "Limbu") || S == (u! "LimbuLoC") then [0x193B] else if S == (u! "Soyombo") then [0x11A99] else []
  ls.filterMap fun x => match x with
    | [c] => if c > 127 && !marker c && !drop.contains c && (ls.filter (· == x)).length == 1 then some c else none
    | _ => none

def natPre (S : PyStr) : List Nat := if S == (u! "Bengali") || S == (u! "Assamese") then [0x9AF] else if S == (u! "Oriya") then [0xB2F] else if S == (u! "Tamil") then [0xBA9, 0xBA8] else []
partial def search (ps : List Prog) (s : SS) (fuel : Nat) : SS :=
  if fuel == 0 then {s with fails := "fuel" :: s.fails} else
  match ps.findSome? (fixP s (mixSet (maskOf s.a))) with
  | none => s
  | some s' => if s'.fails.isEmpty then search ps s' (fuel-1) else s'

def esc (s : PyStr) : String :=
  "u! \"" ++ String.join (s.map fun c => if c == 10 then "\\n" else if c == 34 then "\\\"" else if c == 92 then "\\\\" else String.singleton (Char.ofNat c)) ++ "\""
def escs (l : List PyStr) : String :=
  if l.isEmpty then "[]" else "us![" ++ ", ".intercalate (l.map fun s => (esc s).drop 3 |>.toString) ++ "]"

def only : List PyStr := []
def main : IO Unit := do
  let mut out := ""
  let mut chk := ""
  let mut names := #[]
  for S in (if only.isEmpty then GM.IndicScripts else only) do
    if !(sourceScripts.contains S && targetScripts.contains S) then continue
    let c := cands S
    let single := (lettersOf S letterSecs).filterMap fun x => match x with | [d] => some d | _ => none
    let pl := plainChars.filter fun c => !single.contains c
    let s := search (progsOf S) ⟨c ++ pl, (if (headSec .OmMap S).length ≥ 2 then [headSec .OmMap S] else []), [], []⟩ 400
    let core := c.filter s.a.contains
    let np := plainChars.filter fun c => !s.a.contains c
    let n := search [(finishT S true).prog] ⟨s.a.filter (fun c => !(natPre S).contains c), s.F, [], []⟩ 400
    let nd := if n.fails.isEmpty then s.a.filter fun c => !n.a.contains c else []
    let nf := if n.fails.isEmpty then n.F.drop s.F.length else [[]]
    IO.println s!"{str S} cand {c.length} core {core.length} np {repr (str np)} F {s.F.length} fails {s.fails} nat -{nd.length} +{nf.length} {n.fails}"
    -- Thai and Lao write some vowels before the consonant: not letter by letter
    if s.fails.isEmpty && core.length ≥ 10 && !([u! "Thai", u! "Lao", u! "Lao2", u! "LaoPali"].contains S) then
      out := out ++ s!"def core{str S} : CoreEntry where\n  script := {esc S}\n  letters := {esc core}\n  notPlain := {esc np}\n  forbid := {escs s.F}\n  natDrop := {esc nd}\n  natForbid := {escs nf}\n\n"
      chk := chk ++ s!"{str S}\n"
      names := names.push (str S)
  IO.FS.writeFile "/tmp/x/core_out.txt" out
  IO.FS.writeFile "/tmp/x/core_chk.txt" chk
#eval! main
