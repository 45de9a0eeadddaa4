import Verif.Lib.Basic

/-!
# Linear generators

A generator that hands its continuation one value, once, at the end.  Its program followed by
something is the concatenation of the programs, so conversions can be analysed piece by piece.
-/

namespace Verif

/-- Value or exception at the end of a generator. -/
def finish {α : Type} (o : Except Exn α) (k : α → Prog) : Prog :=
  match o with
  | .ok a => k a
  | .error e => .fail e

/-- The generator emits a fixed program and then hands over a value (or raises). -/
def Lin {α : Type} (g : Gen α) : Prop := ∃ (p : Prog) (o : Except Exn α), ∀ k, g k = p.append (finish o k)

theorem Lin.pure {α : Type} (a : α) : Lin (Pure.pure a : Gen α) := ⟨.done, .ok a, fun _ => rfl⟩

theorem Lin.bind {α β : Type} {x : Gen α} {f : α → Gen β} (hx : Lin x) (hf : ∀ a, Lin (f a)) :
    Lin (x >>= f) := by
  obtain ⟨p, o, hp⟩ := hx
  cases o with
  | error e => exact ⟨p, .error e, fun k => hp _⟩
  | ok a =>
    obtain ⟨q, o', hq⟩ := hf a
    refine ⟨p.append q, o', fun k => ?_⟩
    rw [Prog.append_assoc, ← hq]
    exact hp _

theorem Lin.branch {α : Type} {c : Bool} {t e : Gen α} (ht : Lin t) (he : Lin e) :
    Lin (branch c t e) := by cases c <;> assumption

theorem Lin.forEach {α : Type} {l : List α} {f : α → Gen Unit} (h : ∀ a, Lin (f a)) :
    Lin (forEach l f) := by
  induction l with
  | nil => exact Lin.pure ()
  | cons x l ih => exact Lin.bind (h x) fun _ => ih

theorem Lin.pmap {α β : Type} {l : List α} {f : α → Gen β} (h : ∀ a, Lin (f a)) :
    Lin (pmap l f) := by
  induction l with
  | nil => exact Lin.pure []
  | cons x l ih => exact Lin.bind (h x) fun b => Lin.bind ih fun bs => Lin.pure (b :: bs)

theorem Lin.replace (x y : PyStr) : Lin (replace x y) := ⟨.rep x y .done, .ok (), fun _ => rfl⟩
theorem Lin.reSub (x y : PyStr) : Lin (reSub x y) := ⟨.sub x y .done, .ok (), fun _ => rfl⟩
theorem Lin.append (y : PyStr) : Lin (append y) := ⟨.app y .done, .ok (), fun _ => rfl⟩
theorem Lin.prepend (y : PyStr) : Lin (prepend y) := ⟨.pre y .done, .ok (), fun _ => rfl⟩
theorem Lin.setTo (y : PyStr) : Lin (setTo y) := ⟨.set y .done, .ok (), fun _ => rfl⟩
theorem Lin.host (h : Host) : Lin (host h) := ⟨.host h .done, .ok (), fun _ => rfl⟩
theorem Lin.native (f : Native) : Lin (native f) := ⟨.nat f .done, .ok (), fun _ => rfl⟩
theorem Lin.fail {α : Type} (e : Exn) : Lin (fail e : Gen α) := ⟨.done, .error e, fun _ => rfl⟩
theorem Lin.whenDyn (c : Cond) (t e : Gen Unit) : Lin (whenDyn c t e) :=
  ⟨.ite c (t fun _ => .done) (e fun _ => .done) .done, .ok (), fun _ => rfl⟩
theorem Lin.tryAttr (g : Gen Unit) : Lin (tryAttr g) :=
  ⟨.attempt (g fun _ => .done) .done, .ok (), fun _ => rfl⟩
theorem Lin.onEvens (sep : PyStr) (g : Gen Unit) : Lin (onEvens sep g) :=
  ⟨.evens sep (g fun _ => .done) .done, .ok (), fun _ => rfl⟩
theorem Lin.index {α : Type} (l : List α) (i : Int) : Lin (index l i) := by
  unfold Verif.index
  split
  · exact Lin.pure _
  · exact Lin.fail _
theorem Lin.indexChar (l : PyStr) (i : Int) : Lin (indexChar l i) := by
  unfold Verif.indexChar
  split
  · exact Lin.pure _
  · exact Lin.fail _
theorem Lin.dictGet {β : Type} (d : List (PyStr × β)) (x : PyStr) : Lin (dictGet d x) := by
  unfold Verif.dictGet
  split
  · exact Lin.pure _
  · exact Lin.fail _
theorem Lin.staticReSub (p t s : PyStr) : Lin (staticReSub p t s) := by
  unfold Verif.staticReSub
  split
  · exact Lin.pure _
  · exact Lin.fail _
theorem Lin.crunchSymbols (part : List Sec) (x : PyStr) : Lin (crunchSymbols part x) := by
  unfold Verif.crunchSymbols
  split
  · exact Lin.pure _
  · split <;> exact Lin.fail _
theorem Lin.crunchList (s : Sec) (x : PyStr) : Lin (crunchList s x) := by
  unfold Verif.crunchList
  split <;> exact Lin.pure _

/-- What linearity is for. -/
theorem Lin.split {g : Gen Unit} (h : Lin g) (k : Unit → Prog) : g k = g.prog.append (k ()) := by
  obtain ⟨p, o, hp⟩ := h
  unfold Gen.prog
  rw [hp, hp, Prog.append_assoc]
  cases o <;> rfl

/-- The program of a sequence is the concatenation of the programs. -/
theorem Lin.prog_seq {g h : Gen Unit} (hg : Lin g) : (g >>= fun _ => h).prog = g.prog.append h.prog :=
  hg.split _

open Lean Parser Tactic in
/-- Decide linearity by structure. -/
macro "lin" : tactic => `(tactic| repeat' (with_reducible first
  | apply Lin.bind | apply Lin.branch
  | apply Lin.replace | apply Lin.pure | apply Lin.reSub | apply Lin.append
  | apply Lin.prepend | apply Lin.setTo | apply Lin.host | apply Lin.native | apply Lin.fail
  | apply Lin.whenDyn | apply Lin.tryAttr | apply Lin.onEvens | apply Lin.index
  | apply Lin.indexChar | apply Lin.dictGet | apply Lin.staticReSub
  | apply Lin.crunchSymbols | apply Lin.crunchList
  | apply Lin.forEach | apply Lin.pmap | intro _ ))

theorem lin_vedicNonDiacritic : Lin ConvertFix.VedicSvarasNonDiacritic := by
  unfold ConvertFix.VedicSvarasNonDiacritic; lin

theorem lin_normalize (s : PyStr) : Lin (PreProcess.normalize s) := by
  unfold PreProcess.normalize; lin

theorem lin_preProcess (s t : PyStr) (a b : List PyStr) : Lin (PreProcess.PreProcess s t a b) := by
  unfold PreProcess.PreProcess
  lin
  · exact lin_vedicNonDiacritic
  · exact lin_normalize s

end Verif
