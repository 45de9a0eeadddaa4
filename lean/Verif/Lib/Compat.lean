import Verif.Lib.CoreSound
import Verif.Spec.CoreTable
import Verif.Spec.Clash

/-!
# Which pairs of scripts are compatible
-/

namespace Verif

/-- The letters of one code point. -/
def singles : List PyStr → PyStr
  | [] => []
  | [c] :: l => c :: singles l
  | _ :: l => singles l

def compatOkAt (m : Nat) (S : PyStr) (e : CoreEntry) : Bool :=
  ((letterList S).zip (letterList e.script)).all fun p =>
    match p.1 with
    | [c] => !(maskMem m c) || strEq p.2 [c]
    | _ => true

theorem mem_singles {c : Nat} {l : List PyStr} (h : [c] ∈ l) : c ∈ singles l := by
  induction l with
  | nil => cases h
  | cons x l ih =>
    rcases List.mem_cons.1 h with rfl | hm
    · exact List.mem_cons_self
    · match x, ih with
      | [], ih => exact ih hm
      | [d], ih => exact List.mem_cons_of_mem _ (ih hm)
      | _ :: _ :: _, ih => exact ih hm

theorem maskOf_mem {c : Nat} {l : PyStr} (h : c ∈ l) : (maskOf l).testBit c = true := by
  induction l with
  | nil => cases h
  | cons d l ih =>
    show (maskOf l ||| 1 <<< d).testBit c = true
    rw [Nat.testBit_or, Bool.or_eq_true]
    rcases List.mem_cons.1 h with rfl | h
    · exact .inr (by simp [Nat.testBit_shiftLeft])
    · exact .inl (ih h)

/-- Computes the masks first. -/
def withMasks (f : CoreEntry → PyStr) : List CoreEntry → (List (Nat × CoreEntry) → Bool) → Bool
  | [], k => k []
  | e :: es, k => withNat (maskOf (f e)) fun m => withMasks f es fun r => k ((m, e) :: r)

theorem withMasks_eq (f : CoreEntry → PyStr) (l : List CoreEntry) (k : List (Nat × CoreEntry) → Bool) :
    withMasks f l k = k (l.map fun e => (maskOf (f e), e)) := by
  induction l generalizing k with
  | nil => rfl
  | cons e l ih => rw [withMasks, withNat_eq, ih]; rfl

def isClash (S T : PyStr) : Bool := clashing.any fun p => strEq S p.1 && strMem T p.2

/-- All pairs of scripts at once, by bit masks of their letters. -/
def compatAllOk : Bool :=
  withMasks (fun e => e.letters) coreTable fun Ts =>
    withMasks (fun e => singles (letterList e.script)) coreTable fun Ss =>
      Ss.all fun a => Ts.all fun b =>
        withNat (Nat.land a.1 b.1) fun m =>
          Nat.beq m 0 || strEq a.2.script b.2.script || isClash a.2.script b.2.script || compatOkAt m a.2.script b.2

set_option maxRecDepth 100000 in
theorem compatAll_ok : compatAllOk = true := by decide +kernel

/-- Scripts that agree on shared characters are compatible. -/
theorem compatible_of_agree {a b : CoreEntry} (ha : a ∈ coreTable) (hb : b ∈ coreTable) (hne : a.script ≠ b.script)
    (h : Agree a.script b.script) : Compatible a.script b := by
  have hk := compatAll_ok
  unfold compatAllOk at hk
  rw [withMasks_eq, withMasks_eq, List.all_eq_true] at hk
  have hk := List.all_eq_true.1 (hk _ (List.mem_map_of_mem ha)) _ (List.mem_map_of_mem hb)
  rw [withNat_eq] at hk
  simp only [Bool.or_eq_true, strEq_iff] at hk
  intro d hd y hy
  have h1 := maskOf_mem (mem_singles (zip_mem_left hy))
  have h2 := maskOf_mem hd
  have h5 : (maskOf (singles (letterList a.script)) &&& maskOf b.letters).testBit d = true := by
    rw [Nat.testBit_and, h1, h2]; rfl
  rcases hk with ((hk | hk) | hk) | hk
  · have h4 : maskOf (singles (letterList a.script)) &&& maskOf b.letters = 0 := Nat.eq_of_beq_eq_true hk
    rw [h4] at h5
    simp at h5
  · exact absurd hk hne
  · obtain ⟨p, hp, hc⟩ := List.any_eq_true.1 hk
    rw [Bool.and_eq_true, strEq_iff, strMem_iff] at hc
    exact absurd hc.2 (h p.2 (by rw [hc.1]; exact hp))
  · have h3 := List.all_eq_true.1 hk _ hy
    have h6 : maskMem (maskOf (singles (letterList a.script)) &&& maskOf b.letters) d = true := by rw [maskMem_eq, h5]
    simp only [Bool.or_eq_true, Bool.not_eq_true'] at h3
    rcases h3 with h3 | h3
    · have h3 : maskMem (maskOf (singles (letterList a.script)) &&& maskOf b.letters) d = false := h3
      rw [h6] at h3; cases h3
    · exact strEq_iff.1 h3

end Verif
