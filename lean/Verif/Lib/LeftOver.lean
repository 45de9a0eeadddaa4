import Verif.Spec.LeftOver
import Verif.Lib.PlainUse
import Verif.Lib.UnknownRun
import Verif.Lib.Letterwise
import Verif.Lib.Absent

/-!
# No letter of the source is left
-/

namespace Verif

/-- One character. -/
def onlySet (d : Nat) : CharSet where
  mem c := Nat.beq c d
  rangeOut a b := Nat.blt d a || Nat.blt b d
  noSpace := false
  range_sound := by
    intro a b c h h1 h2
    simp only [Bool.or_eq_true, Nat.blt_eq] at h
    cases he : Nat.beq c d with
    | false => rfl
    | true => have := Nat.eq_of_beq_eq_true he; omega
  space_sound := by intro h; cases h

theorem only_numerals {M : CharSet} {c : Nat} (hc : M.mem c = true) (h : numeralsOut M = true) : numeralsOut (onlySet c) = true := by
  unfold numeralsOut at h ⊢
  split at h
  · rename_i h1 h2 h3
    have key : ∀ {a b}, M.rangeOut a b = true → (onlySet c).rangeOut a b = true := by
      intro a b hr
      show (Nat.blt c a || Nat.blt b c) = true
      simp only [Bool.or_eq_true, Nat.blt_eq]
      by_cases h1 : a ≤ c
      · by_cases h2 : c ≤ b
        · rw [M.range_sound a b c hr h1 h2] at hc; cases hc
        · omega
      · omega
    rw [key h1, key h2, key h3]
  · cases h

theorem only_free {M : CharSet} {c : Nat} (hc : M.mem c = true) {s : PyStr} (hs : freeOf M.mem s = true) :
    freeOf (onlySet c).mem s = true := by
  refine freeOf_mono (fun d hd => ?_) hs
  rw [show d = c from Nat.eq_of_beq_eq_true hd]
  exact hc

theorem Prog.noNew_only {M : CharSet} {c : Nat} (hc : M.mem c = true) {p : Prog} (hp : p.noNew M = true) :
    p.noNew (onlySet c) = true := by
  induction p with
  | done => rfl
  | fail e => rfl
  | ite c t e k iht ihe ih =>
    simp only [Prog.noNew, Bool.and_eq_true] at *
    exact ⟨iht hp.1, ihe hp.2.1, ih hp.2.2⟩
  | rep x y k ih => simp only [Prog.noNew, Bool.and_eq_true] at *; exact ⟨only_free hc hp.1, ih hp.2⟩
  | sub x y k ih => simp only [Prog.noNew, Bool.and_eq_true] at *; exact ⟨only_free hc hp.1, ih hp.2⟩
  | app y k ih => simp only [Prog.noNew, Bool.and_eq_true] at *; exact ⟨only_free hc hp.1, ih hp.2⟩
  | pre y k ih => simp only [Prog.noNew, Bool.and_eq_true] at *; exact ⟨only_free hc hp.1, ih hp.2⟩
  | set y k ih => simp only [Prog.noNew, Bool.and_eq_true] at *; exact ⟨only_free hc hp.1, ih hp.2⟩
  | attempt p k ihp ih => simp only [Prog.noNew, Bool.and_eq_true] at *; exact ⟨ihp hp.1, ih hp.2⟩
  | evens x p k ihp ih => simp only [Prog.noNew, Bool.and_eq_true] at *; exact ⟨ihp hp.1, ih hp.2⟩
  | host x k ih => simp only [Prog.noNew, Bool.and_eq_true] at *; exact ⟨hp.1, ih hp.2⟩
  | nat x k ih => simp only [Prog.noNew, Bool.and_eq_true] at *; exact ⟨only_numerals hc hp.1, ih hp.2⟩

theorem only_le {M : CharSet} {c : Nat} (hc : M.mem c = true) : (noNewAna M).Le (noNewAna (onlySet c)) :=
  ⟨fun h => Prog.noNew_only hc h, fun h => only_free hc h, fun h => only_free hc h⟩

theorem Prog.run_noHost {E E' : Env} (hu : E.uni = E'.uni) {p : Prog} (h : p.noHost = true) : p.run E = p.run E' := by
  induction p with
  | done => rfl
  | fail e => rfl
  | rep x y k ih => funext s; simp only [Prog.noHost] at h; simp only [Prog.run, ih h]
  | sub x y k ih => funext s; simp only [Prog.noHost] at h; simp only [Prog.run, ih h, hu]
  | app y k ih => funext s; simp only [Prog.noHost] at h; simp only [Prog.run, ih h]
  | pre y k ih => funext s; simp only [Prog.noHost] at h; simp only [Prog.run, ih h]
  | set y k ih => funext s; simp only [Prog.noHost] at h; simp only [Prog.run, ih h]
  | nat y k ih => funext s; simp only [Prog.noHost] at h; simp only [Prog.run, ih h, hu]
  | host y k ih => cases h
  | ite c t e k iht ihe ih =>
    simp only [Prog.noHost, Bool.and_eq_true] at h
    funext s
    simp only [Prog.run, ih h.2.2, iht h.1, ihe h.2.1]
  | attempt p k ihp ih =>
    simp only [Prog.noHost, Bool.and_eq_true] at h
    funext s
    simp only [Prog.run, ih h.2, ihp h.1]
  | evens x p k ihp ih =>
    simp only [Prog.noHost, Bool.and_eq_true] at h
    funext s
    simp only [Prog.run, ih h.2, ihp h.1]

theorem fresh_le {M : CharSet} {c : Nat} (hc : M.mem c = true) : (freshAna M).Le (freshAna (onlySet c)) := by
  refine ⟨fun h => ?_, fun h => ?_, fun h => ?_⟩
  · have h := (Bool.and_eq_true _ _).mp h
    exact (Bool.and_eq_true _ _).mpr ⟨(only_le hc).ok h.1, h.2⟩
  · have h := (Bool.and_eq_true _ _).mp h
    exact (Bool.and_eq_true _ _).mpr ⟨(only_le hc).src h.1, h.2⟩
  · have h := (Bool.and_eq_true _ _).mp h
    exact (Bool.and_eq_true _ _).mpr ⟨(only_le hc).tgt h.1, h.2⟩

theorem only_iff {c : Nat} {s : PyStr} : freeOf (onlySet c).mem s = true ↔ c ∉ s := by
  rw [freeOf_all]
  constructor
  · intro h hc
    have : Nat.beq c c = false := h c hc
    rw [Nat.beq_refl] at this
    cases this
  · intro h d hd
    cases hb : Nat.beq d c with
    | false => exact hb
    | true => rw [Nat.eq_of_beq_eq_true hb] at hd; exact absurd hd h

/-- A program that passes does not bring the character in. -/
theorem fresh_run {E : Env} {c : Nat} (h7 : 13 < c) {p : Prog} (h : (freshAna (onlySet c)).ok p = true) {s r : PyStr} (hs : c ∉ s)
    (hr : p.run E s = .ok r) : c ∉ r := by
  have h := (Bool.and_eq_true _ _).mp h
  rw [Prog.run_noHost (E := E) (E' := { E with host := fun _ s => .ok s }) rfl h.2] at hr
  refine only_iff.1 (Prog.noNew_sound (N := onlySet c) ?_ ?_ h.1 (only_iff.2 hs) hr)
  · intro g _ s s' hs' he
    cases he
    exact hs'
  · intro d h1 h2
    cases hb : Nat.beq d c with
    | false => exact hb
    | true => have := Nat.eq_of_beq_eq_true hb; omega

/-! ## Replacing letters -/

theorem rules_keep {c : Nat} {L : List (PyStr × PyStr)} (hL : ∀ p ∈ L, c ∉ p.2) {s : PyStr} (hs : c ∉ s) : c ∉ applyRules L s := by
  induction L generalizing s with
  | nil => exact hs
  | cons p L ih =>
    refine ih (fun q hq => hL q (.tail _ hq)) fun h => ?_
    rcases pyReplace_mem h with h | h
    · exact hs h
    · exact hL p (.head _) h

theorem rules_gone {c : Nat} {y : PyStr} {L : List (PyStr × PyStr)} (hL : ∀ p ∈ L, c ∉ p.2) (h : ([c], y) ∈ L) (s : PyStr) :
    c ∉ applyRules L s := by
  induction L generalizing s with
  | nil => cases h
  | cons p L ih =>
    rcases List.mem_cons.1 h with rfl | h
    · refine rules_keep (fun q hq => hL q (.tail _ hq)) (s := pyReplace s [c] y) fun hc => ?_
      rw [pyReplace_single] at hc
      obtain ⟨d, _, hd⟩ := List.mem_flatMap.1 hc
      split at hd
      · exact hL _ (.head _) hd
      · rename_i hne
        exact hne (List.mem_singleton.1 hd).symm
    · exact ih (fun q hq => hL q (.tail _ hq)) h _

theorem mem_zip_left {α β : Type} {x : α} {l : List α} {l' : List β} (hl : l.length = l'.length) (h : x ∈ l) :
    ∃ y, (x, y) ∈ l.zip l' := by
  induction l generalizing l' with
  | nil => cases h
  | cons a l ih =>
    cases l' with
    | nil => cases hl
    | cons b l' =>
      rcases List.mem_cons.1 h with rfl | h
      · exact ⟨b, .head _⟩
      · obtain ⟨y, hy⟩ := ih (Nat.succ.inj hl) h
        exact ⟨y, .tail _ hy⟩

theorem pairsOf_mem {src tgt : PyStr → List PyStr → List PyStr} {S T : PyStr} {p : PyStr × PyStr} {g : PyStr × List Sec}
    (hg : g ∈ scriptAllGroups) (h : p ∈ (src g.1 (lettersOf S g.2)).zip (tgt g.1 (lettersOf T g.2))) :
    p ∈ pairsOf src tgt S T := by
  refine (sortByKeyDesc_perm _ _).mem_iff.2 (List.mem_flatten.2 ⟨_, List.mem_map.2 ⟨g, hg, rfl⟩, ?_⟩)
  exact (stableSort_perm _ _).mem_iff.2 h

/-- The lists are equally long. -/
def sameLen : List PyStr → List PyStr → Bool
  | [], [] => true
  | _ :: l, _ :: l' => sameLen l l'
  | _, _ => false

theorem sameLen_eq {l l' : List PyStr} (h : sameLen l l' = true) : l.length = l'.length := by
  induction l generalizing l' with
  | nil => cases l' with
    | nil => rfl
    | cons b l' => cases h
  | cons a l ih => cases l' with
    | nil => cases h
    | cons b l' => rw [List.length_cons, List.length_cons, ih h]

/-- The tables have as many letters as those of Devanagari. -/
def sameSize (S : PyStr) : Bool :=
  match tblOf S, tblOf (u! "Devanagari") with
  | some t, some d => letterSecs.all fun s => sameLen (t.get s) (d.get s)
  | _, _ => false

theorem crunch_len {t d : Tbl} {secs : List Sec} (h : ∀ s ∈ secs, sameLen (t.get s) (d.get s) = true) :
    (t.crunch secs).length = (d.crunch secs).length := by
  induction secs with
  | nil => rfl
  | cons s l ih =>
    simp only [Tbl.crunch, List.length_append]
    rw [sameLen_eq (h s (.head _)), ih fun s' hs' => h s' (.tail _ hs')]

theorem sameSize_len {S : PyStr} (h : sameSize S = true) {secs : List Sec} (hs : ∀ s ∈ secs, s ∈ letterSecs) :
    (lettersOf S secs).length = (lettersOf (u! "Devanagari") secs).length := by
  unfold sameSize at h
  unfold lettersOf
  split at h
  · rename_i t d ht hd
    rw [ht, hd]
    exact crunch_len fun s hs' => List.all_eq_true.1 h s (hs s hs')
  · cases h

theorem sameSize_src : (sourceScripts.all sameSize) = true := by decide +kernel
theorem sameSize_tgt : (targetScripts.all sameSize) = true := by decide +kernel
theorem sameSize_inter : sameSize GM.Inter = true := by decide +kernel

theorem size_group {S T : PyStr} (hS : sameSize S = true) (hT : sameSize T = true) {g : PyStr × List Sec} (hg : g ∈ scriptAllGroups) :
    (lettersOf S g.2).length = (lettersOf T g.2).length := by
  have : ∀ g ∈ scriptAllGroups, ∀ s ∈ g.2, s ∈ letterSecs := by decide
  rw [sameSize_len hS (this g hg), sameSize_len hT (this g hg)]

theorem size_inter {S T : PyStr} (hS : sameSize S = true) (hT : sameSize T = true) :
    (lettersOf S interSecs).length = (lettersOf T interSecs).length := by
  have : ∀ s ∈ interSecs, s ∈ letterSecs := by decide
  rw [sameSize_len hS this, sameSize_len hT this]

theorem foreignMem_true {u m c : Nat} (h : maskMem u c = true) (h' : maskMem m c = false) : foreignMem u m c = true := by
  unfold foreignMem
  rw [h, h']
  rfl

end Verif
