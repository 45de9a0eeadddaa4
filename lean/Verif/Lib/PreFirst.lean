import Verif.Lib.PlainUse
import Verif.Lib.Absorb

/-!
# Every conversion begins with `PreProcess`
-/

namespace Verif

theorem convert_pre {S T : PyStr} (hS : S ∈ sourceScripts) (hT : T ∈ targetScripts) {nat : Bool} (h : S ≠ T ∨ nat = true) :
    ∃ r ∈ preReps, ∃ q : Prog, (convert S T nat [] []).prog = (PreProcess.PreProcess S r [] []).prog.append q := by
  have pS := src_plain hS
  have pT := tgt_plain hT
  by_cases e : S = T
  · subst e
    have hn : nat = true := h.resolve_left fun h => h rfl
    subst hn
    have e := convert_self pS pT
    rw [e, (lin_preProcess _ _ _ _).prog_seq]
    exact ⟨u! "Devanagari", List.mem_cons_self, _, rfl⟩
  · have fT := tgtFull_all pT
    unfold tgtFull at fT
    simp only [Bool.and_eq_true] at fT
    obtain ⟨kd, hk⟩ := kindOf_plain pS pT
    obtain ⟨-, -, -, h6, -⟩ := tgtOk_tbl fT.1.1.1.1
    obtain ⟨r, hr, hs⟩ := List.any_eq_true.1 h6
    have fS := srcFull_all pS
    unfold srcFull at fS
    rw [convert_pieces fS fT.1.1.1.1 pS pT e hk, preProcess_tgt hs, (lin_preProcess _ _ _ _).prog_seq]
    exact ⟨r, hr, _, rfl⟩

theorem absorbs_append {p q : Prog} {P : Spell} (h : p.absorbs P = true) : (p.append q).absorbs P = true := by
  induction p generalizing P with
  | rep x y k ih =>
    cases P with
    | nil => simp [Prog.absorbs]
    | cons w P =>
      obtain ⟨c, w⟩ := w
      simp only [Prog.append, Prog.absorbs] at h ⊢
      cases e : strEq w x && strEq y [c] with
      | true => rw [e] at h; exact ih h
      | false =>
        rw [e] at h
        simp only [Bool.and_eq_true] at h ⊢
        exact ⟨h.1, ih h.2⟩
  | ite c t e k _ _ ih =>
    cases P with
    | nil => simp [Prog.absorbs]
    | cons w P =>
      simp only [Prog.append, Prog.absorbs, Bool.and_eq_true] at h ⊢
      exact ⟨h.1, ih h.2⟩
  | _ =>
    cases P with
    | nil => simp [Prog.absorbs]
    | cons w P => simp [Prog.absorbs] at h

/-- The program lower-cases the text first. -/
def Prog.lowersFirst : Prog → Bool
  | .host .lower _ => true
  | _ => false

theorem lowersFirst_sound {E : Env} {p q : Prog} (h : p.lowersFirst = true) {s s' : PyStr} (h1 : E.host .lower s = .ok s')
    (h2 : E.host .lower s' = .ok s') : (p.append q).run E s' = (p.append q).run E s := by
  match p, h with
  | .host .lower k, _ => simp only [Prog.append, Prog.run, h1, h2]

end Verif
