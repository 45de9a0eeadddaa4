import Verif.Lib.LineUse

/-!
# Options that work part by part
-/

namespace Verif

/-- The separators around which an option works part by part. -/
def optEdges (o : PyStr) : List Nat :=
  match strMem o specialPost || strMem o crossLineOptions with
  | true => []
  | false =>
    match strMem o crossBlankOptions with
    | true => [newline]
    | false => [newline, blank]

def optLines (p : PyStr × Gen Unit) : Bool :=
  match optEdges p.1 with
  | [] => true
  | zs => p.2.prog.apartL zs

theorem optLines_all : postFns.all optLines = true := by decide +kernel

theorem Prog.apartL_mem {zs : List Nat} {z : Nat} (hz : z ∈ zs) {p : Prog} (h : p.apartL zs = true) : p.apartL [z] = true :=
  (linesAna_le hz).ok h

theorem option_apart {z : Nat} (hz : z = newline ∨ z = blank) {o : PyStr} (ho : o ∈ names postFns)
    (hs : o ∉ specialPost) (hc : o ∉ crossOptions z) : (callOption postFns o).prog.apartL [z] = true := by
  unfold callOption
  cases hd : dictGet? postFns o with
  | none =>
    obtain ⟨p, hp, rfl⟩ := List.mem_map.1 ho
    exact absurd rfl (dictGet?_none.1 hd p hp)
  | some g =>
    have h := List.all_eq_true.1 optLines_all _ (dictGet?_some hd)
    unfold optLines at h
    have he : z ∈ optEdges o := by
      unfold optEdges
      rcases hz with rfl | rfl
      · have : strMem o crossLineOptions = false := strMem_false.2 hc
        rw [strMem_false.2 hs, this]
        cases strMem o crossBlankOptions <;> simp
      · have hc' : o ∉ crossLineOptions ++ crossBlankOptions := hc
        rw [List.mem_append, not_or] at hc'
        rw [strMem_false.2 hs, strMem_false.2 hc'.1, strMem_false.2 hc'.2]
        simp
    cases hz' : optEdges o with
    | nil => rw [hz'] at he; cases he
    | cons x l =>
      rw [hz'] at h he
      exact Prog.apartL_mem he h

theorem options_apart {z : Nat} (hz : z = newline ∨ z = blank) {post : List PyStr}
    (h : ∀ o ∈ post, o ∈ names postFns ∧ o ∉ specialPost ∧ o ∉ crossOptions z) :
    (forEach post (callOption postFns)).prog.apartL [z] = true := by
  induction post with
  | nil => rfl
  | cons o os ih =>
    show ((callOption postFns o) >>= fun _ => forEach os (callOption postFns)).prog.apartL [z] = true
    obtain ⟨h1, h2, h3⟩ := h o (List.mem_cons_self ..)
    rw [(lin_callOption postFns_lin o).prog_seq]
    exact Prog.apartL_append (option_apart hz h1 h2 h3) (ih fun o' ho' => h o' (List.mem_cons_of_mem _ ho'))

end Verif
