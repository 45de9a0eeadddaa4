import Verif.Model.Process

/-!
# Elementary lemmas: strings, generators, programs
-/

namespace Verif

deriving instance DecidableEq for Except

@[simp] theorem Gen.bind_apply {α β : Type} (x : Gen α) (f : α → Gen β) (k : β → Prog) :
    (x >>= f) k = x fun a => f a k := rfl

@[simp] theorem Gen.pure_apply {α : Type} (a : α) (k : α → Prog) : (pure a : Gen α) k = k a := rfl

instance : LawfulMonad Gen := LawfulMonad.mk' Gen
  (id_map := fun _ => rfl) (pure_bind := fun _ _ => rfl) (bind_assoc := fun _ _ _ => rfl)

@[simp] theorem branch_true {α : Type} (t e : Gen α) : branch true t e = t := rfl
@[simp] theorem branch_false {α : Type} (t e : Gen α) : branch false t e = e := rfl

theorem pyEq_eq (a b : PyStr) : pyEq a b = strEq a b := rfl
theorem pyIn_eq (a : PyStr) (l : List PyStr) : pyIn a l = strMem a l := rfl

@[simp] theorem strEq_refl (a : PyStr) : strEq a a = true := strEq_iff.2 rfl

theorem strMem_false {x : PyStr} {l : List PyStr} : strMem x l = false ↔ x ∉ l := by
  rw [← Bool.not_eq_true, strMem_iff]

theorem strEq_comm (a b : PyStr) : strEq a b = strEq b a := by
  rw [Bool.eq_iff_iff, strEq_iff, strEq_iff, eq_comm]

theorem dictGet?_none {β : Type} {d : List (PyStr × β)} {x : PyStr} :
    dictGet? d x = none ↔ ∀ p ∈ d, p.1 ≠ x := by
  induction d with
  | nil => simp [dictGet?]
  | cons p d ih =>
    obtain ⟨a, b⟩ := p
    simp only [dictGet?, List.mem_cons, forall_eq_or_imp]
    cases h : strEq a x with
    | true => simp [strEq_iff.1 h]
    | false => simp [strEq_false.1 h, ih]

theorem dictGet?_some {β : Type} {d : List (PyStr × β)} {x : PyStr} {b : β}
    (h : dictGet? d x = some b) : (x, b) ∈ d := by
  induction d with
  | nil => simp [dictGet?] at h
  | cons p d ih =>
    obtain ⟨a, b'⟩ := p
    simp only [dictGet?] at h
    cases he : strEq a x with
    | true =>
      rw [he] at h
      simp only [cond_true, Option.some.injEq] at h
      simp [← h, strEq_iff.1 he]
    | false =>
      rw [he] at h
      exact List.mem_cons_of_mem _ (ih h)

/-- Running a concatenation of programs. -/
theorem Prog.run_append (E : Env) (p q : Prog) (s : PyStr) :
    (p.append q).run E s = (match p.run E s with
      | .ok s' => q.run E s'
      | .error e => .error e) := by
  induction p generalizing s with
  | done => simp [Prog.append, Prog.run]
  | rep x y k ih => simp [Prog.append, Prog.run, ih]
  | sub p t k ih =>
    simp only [Prog.append, Prog.run]
    cases compileSub p t with
    | none => rfl
    | some rt => exact ih _
  | app y k ih => simp [Prog.append, Prog.run, ih]
  | pre y k ih => simp [Prog.append, Prog.run, ih]
  | set y k ih => simp [Prog.append, Prog.run, ih]
  | ite c t e k _ _ ih =>
    simp only [Prog.append, Prog.run]
    cases c.eval s with
    | true => simp only; cases t.run E s with
      | ok s' => exact ih _
      | error e => rfl
    | false => simp only; cases e.run E s with
      | ok s' => exact ih _
      | error e => rfl
  | attempt p k _ ih =>
    simp only [Prog.append, Prog.run]
    cases p.run E s with
    | ok s' => exact ih _
    | error e => cases e <;> first | exact ih _ | rfl
  | evens sep p k _ ih =>
    simp only [Prog.append, Prog.run]
    cases evensRun (p.run E) true (pySplit s sep) with
    | ok s' => exact ih _
    | error e => rfl
  | host h k ih =>
    simp only [Prog.append, Prog.run]
    cases E.host h s with
    | ok s' => exact ih _
    | error e => rfl
  | nat f k ih => simp [Prog.append, Prog.run, ih]
  | fail e => simp [Prog.append, Prog.run]

theorem Prog.append_assoc (p q r : Prog) : (p.append q).append r = p.append (q.append r) := by
  induction p <;> simp_all [Prog.append]

theorem Prog.append_done (p : Prog) : p.append .done = p := by
  induction p <;> simp_all [Prog.append]

end Verif
