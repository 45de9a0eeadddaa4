import Verif.Lib.RomanConv
import Verif.Spec.Itrans

/-!
# ITRANS: what happens before the conversion
-/

namespace Verif

/-! ## Double r and l -/

theorem subGo_never {U : Uni} {r : Re} {tm : List TItem} {s : PyStr} (h : ∀ a b : St, a.whole = s → ¬ r.Steps U a b)
    (fuel : Nat) (adv : Bool) (pre post : PyStr) (h1 : pre.reverse ++ post = s) : subGo U r tm fuel adv pre post = post := by
  induction fuel generalizing adv pre post with
  | zero => rfl
  | succ fuel ih =>
    simp only [subGo]
    split
    · rename_i x hx
      obtain ⟨st, h3, _⟩ := Re.m_steps U r _ _ _ hx
      exact absurd h3 (h ⟨pre, post, []⟩ st h1)
    · cases post with
      | nil => rfl
      | cons c cs =>
        simp only
        rw [ih]
        simpa using h1

theorem reSubC_never {U : Uni} {r : Re} {tm : List TItem} {s : PyStr} (h : ∀ a b : St, a.whole = s → ¬ r.Steps U a b) :
    reSubC U r tm s = s := subGo_never h _ _ _ _ rfl

/-- The patterns for double letters: a vowel, twice the letter, i or I. -/
def doubleRe (V : List ClsItem) (x : Nat) : Re :=
  .seq (.grp 1 (.cls false V)) (.seq (.rep 2 (some 2) true (.grp 2 (.cls false [.rng x x])))
    (.grp 3 (.cls false [.rng 105 105, .rng 73 73])))

theorem rng_self {U : Uni} {x d : Nat} (h : ([ClsItem.rng x x].any (ClsItem.test U d)) ≠ false) : d = x := by
  simp only [List.any_cons, List.any_nil, Bool.or_false, ClsItem.test, ne_eq, Bool.not_eq_false, Bool.and_eq_true,
    Nat.ble_eq] at h
  omega

theorem iter_double {U : Uni} {x : Nat} {n : Nat} {a b : St}
    (h : IterN (Re.Steps U (.grp 2 (.cls false [.rng x x]))) n a b) : a.post = List.replicate n x ++ b.post := by
  induction n generalizing a with
  | zero => cases h; rfl
  | succ n ih =>
    obtain ⟨m, ⟨m', ⟨d, cs, h1, h2, rfl⟩, rfl⟩, h3⟩ := h
    have := ih h3
    rw [h1, rng_self h2, List.replicate_succ, List.cons_append, ← this]

theorem double_steps {U : Uni} {V : List ClsItem} {x : Nat} {a b : St} (h : (doubleRe V x).Steps U a b) :
    [x, x, 105] <:+: a.post ∨ [x, x, 73] <:+: a.post := by
  obtain ⟨m, ⟨m0, ⟨d, cs, h1, -, rfl⟩, rfl⟩, m', ⟨n, hn, h2⟩, m1, ⟨d', cs', h3, h4, rfl⟩, rfl⟩ := h
  have h2 := iter_double h2
  have h2 : cs = List.replicate n x ++ d' :: cs' := by rw [← h3]; exact h2
  have hd : d' = 105 ∨ d' = 73 := by
    simp only [List.any_cons, List.any_nil, Bool.or_false, ClsItem.test, ne_eq, Bool.not_eq_false, Bool.or_eq_true,
      Bool.and_eq_true, Nat.ble_eq] at h4
    omega
  obtain ⟨k, rfl⟩ : ∃ k, n = k + 2 := ⟨n - 2, by omega⟩
  have h5 : a.post = (d :: List.replicate k x) ++ [x, x, d'] ++ cs' := by
    rw [h1, h2, show List.replicate (k + 2) x = List.replicate k x ++ [x, x] by
      exact (List.replicate_append_replicate (n := k) (m := 2)).symm]
    simp
  have h6 : [x, x, d'] <:+: a.post := ⟨_, _, h5.symm⟩
  rcases hd with rfl | rfl
  · exact .inl h6
  · exact .inr h6

theorem double_never {U : Uni} {V : List ClsItem} {x : Nat} {tm : List TItem} {s : PyStr} (h1 : ¬ [x, x, 105] <:+: s)
    (h2 : ¬ [x, x, 73] <:+: s) : reSubC U (doubleRe V x) tm s = s := by
  refine reSubC_never fun a b ha h => ?_
  have hp : a.post <:+: s := by rw [← ha]; exact ⟨a.pre.reverse, [], by simp [St.whole]⟩
  rcases double_steps h with h | h
  · exact h1 (h.trans hp)
  · exact h2 (h.trans hp)

/-! ## kS and kSh -/

theorem kSh_undo {t : PyStr} (h : ∀ a b, t = a ++ (u! "kS") ++ b → b.head? = some 104) :
    pyReplace (pyReplace t (u! "kS") (u! "kSh")) (u! "kShh") (u! "kSh") = t := by
  show pyReplace (pyReplace t [107, 83] [107, 83, 104]) [107, 83, 104, 104] [107, 83, 104] = t
  replace h : ∀ a b, t = a ++ [107, 83] ++ b → b.head? = some 104 := h
  induction hn : t.length using Nat.strongRecOn generalizing t with
  | _ n ih =>
    cases t with
    | nil => rfl
    | cons c cs =>
      rw [pyReplace_cons]
      split
      · rename_i hp
        obtain ⟨w, hw⟩ := hp
        have hw' : w.head? = some 104 := h [] w (by rw [← hw]; rfl)
        obtain ⟨v, rfl⟩ : ∃ v, w = 104 :: v := by
          cases w with
          | nil => cases hw'
          | cons d v => cases hw'; exact ⟨v, rfl⟩
        have hc : c = 107 ∧ cs = 83 :: 104 :: v := by
          simp only [List.cons_append, List.nil_append, List.cons.injEq] at hw
          exact ⟨hw.1.symm, hw.2.symm⟩
        obtain ⟨rfl, rfl⟩ := hc
        have e1 : pyReplace (104 :: v) [107, 83] [107, 83, 104] = 104 :: pyReplace v [107, 83] [107, 83, 104] := by
          rw [pyReplace_cons, if_neg]
          rintro ⟨z, hz⟩
          simp at hz
        show pyReplace ([107, 83, 104] ++ pyReplace (104 :: v) [107, 83] [107, 83, 104]) _ _ = _
        rw [e1]
        show pyReplace (107 :: 83 :: 104 :: 104 :: pyReplace v [107, 83] [107, 83, 104]) _ _ = _
        rw [pyReplace_cons, if_pos ⟨_, rfl⟩]
        have := ih v.length (by rw [← hn]; simp; omega) (fun a b hab => h (107 :: 83 :: 104 :: a) b (by rw [hab]; rfl)) rfl
        show [107, 83, 104] ++ pyReplace (pyReplace v [107, 83] [107, 83, 104]) _ _ = _
        rw [this]
        rfl
      · rename_i hp
        have hrec := ih cs.length (by rw [← hn]; simp) (fun a b hab => h (c :: a) b (by rw [hab]; rfl)) rfl
        rw [pyReplace_cons, if_neg, hrec]
        rintro ⟨z, hz⟩
        simp only [List.cons_append, List.nil_append, List.cons.injEq] at hz
        obtain ⟨rfl, hz⟩ := hz
        cases cs with
        | nil => rw [pyReplace_nil] at hz; cases hz
        | cons d ds =>
          rw [pyReplace_cons] at hz
          split at hz
          · cases hz
          · simp only [List.cons.injEq] at hz
            obtain ⟨rfl, -⟩ := hz
            exact hp ⟨ds, rfl⟩

/-! ## The program -/

/-- `Prog.applies`, with patterns that are known to match nowhere. -/
def Prog.applies2 (A : CharSet) (F : List PyStr) (D : List PyStr) (H : List (PyStr × PyStr)) : Prog → Bool
  | .rep x y k => match (Prog.rep x y k).after H with
    | some q => q.still A F fun _ => false
    | none => match (Prog.rep x y .done).idle A F with | true => k.applies2 A F D H | false => false
  | .sub p t k => match strMem p D with
    | true => k.applies2 A F D H
    | false => match (Prog.sub p t .done).idle A F with | true => k.applies2 A F D H | false => false
  | .ite c t e k => match c.never A F with
    | true => match e.idle A F with | true => k.applies2 A F D H | false => false
    | false => match (Prog.ite c t e .done).idle A F with | true => k.applies2 A F D H | false => false
  | _ => false

theorem Prog.applies2_sound {E : Env} {A : CharSet} {F D : List PyStr} {H : List (PyStr × PyStr)}
    {p : Prog} (h : p.applies2 A F D H = true) {s s' : PyStr} (hs : InCore A F s) (hH : applyRules H s = s)
    (hD : ∀ p ∈ D, ∀ t r tm, compileSub p t = some (r, tm) → reSubC E.uni r tm s = s)
    (hr : p.run E s = .ok s') : s' = s := by
  induction p with
  | rep x y k ih =>
    simp only [Prog.applies2] at h
    split at h
    · rename_i q hq
      rw [Prog.after_run hq, hH] at hr
      exact Prog.still_sound h hs (fun _ h => by cases h) hr
    · split at h
      · rename_i hi; exact ih h (run_rep_idle hi hs hr)
      · cases h
  | sub p t k ih =>
    simp only [Prog.applies2] at h
    split at h
    · rename_i hp
      simp only [Prog.run] at hr
      split at hr
      · cases hr
      · rename_i r tm hc
        rw [hD p (strMem_iff.1 hp) t r tm hc] at hr
        exact ih h hr
    · split at h
      · rename_i hi; exact ih h (run_sub_idle hi hs hr)
      · cases h
  | ite c t e k iht ihe ih =>
    simp only [Prog.applies2] at h
    split at h
    · rename_i hc
      split at h
      · rename_i hi; exact ih h (run_ite_never hc hi hs hr)
      · cases h
    · split at h
      · rename_i hi; exact ih h (run_ite_idle hi hs hr)
      · cases h
  | _ => simp [Prog.applies2] at h

end Verif
