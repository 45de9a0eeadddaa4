import Verif.Lib.Absent
import Verif.Lib.Decompose
import Verif.Lib.Sorting

/-!
# The pieces of a conversion

A conversion between two plain scripts is split into pieces that depend on the source only, on
the target only, or are replacements of table letters.
-/

namespace Verif

/-! ## The combined analysis -/

/-- No exception; if `kp`, the members of `N` are kept; if `inr`, texts over `N` are unchanged. -/
def Prog.good (N : CharSet) (kp inr : Bool) (p : Prog) : Bool :=
  match p.safe false with
  | false => false
  | true =>
    match (match kp with | true => p.keeps N | false => true) with
    | false => false
    | true => match inr with | true => p.inert N | false => true

theorem Prog.good_iff {N : CharSet} {kp inr : Bool} {p : Prog} :
    p.good N kp inr = true ↔
      p.safe false = true ∧ (kp = true → p.keeps N = true) ∧ (inr = true → p.inert N = true) := by
  unfold Prog.good
  cases p.safe false <;> cases kp <;> cases inr <;> cases p.keeps N <;> cases p.inert N <;> simp

theorem Prog.safe_append {attr : Bool} {p q : Prog} (hp : p.safe attr = true) (hq : q.safe attr = true) :
    (p.append q).safe attr = true := by
  induction p with
  | done => exact hq
  | rep x y k ih => exact ih hp
  | sub a b k ih =>
    simp only [Prog.safe, Prog.append] at hp ⊢
    cases h : compileSub a b with
    | none => rw [h] at hp; cases hp
    | some rt => rw [h] at hp; exact ih hp
  | app y k ih => exact ih hp
  | pre y k ih => exact ih hp
  | set y k ih => exact ih hp
  | ite c t e k _ _ ih =>
    simp only [Prog.safe, Prog.append] at hp ⊢
    cases h1 : t.safe attr <;> cases h2 : e.safe attr <;> simp_all
  | attempt p k _ ih =>
    simp only [Prog.safe, Prog.append] at hp ⊢
    cases h1 : p.safe true <;> simp_all
  | evens sep p k _ ih =>
    simp only [Prog.safe, Prog.append] at hp ⊢
    cases h1 : p.safe attr <;> simp_all
  | host h k ih =>
    simp only [Prog.safe, Prog.append] at hp ⊢
    cases h1 : h.isUnicode <;> simp_all
  | nat f k ih => exact ih hp
  | fail e => exact hp

theorem Prog.keeps_append {N : CharSet} {p q : Prog} (hp : p.keeps N = true) (hq : q.keeps N = true) :
    (p.append q).keeps N = true := by
  induction p with
  | done => exact hq
  | rep x y k ih =>
    simp only [Prog.keeps, Prog.append] at hp ⊢
    cases h1 : freeOf N.mem x <;> cases h2 : freeOf N.mem y <;> cases h3 : strEq x y <;> simp_all
  | sub a b k ih =>
    simp only [Prog.keeps, Prog.append] at hp ⊢
    cases h : compileSub a b with
    | none => rfl
    | some rt =>
      rw [h] at hp
      simp only at hp ⊢
      cases h1 : subKeeps N rt.1 rt.2 <;> simp_all
  | app y k ih =>
    simp only [Prog.keeps, Prog.append] at hp ⊢
    cases h1 : freeOf N.mem y <;> simp_all
  | pre y k ih =>
    simp only [Prog.keeps, Prog.append] at hp ⊢
    cases h1 : freeOf N.mem y <;> simp_all
  | set y k ih => exact hp
  | ite c t e k _ _ ih =>
    simp only [Prog.keeps, Prog.append] at hp ⊢
    cases h1 : t.keeps N <;> cases h2 : e.keeps N <;> simp_all
  | attempt p k _ ih =>
    simp only [Prog.keeps, Prog.append] at hp ⊢
    cases h1 : p.keeps N <;> simp_all
  | evens sep p k _ ih =>
    cases sep with
    | nil => exact hp
    | cons c sep =>
      simp only [Prog.keeps, Prog.append] at hp ⊢
      cases h1 : freeOf N.mem (c :: sep) <;> cases h2 : p.keeps N <;> simp_all
  | host h k ih =>
    simp only [Prog.keeps, Prog.append] at hp ⊢
    cases h1 : h.isUnicode <;> simp_all
  | nat f k ih =>
    simp only [Prog.keeps, Prog.append] at hp ⊢
    cases h1 : numeralsOut N <;> simp_all
  | fail e => exact hp

theorem Prog.inertM_append {A : CharSet} {p q : Prog} {m : Option PyStr} (hp : p.inertM A m = true)
    (hq : q.inert A = true) : (p.append q).inertM A m = true := by
  induction p generalizing m with
  | done =>
    cases m with
    | none => exact hq
    | some y => simp [Prog.inertM] at hp
  | rep x y k ih =>
    cases m with
    | none =>
      simp only [Prog.inertM, Prog.append] at hp ⊢
      split at hp
      · exact ih hp
      · split at hp
        · cases hp
        · split at hp
          · exact ih hp
          · cases hp
    | some z =>
      simp only [Prog.inertM, Prog.append] at hp ⊢
      split at hp
      · exact ih hp
      · split at hp
        · exact ih hp
        · cases hp
  | sub a b k ih =>
    simp only [Prog.inertM, Prog.append] at hp ⊢
    split at hp
    · rfl
    · cases m with
      | none => simp only at hp ⊢; split at hp; exact hp; exact ih hp
      | some y => simp only at hp ⊢; split at hp; exact hp; exact ih hp
  | app y k ih => exact hp
  | pre y k ih =>
    cases m with
    | none =>
      simp only [Prog.inertM, Prog.append] at hp ⊢
      split at hp
      · exact ih hp
      · cases hp
    | some y => exact hp
  | set y k ih => exact hp
  | ite c t e k _ _ ih =>
    cases m with
    | none =>
      simp only [Prog.inertM, Prog.append] at hp ⊢
      cases h1 : t.inertM A none <;> cases h2 : e.inertM A none <;> simp_all
    | some y => exact hp
  | attempt p k _ ih =>
    cases m with
    | none =>
      simp only [Prog.inertM, Prog.append] at hp ⊢
      cases h1 : p.inertM A none <;> simp_all
    | some y => exact hp
  | evens sep p k _ ih =>
    cases m with
    | none =>
      simp only [Prog.inertM, Prog.append] at hp ⊢
      cases h1 : outside A sep <;> cases h2 : p.inertM A none <;> simp_all
    | some y => exact hp
  | host h k ih =>
    cases m with
    | none =>
      simp only [Prog.inertM, Prog.append] at hp ⊢
      cases h1 : h.isUnicode <;> simp_all
    | some y => exact hp
  | nat f k ih =>
    cases m with
    | none =>
      simp only [Prog.inertM, Prog.append] at hp ⊢
      split at hp
      · cases hp
      · exact ih hp
    | some y => exact hp
  | fail e => exact hp

theorem Prog.inert_append {A : CharSet} {p q : Prog} (hp : p.inert A = true) (hq : q.inert A = true) :
    (p.append q).inert A = true := Prog.inertM_append hp hq

theorem Prog.good_append {N : CharSet} {kp inr : Bool} {p q : Prog} (hp : p.good N kp inr = true)
    (hq : q.good N kp inr = true) : (p.append q).good N kp inr = true := by
  rw [Prog.good_iff] at *
  exact ⟨Prog.safe_append hp.1 hq.1, fun h => Prog.keeps_append (hp.2.1 h) (hq.2.1 h),
    fun h => Prog.inert_append (hp.2.2 h) (hq.2.2 h)⟩

theorem good_done (N : CharSet) (kp inr : Bool) : (Prog.done).good N kp inr = true :=
  Prog.good_iff.2 ⟨rfl, fun _ => rfl, fun _ => rfl⟩

/-! ## Analyses in general -/

/-- What the pieces need to know about an analysis: it accepts concatenations of accepted programs,
replacements of accepted letters, and templates with accepted text added. -/
structure Ana where
  ok : Prog → Bool
  /-- accepted as the text to replace -/
  src : PyStr → Bool
  /-- accepted as the replacement -/
  tgt : PyStr → Bool
  done : ok .done = true
  append : ∀ {p q}, ok p = true → ok q = true → ok (p.append q) = true
  rep : ∀ {x y}, src x = true → tgt y = true → ok (.rep x y .done) = true
  sub_inv : ∀ {a b q}, ok (.sub a b q) = true → ok (.sub a b .done) = true ∧ ok q = true
  sub_insert : ∀ {p a t b}, tgt t = true →
    (∀ ng, ∃ A, parseTmpl ng 0 (a ++ b) = none ∨
      ∃ B, parseTmpl ng 0 (a ++ b) = some (A ++ B) ∧
        parseTmpl ng 0 (a ++ (t ++ b)) = some (A ++ (t.map TItem.lit ++ B))) →
    ok (.sub p (a ++ b) .done) = true → ok (.sub p (a ++ (t ++ b)) .done) = true
  tgt_append : ∀ {x y}, tgt x = true → tgt y = true → tgt (x ++ y) = true
  src_tgt : ∀ {x}, src x = true → tgt x = true
  src_append : ∀ {x y}, src x = true → tgt y = true → src (x ++ y) = true

/-- Sequences of accepted pieces are accepted. -/
theorem Ana.seq (A : Ana) {g h : Gen Unit} (hl : Lin g)
    (hg : A.ok g.prog = true) (hh : A.ok h.prog = true) :
    A.ok (g >>= fun _ => h).prog = true := by
  rw [hl.prog_seq]
  exact A.append hg hh

/-- A letter that occurs in no text over `N` and has no member of `N`. -/
def letterOk (N : CharSet) (x : PyStr) : Bool :=
  match freeOf N.mem x with
  | false => false
  | true => outside N x

theorem letterOk_iff {N : CharSet} {x : PyStr} :
    letterOk N x = true ↔ freeOf N.mem x = true ∧ outside N x = true := by
  unfold letterOk
  cases freeOf N.mem x <;> simp

theorem Lin.replaceAll (l : List (PyStr × PyStr)) : Lin (replaceAll l) :=
  Lin.forEach fun _ => Lin.replace _ _

theorem Ana.forEach (A : Ana) {α : Type} {l : List α} {f : α → Gen Unit}
    (hl : ∀ a ∈ l, Lin (f a)) (h : ∀ a ∈ l, A.ok (f a).prog = true) :
    A.ok (forEach l f).prog = true := by
  induction l with
  | nil => exact A.done
  | cons a l ih =>
    exact A.seq (hl a (by simp)) (h a (by simp))
      (ih (fun b hb => hl b (by simp [hb])) (fun b hb => h b (by simp [hb])))

theorem Ana.replaceAll (A : Ana) {l : List (PyStr × PyStr)}
    (h : ∀ p ∈ l, A.src p.1 = true ∧ A.tgt p.2 = true) : A.ok (replaceAll l).prog = true :=
  A.forEach (fun _ _ => Lin.replace _ _) fun p hp => A.rep (h p hp).1 (h p hp).2

/-! ## Literal text in a template -/

/-- No backslash and no digit: literal in any template. -/
def tmplPlain : PyStr → Bool
  | [] => true
  | c :: s =>
    match Nat.beq c 92 with
    | true => false
    | false => match isDig c with
      | true => false
      | false => tmplPlain s

/-- No backslash: literal in a template when no digit reference comes before. -/
def noSlash : PyStr → Bool
  | [] => true
  | c :: s =>
    match Nat.beq c 92 with
    | true => false
    | false => noSlash s

theorem noSlash_of_plain {t : PyStr} (h : tmplPlain t = true) : noSlash t = true := by
  induction t with
  | nil => rfl
  | cons c t ih =>
    simp only [tmplPlain, noSlash] at h ⊢
    cases h1 : Nat.beq c 92 <;> cases h2 : isDig c <;> simp_all

theorem parseTmpl_noSlash {ng : Nat} {t r : PyStr} (h : noSlash t = true) :
    parseTmpl ng 0 (t ++ r) = (parseTmpl ng 0 r).map (t.map TItem.lit ++ ·) := by
  induction t with
  | nil => cases h : parseTmpl ng 0 r <;> simp [h]
  | cons c t ih =>
    simp only [noSlash] at h
    split at h
    · cases h
    · rename_i hc
      have hc' : c ≠ 92 := fun e => by subst e; simp at hc
      simp only [List.cons_append, parseTmpl, hc', if_false, ih h]
      cases parseTmpl ng 0 r <;> simp

theorem parseTmpl_plain {ng : Nat} {t r : PyStr} (h : tmplPlain t = true) :
    parseTmpl ng 0 (t ++ r) = (parseTmpl ng 0 r).map (t.map TItem.lit ++ ·) :=
  parseTmpl_noSlash (noSlash_of_plain h)

/-- The text does not begin with a digit. -/
def noDigit : PyStr → Bool
  | [] => true
  | c :: _ => !isDig c

theorem parseTmpl_ref {ng d : Nat} {r : PyStr} (hd : isDig d = true) (h0 : d ≠ 48) (hr : noDigit r = true) :
    parseTmpl ng 0 (92 :: d :: r) =
      (if d - 48 ≤ ng then (parseTmpl ng 0 r).map (.ref (d - 48) :: ·) else none) := by
  cases r with
  | nil => simp [parseTmpl, hd, h0]
  | cons e r =>
    have he : isDig e = false := by simpa [noDigit] using hr
    rw [parseTmpl]
    simp only [hd, h0, he, if_true, if_false, Bool.false_eq_true]
    rw [parseTmpl]

theorem noDigit_plain {t r : PyStr} (h : tmplPlain t = true) (hr : noDigit r = true) :
    noDigit (t ++ r) = true := by
  cases t with
  | nil => exact hr
  | cons c t =>
    simp only [tmplPlain] at h
    split at h
    · cases h
    · split at h
      · cases h
      · rename_i h1
        simpa [noDigit] using h1

theorem tmplKeeps_insert {N : CharSet} {r : Re} {o : List Nat} {a b : List TItem} {t : PyStr}
    (ht : freeOf N.mem t = true) :
    tmplKeeps N r o (a ++ (t.map TItem.lit ++ b)) = tmplKeeps N r o (a ++ b) := by
  induction a generalizing o with
  | nil =>
    induction t with
    | nil => rfl
    | cons c t ih =>
      simp only [freeOf] at ht
      split at ht
      · cases ht
      · rename_i hc
        simp only [List.nil_append] at ih
        simp only [List.map_cons, List.cons_append, List.nil_append, tmplKeeps, hc, ih ht]
  | cons x a ih =>
    cases x with
    | lit c => simp only [List.cons_append, tmplKeeps, ih]
    | ref n =>
      cases o with
      | nil => simp only [List.cons_append, tmplKeeps, ih]
      | cons i o => simp only [List.cons_append, tmplKeeps, ih]

/-- A template `a t b` behaves like `a b` if `t` is literal text outside `N`. -/
theorem good_sub_insert {N : CharSet} {kp inr : Bool} {p a t b : PyStr} (ht : freeOf N.mem t = true)
    (hp : ∀ ng, ∃ A, parseTmpl ng 0 (a ++ b) = none ∨
      ∃ B, parseTmpl ng 0 (a ++ b) = some (A ++ B) ∧
        parseTmpl ng 0 (a ++ (t ++ b)) = some (A ++ (t.map TItem.lit ++ B)))
    (h : (Prog.sub p (a ++ b) .done).good N kp inr = true) :
    (Prog.sub p (a ++ (t ++ b)) .done).good N kp inr = true := by
  rw [Prog.good_iff] at *
  simp only [Prog.safe, Prog.keeps, Prog.inert, Prog.inertM, compileSub] at *
  cases hr : parseRe p with
  | none => simp [hr] at h
  | some rn =>
    obtain ⟨r, ng⟩ := rn
    obtain ⟨A, hA⟩ := hp ng
    rcases hA with hA | ⟨B, hB, hB'⟩
    · simp [hr, hA] at h
    · simp only [hr, hB, hB'] at h ⊢
      refine ⟨trivial, fun hk => ?_, fun hi => h.2.2 hi⟩
      have := h.2.1 hk
      simp only [subKeeps] at this ⊢
      cases ho : r.keepOf N with
      | none => rw [ho] at this; simp at this
      | some o =>
        rw [ho] at this
        simp only at this ⊢
        rw [tmplKeeps_insert ht]
        exact this

theorem good_sub_inv {N : CharSet} {kp inr : Bool} {a b : PyStr} {q : Prog}
    (hq : (Prog.sub a b q).good N kp inr = true) :
    (Prog.sub a b .done).good N kp inr = true ∧ q.good N kp inr = true := by
  rw [Prog.good_iff] at hq
  simp only [Prog.safe, Prog.keeps, Prog.inert, Prog.inertM] at hq
  simp only [Prog.good_iff, Prog.safe, Prog.keeps, Prog.inert, Prog.inertM]
  cases hc : compileSub a b with
  | none => simp [hc] at hq
  | some rt =>
    simp only [hc] at hq
    refine ⟨⟨rfl, fun hk => ?_, fun hi => ?_⟩, hq.1, fun hk => ?_, fun hi => ?_⟩
    · have := hq.2.1 hk
      cases hs : subKeeps N rt.1 rt.2 <;> simp_all
    · have := hq.2.2 hi
      cases hs : rt.1.blocked N <;> simp_all
    · have := hq.2.1 hk
      cases hs : subKeeps N rt.1 rt.2 <;> simp_all
    · have := hq.2.2 hi
      cases hs : rt.1.blocked N <;> simp_all

theorem outside_append_left {A : CharSet} {x y : PyStr} (h : outside A x = true) :
    outside A (x ++ y) = true := by
  induction x with
  | nil => simp [outside] at h
  | cons c x ih =>
    simp only [List.cons_append, outside] at h ⊢
    split
    · rename_i hc; rw [hc] at h; exact ih h
    · rfl

/-- `Prog.good` as an analysis. -/
def goodAna (N : CharSet) (kp inr : Bool) : Ana where
  ok := Prog.good N kp inr
  src := letterOk N
  tgt := freeOf N.mem
  done := good_done N kp inr
  append := Prog.good_append
  rep := by
    intro x y hx hy
    rw [letterOk_iff] at hx
    refine Prog.good_iff.2 ⟨rfl, fun _ => ?_, fun _ => ?_⟩
    · simp [Prog.keeps, hx.1, hy]
    · simp [Prog.inert, Prog.inertM, hx.2]
  sub_inv := good_sub_inv
  sub_insert := good_sub_insert
  tgt_append := fun hx hy => freeOf_append.2 ⟨hx, hy⟩
  src_tgt := fun hx => (letterOk_iff.1 hx).1
  src_append := fun hx hy => letterOk_iff.2
    ⟨freeOf_append.2 ⟨(letterOk_iff.1 hx).1, hy⟩, outside_append_left (letterOk_iff.1 hx).2⟩

/-! ## Om -/

theorem Ana.om_mid (A : Ana) {p t : PyStr} (hP : tmplPlain t = true) (ht : A.tgt t = true)
    (h : A.ok (reSub p ((u! "\\1") ++ (u! "\\2"))).prog = true) :
    A.ok (reSub p ((u! "\\1") ++ t ++ (u! "\\2"))).prog = true := by
  rw [List.append_assoc]
  refine A.sub_insert ht (fun ng => ⟨[.ref 1], ?_⟩) h
  rcases Nat.lt_or_ge ng 2 with hg | hg
  · left
    have e : parseTmpl ng 0 ((u! "\\1") ++ (u! "\\2")) = _ :=
      parseTmpl_ref (d := 49) (r := (u! "\\2")) rfl (by decide) rfl
    rw [e]
    have e2 : parseTmpl ng 0 (u! "\\2") = _ := parseTmpl_ref (d := 50) (r := []) rfl (by decide) rfl
    rw [e2, if_neg (show ¬(50 - 48 ≤ ng) by omega)]
    split <;> rfl
  · right
    refine ⟨[.ref 2], ?_, ?_⟩
    · have e : parseTmpl ng 0 ((u! "\\1") ++ (u! "\\2")) = _ :=
        parseTmpl_ref (d := 49) (r := (u! "\\2")) rfl (by decide) rfl
      have e2 : parseTmpl ng 0 (u! "\\2") = _ := parseTmpl_ref (d := 50) (r := []) rfl (by decide) rfl
      rw [e, e2, if_pos (show 49 - 48 ≤ ng by omega), if_pos (show 50 - 48 ≤ ng by omega)]
      rfl
    · have e : parseTmpl ng 0 ((u! "\\1") ++ (t ++ (u! "\\2"))) = _ :=
        parseTmpl_ref (d := 49) (r := t ++ (u! "\\2")) rfl (by decide) (noDigit_plain hP rfl)
      have e2 : parseTmpl ng 0 (u! "\\2") = _ := parseTmpl_ref (d := 50) (r := []) rfl (by decide) rfl
      rw [e, parseTmpl_plain hP, e2, if_pos (show 49 - 48 ≤ ng by omega), if_pos (show 50 - 48 ≤ ng by omega)]
      rfl

theorem Ana.om_left (A : Ana) {p t : PyStr} (hP : tmplPlain t = true) (ht : A.tgt t = true)
    (h : A.ok (reSub p (u! "\\1")).prog = true) :
    A.ok (reSub p (t ++ (u! "\\1"))).prog = true := by
  refine A.sub_insert (a := []) (b := u! "\\1") ht (fun ng => ⟨[], ?_⟩) h
  have e : parseTmpl ng 0 (u! "\\1") = _ := parseTmpl_ref (d := 49) (r := []) rfl (by decide) rfl
  simp only [List.nil_append]
  rw [parseTmpl_plain hP, e]
  split
  · exact Or.inr ⟨[.ref 1], rfl, rfl⟩
  · exact Or.inl rfl

theorem Ana.om_right (A : Ana) {p t : PyStr} (hP : tmplPlain t = true) (ht : A.tgt t = true)
    (h : A.ok (reSub p (u! "\\1")).prog = true) :
    A.ok (reSub p ((u! "\\1") ++ t)).prog = true := by
  have := A.sub_insert (p := p) (a := u! "\\1") (b := []) ht
    (fun ng => ⟨[.ref 1], ?_⟩) (by simpa [Gen.prog, reSub] using h)
  · simpa [Gen.prog, reSub] using this
  have e : parseTmpl ng 0 (u! "\\1") = _ := parseTmpl_ref (d := 49) (r := []) rfl (by decide) rfl
  have e1 : parseTmpl ng 0 ((u! "\\1") ++ t) = _ :=
    parseTmpl_ref (d := 49) (r := t) rfl (by decide) (by simpa using noDigit_plain hP (r := []) rfl)
  have e2 : parseTmpl ng 0 t = some (t.map TItem.lit) := by
    have := parseTmpl_plain (ng := ng) (r := []) hP
    simpa [parseTmpl] using this
  simp only [List.append_nil]
  rw [e1, e, e2]
  split
  · exact Or.inr ⟨[], rfl, by simp⟩
  · exact Or.inl rfl

theorem Ana.sub_lit (A : Ana) {p t : PyStr} (hP : noSlash t = true) (ht : A.tgt t = true)
    (h : A.ok (reSub p (u! "")).prog = true) :
    A.ok (reSub p t).prog = true := by
  have := A.sub_insert (p := p) (a := []) (b := []) ht
    (fun ng => ⟨[], ?_⟩) h
  · simpa [Gen.prog, reSub] using this
  have e2 : parseTmpl ng 0 t = some (t.map TItem.lit) := by
    have := parseTmpl_noSlash (ng := ng) (r := []) hP
    simpa [parseTmpl] using this
  simp only [List.append_nil, List.nil_append]
  rw [e2]
  exact Or.inr ⟨[], by simp [parseTmpl], by simp⟩

theorem Lin.omSubs (punc sOm tOm : PyStr) : Lin (omSubs punc sOm tOm) := by
  unfold Verif.omSubs; lin

/-- The substitutions of an Om are accepted for any target if they are for the empty one. -/
theorem Ana.omSubs (A : Ana) {punc sOm t : PyStr} (hP : tmplPlain t = true) (ht : A.tgt t = true)
    (h : A.ok (omSubs punc sOm []).prog = true) : A.ok (omSubs punc sOm t).prog = true := by
  have split4 : ∀ x, (Verif.omSubs punc sOm x).prog =
      (reSub (punc ++ sOm ++ punc) ((u! "\\1") ++ x ++ (u! "\\2"))).prog.append
      ((reSub ((u! "^") ++ sOm ++ punc) (x ++ (u! "\\1"))).prog.append
      ((reSub (punc ++ sOm ++ (u! "$")) ((u! "\\1") ++ x)).prog.append
      (reSub ((u! "^") ++ sOm ++ (u! "$")) x).prog)) := fun x => rfl
  rw [split4] at h ⊢
  obtain ⟨h1, h⟩ := A.sub_inv h
  obtain ⟨h2, h⟩ := A.sub_inv h
  obtain ⟨h3, h4⟩ := A.sub_inv h
  exact A.append (A.om_mid hP ht h1) (A.append (A.om_left hP ht h2)
    (A.append (A.om_right hP ht h3) (A.sub_lit (noSlash_of_plain hP) ht h4)))

end Verif
