import Verif.Lib.Analysis
import Verif.Lib.Numerals

/-!
# Programs that do nothing on texts over an alphabet without certain factors

Sharper than `Prog.inert`: the text is over an alphabet and contains none of a list of forbidden
factors, and a pattern is inert if every word it can begin with has a foreign character or a
forbidden factor.
-/

namespace Verif

/-- Texts over the alphabet without forbidden factors. -/
def InCore (A : CharSet) (F : List PyStr) (s : PyStr) : Prop := Over A s ∧ ∀ f ∈ F, ¬ f <:+: s

theorem InCore.infix {A : CharSet} {F : List PyStr} {s t : PyStr} (h : InCore A F s) (ht : t <:+: s) :
    InCore A F t :=
  ⟨fun c hc => h.1 c (ht.subset hc), fun f hf hi => h.2 f hf (hi.trans ht)⟩

/-- One of the factors occurs in the word. -/
def hasFactor (w : PyStr) : List PyStr → Bool
  | [] => false
  | f :: F =>
    match isInfix f w with
    | true => true
    | false => hasFactor w F

theorem hasFactor_sound {w : PyStr} {F : List PyStr} (h : hasFactor w F = true) : ∃ f ∈ F, f <:+: w := by
  induction F with
  | nil => cases h
  | cons f F ih =>
    simp only [hasFactor] at h
    split at h
    · rename_i hi; exact ⟨f, List.mem_cons_self, isInfix_iff.1 hi⟩
    · obtain ⟨g, hg, hi⟩ := ih h
      exact ⟨g, List.mem_cons_of_mem _ hg, hi⟩

/-- The word occurs in no text of the class. -/
def dead (A : CharSet) (F : List PyStr) (w : PyStr) : Bool :=
  match outside A w with
  | true => true
  | false => hasFactor w F

theorem dead_sound {A : CharSet} {F : List PyStr} {w s : PyStr} (h : dead A F w = true) (hs : InCore A F s) :
    ¬ w <:+: s := by
  intro hw
  unfold dead at h
  split at h
  · rename_i ho
    obtain ⟨c, hc, hm⟩ := outside_sound ho
    have := hs.1 c (hw.subset hc)
    rw [hm] at this
    cases this
  · obtain ⟨f, hf, hi⟩ := hasFactor_sound h
    exact hs.2 f hf (hi.trans hw)

theorem dead_ne_nil {A : CharSet} {F : List PyStr} {w s : PyStr} (h : dead A F w = true) (hs : InCore A F s) :
    w ≠ [] := by
  rintro rfl
  exact dead_sound h hs (List.nil_infix)

/-- Extend a word by each of the words, dropping dead ones. -/
def extend (A : CharSet) (F : List PyStr) (u : PyStr) : List PyStr → List PyStr
  | [] => []
  | v :: l =>
    match dead A F (u ++ v) with
    | true => extend A F u l
    | false => (u ++ v) :: extend A F u l

/-- All live products. -/
def products (A : CharSet) (F : List PyStr) : List PyStr → List PyStr → List PyStr
  | [], _ => []
  | u :: l, m => extend A F u m ++ products A F l m

theorem mem_extend {A : CharSet} {F : List PyStr} {u v : PyStr} {l : List PyStr} (hv : v ∈ l)
    (hd : dead A F (u ++ v) = false) : u ++ v ∈ extend A F u l := by
  induction l with
  | nil => cases hv
  | cons w l ih =>
    simp only [extend]
    rcases List.mem_cons.1 hv with rfl | h
    · rw [hd]; exact List.mem_cons_self
    · split
      · exact ih h
      · exact List.mem_cons_of_mem _ (ih h)

theorem mem_products {A : CharSet} {F : List PyStr} {u v : PyStr} {l m : List PyStr} (hu : u ∈ l) (hv : v ∈ m)
    (hd : dead A F (u ++ v) = false) : u ++ v ∈ products A F l m := by
  induction l with
  | nil => cases hu
  | cons w l ih =>
    simp only [products, List.mem_append]
    rcases List.mem_cons.1 hu with rfl | h
    · exact Or.inl (mem_extend hv hd)
    · exact Or.inr (ih h)

/-- The members of the alphabet in a class without negation, as words; `none` if it cannot tell. -/
def clsWords (A : CharSet) : List ClsItem → Option (List PyStr)
  | [] => some []
  | .rng a b :: l =>
    match clsWords A l with
    | none => none
    | some m =>
      match A.rangeOut a b with
      | true => some m
      | false =>
        match Nat.beq a b with
        | true => some ([a] :: m)
        | false => none
  | _ :: _ => none

/-- Words such that the matched text begins with one of them, and whether it is exactly one of
them. -/
def Re.live (A : CharSet) (F : List PyStr) : Re → Bool × List PyStr
  | .eps => (true, [[]])
  | .chr c => (true, match A.mem c with | true => [[c]] | false => [])
  | .any => (false, [[]])
  | .cls neg items =>
    match neg with
    | true => (false, [[]])
    | false =>
      match clsWords A items with
      | some l => (true, l)
      | none => match itemsOut A items with | true => (true, []) | false => (false, [[]])
  | .seq a b =>
    match a.live A F with
    | (_, []) => (true, [])
    | (false, l) =>
      match b.live A F with
      | (_, []) => (true, [])
      | _ => (false, l)
    | (true, l) =>
      match b.live A F with
      | (_, []) => (true, [])
      | (e, m) => (e, products A F l m)
  | .alt a b =>
    match a.live A F, b.live A F with
    | (e, l), (e', m) => (e && e', l ++ m)
  | .grp _ r => r.live A F
  | .ref _ => (false, [[]])
  | .rep lo _ _ r =>
    match lo, (r.live A F).2 with
    | 0, [] => (true, [[]])
    | 0, _ :: _ => (false, [[]])
    | _ + 1, l => (false, l)
  | .lookahead neg r => match neg with | true => (true, [[]]) | false => (false, (r.live A F).2)
  | .lookbehind neg _ r =>
    match neg with
    | true => (true, [[]])
    | false => match r.blocked A with | true => (true, []) | false => (true, [[]])
  | .bol => (true, [[]])
  | .eol => (true, [[]])
  | .wordb _ => (true, [[]])

/-- None of the characters belongs to the alphabet. -/
def outsideAll (A : CharSet) : PyStr → Bool
  | [] => true
  | c :: l => match A.mem c with | true => false | false => outsideAll A l

theorem outsideAll_sound {A : CharSet} {l : PyStr} (h : outsideAll A l = true) {c : Nat} (hc : c ∈ l) : A.mem c = false := by
  induction l with
  | nil => cases hc
  | cons d l ih =>
    simp only [outsideAll] at h
    split at h
    · cases h
    · rename_i hm
      rcases List.mem_cons.1 hc with rfl | hc
      · exact hm
      · exact ih h hc

/-- Numerals are made only where there are ASCII digits. -/
theorem native_idle {A : CharSet} (h : outsideAll A (u! "0123456789") = true) {s : PyStr} (hs : Over A s) (U : Uni)
    (f : Native) : f.sem U s = s := by
  have key : ∀ (g : Nat → PyStr) (l : List Nat), l.foldl (fun t n => pyReplace t (pyStrNat n) (g n)) s = s := by
    intro g l
    induction l with
    | nil => rfl
    | cons n l ih =>
      rw [List.foldl_cons, pyReplace_of_not_infix, ih]
      · have := pyStrNat_decimal n
        exact this.1
      · intro hi
        have hd := pyStrNat_decimal n
        cases he : pyStrNat n with
        | nil => exact hd.1 he
        | cons c x =>
          have hc := hd.2.1 c (by rw [he]; simp)
          have hm : c ∈ (u! "0123456789") := by
            have : c = 48 ∨ c = 49 ∨ c = 50 ∨ c = 51 ∨ c = 52 ∨ c = 53 ∨ c = 54 ∨ c = 55 ∨ c = 56 ∨ c = 57 := by omega
            rcases this with h | h | h | h | h | h | h | h | h | h <;> subst h <;> decide
          have h1 := outsideAll_sound h hm
          have h2 := hs c (hi.subset (by rw [he]; simp))
          rw [h1] at h2; cases h2
  cases f with
  | kharoshthiNumerals => exact key _ _
  | oldPersianNumeral => exact key _ _

/-- On texts of the class the program does nothing (exceptions aside). -/
def Prog.idle (A : CharSet) (F : List PyStr) : Prog → Bool
  | .done => true
  | .rep x y k => match dead A F x with
    | true => k.idle A F
    | false =>
      match x with
      | [] => false
      | _ :: _ => match strEq x y with | true => k.idle A F | false => false
  | .sub p t k =>
    match compileSub p t with
    | none => true
    | some (r, _) =>
      match r.blocked A with
      | true => k.idle A F
      | false => match r.live A F with | (_, []) => k.idle A F | _ => false
  | .app _ _ => false
  | .pre _ _ => false
  | .set _ _ => false
  | .ite _ t e k =>
    match t.idle A F with
    | false => false
    | true => match e.idle A F with
      | false => false
      | true => k.idle A F
  | .attempt p k => match p.idle A F with | false => false | true => k.idle A F
  | .evens sep p k =>
    match dead A F sep with
    | false => false
    | true => match p.idle A F with
      | false => false
      | true => k.idle A F
  | .host _ _ => false
  | .nat _ k => match outsideAll A (u! "0123456789") with | true => k.idle A F | false => false
  | .fail _ => true

/-- The whole text around a cursor. -/
def St.whole (st : St) : PyStr := st.pre.reverse ++ st.post

theorem Re.Steps.whole {U : Uni} {r : Re} {a b : St} (h : r.Steps U a b) : b.whole = a.whole := by
  obtain ⟨w, p, q⟩ := h.consumes
  simp [St.whole, p, q]

theorem St.post_infix (st : St) : st.post <:+: st.whole := ⟨st.pre.reverse, [], by simp [St.whole]⟩

theorem St.overA_of_whole {A : CharSet} {F : List PyStr} {a : St} (h : InCore A F a.whole) : a.OverA A := by
  have := h.1
  rw [St.whole, Over.append, Over.reverse] at this
  exact this

theorem clsWords_sound {A : CharSet} {U : Uni} {l : List ClsItem} {m : List PyStr} (h : clsWords A l = some m)
    {c : Nat} (hc : l.any (ClsItem.test U c) = true) (hA : A.mem c = true) : [c] ∈ m := by
  induction l generalizing m with
  | nil => simp at hc
  | cons it l ih =>
    cases it with
    | rng a b =>
      simp only [clsWords] at h
      split at h
      · cases h
      · rename_i m' hm
        simp only [List.any_cons, Bool.or_eq_true] at hc
        split at h
        · rename_i ho
          cases h
          rcases hc with hc | hc
          · simp only [ClsItem.test, Bool.and_eq_true] at hc
            have := A.range_sound a b c ho (Nat.le_of_ble_eq_true hc.1) (Nat.le_of_ble_eq_true hc.2)
            rw [this] at hA; cases hA
          · exact ih hm hc
        · split at h
          · rename_i hab
            cases h
            rcases hc with hc | hc
            · simp only [ClsItem.test, Bool.and_eq_true] at hc
              have h1 := Nat.le_of_ble_eq_true hc.1
              have h2 := Nat.le_of_ble_eq_true hc.2
              have h3 := Nat.eq_of_beq_eq_true hab
              have : c = a := by omega
              subst this
              exact List.mem_cons_self
            · exact List.mem_cons_of_mem _ (ih hm hc)
          · cases h
    | _ => simp [clsWords] at h

theorem Re.live_sound {A : CharSet} {F : List PyStr} {U : Uni} {r : Re} {a b : St}
    (ha : InCore A F a.whole) (h : r.Steps U a b) :
    ∃ w ∈ (r.live A F).2, w <+: a.post ∧ ((r.live A F).1 = true → a.post = w ++ b.post) := by
  have hone : ∀ d cs, a.post = d :: cs → A.mem d = true := by
    intro d cs he
    have := (St.overA_of_whole ha).2
    rw [he, Over.cons] at this
    exact this.1
  induction r generalizing a b with
  | eps => cases h; exact ⟨[], by simp [Re.live], List.nil_prefix, fun _ => rfl⟩
  | chr c =>
    obtain ⟨cs, h1, rfl⟩ := h
    refine ⟨[c], ?_, by rw [h1]; exact ⟨cs, rfl⟩, fun _ => h1⟩
    simp [Re.live, hone _ _ h1]
  | any => exact ⟨[], by simp [Re.live], List.nil_prefix, fun h => by simp [Re.live] at h⟩
  | cls neg items =>
    obtain ⟨d, cs, h1, h2, rfl⟩ := h
    cases neg with
    | true => exact ⟨[], by simp [Re.live], List.nil_prefix, fun h => by simp [Re.live] at h⟩
    | false =>
      have h2 : items.any (ClsItem.test U d) = true := by simpa using h2
      simp only [Re.live]
      split
      · rename_i l hl
        exact ⟨[d], clsWords_sound hl h2 (hone _ _ h1), by rw [h1]; exact ⟨cs, rfl⟩, fun _ => h1⟩
      · split
        · rename_i ho
          have := itemsOut_sound ho h2
          rw [hone _ _ h1] at this
          cases this
        · exact ⟨[], by simp, List.nil_prefix, fun h => by simp at h⟩
  | seq x y ihx ihy =>
    obtain ⟨m, h1, h2⟩ := h
    have hm : InCore A F m.whole := by rw [h1.whole]; exact ha
    have hone' : ∀ d cs, m.post = d :: cs → A.mem d = true := by
      intro d cs he
      have := (St.overA_of_whole hm).2
      rw [he, Over.cons] at this
      exact this.1
    obtain ⟨u, hu, pu, eu⟩ := ihx ha h1 hone
    obtain ⟨v, hv, pv, ev⟩ := ihy hm h2 hone'
    simp only [Re.live]
    split
    · rename_i hx; rw [hx] at hu; cases hu
    · rename_i l hx hxl
      rw [hxl] at hu
      split
      · rename_i hy; rw [hy] at hv; cases hv
      · exact ⟨u, hu, pu, fun h => by cases h⟩
    · rename_i l hx hxl
      rw [hxl] at hu eu
      split
      · rename_i hy; rw [hy] at hv; cases hv
      · rename_i e mm hy hyl
        rw [hyl] at hv ev
        have hp := eu rfl
        have hpre : u ++ v <+: a.post := by
          rw [hp]; exact (List.prefix_append_right_inj u).2 pv
        refine ⟨u ++ v, mem_products hu hv ?_, hpre, fun he => ?_⟩
        · cases hd : dead A F (u ++ v) with
          | false => rfl
          | true => exact (dead_sound hd ha (hpre.isInfix.trans a.post_infix)).elim
        · rw [hp, ev he, List.append_assoc]
  | alt x y ihx ihy =>
    simp only [Re.live]
    rcases h with h | h
    · obtain ⟨u, hu, pu, eu⟩ := ihx ha h hone
      exact ⟨u, List.mem_append_left _ hu, pu, fun he => eu (by simp at he; exact he.1)⟩
    · obtain ⟨u, hu, pu, eu⟩ := ihy ha h hone
      exact ⟨u, List.mem_append_right _ hu, pu, fun he => eu (by simp at he; exact he.2)⟩
  | grp n r ih =>
    obtain ⟨m, h1, rfl⟩ := h
    exact ih (b := m) ha h1 hone
  | ref n => exact ⟨[], by simp [Re.live], List.nil_prefix, fun h => by simp [Re.live] at h⟩
  | rep lo hi g r ih =>
    obtain ⟨n, hn, h⟩ := h
    cases lo with
    | zero =>
      simp only [Re.live]
      cases hl : (r.live A F).2 with
      | nil =>
        cases n with
        | zero => cases h; exact ⟨[], by simp, List.nil_prefix, fun _ => rfl⟩
        | succ n =>
          obtain ⟨m, h1, _⟩ := h
          obtain ⟨u, hu, _⟩ := ih ha h1 hone
          rw [hl] at hu; cases hu
      | cons w l => exact ⟨[], by simp, List.nil_prefix, fun h => by simp at h⟩
    | succ lo =>
      cases n with
      | zero => omega
      | succ n =>
        obtain ⟨m, h1, _⟩ := h
        obtain ⟨u, hu, pu, _⟩ := ih ha h1 hone
        exact ⟨u, hu, pu, fun h => by simp [Re.live] at h⟩
  | lookahead neg r ih =>
    rcases h with ⟨rfl, rfl⟩ | ⟨rfl, m, hm, rfl⟩
    · exact ⟨[], by simp [Re.live], List.nil_prefix, fun _ => rfl⟩
    · obtain ⟨u, hu, pu, _⟩ := ih ha hm hone
      exact ⟨u, hu, pu, fun h => by simp [Re.live] at h⟩
  | lookbehind neg w r ih =>
    rcases h with ⟨rfl, rfl⟩ | ⟨rfl, p, q, m, hb, hm, rfl⟩
    · exact ⟨[], by simp [Re.live], List.nil_prefix, fun _ => rfl⟩
    · simp only [Re.live]
      split
      · rename_i hbl
        have ho := St.overA_of_whole ha
        exact (Re.blocked_sound hbl (moveBack_over hb ho.1 ho.2) hm).elim
      · exact ⟨[], by simp, List.nil_prefix, fun _ => rfl⟩
  | bol => exact ⟨[], by simp [Re.live], List.nil_prefix, fun _ => by rw [h.1]; rfl⟩
  | eol => exact ⟨[], by simp [Re.live], List.nil_prefix, fun _ => by rw [h.1]; rfl⟩
  | wordb neg => cases h; exact ⟨[], by simp [Re.live], List.nil_prefix, fun _ => rfl⟩

theorem subGo_dead {A : CharSet} {F : List PyStr} {U : Uni} {r : Re} {tm : List TItem} (h : (r.live A F).2 = [])
    (fuel : Nat) (adv : Bool) (pre post : PyStr) (h1 : InCore A F (pre.reverse ++ post)) :
    subGo U r tm fuel adv pre post = post := by
  induction fuel generalizing adv pre post with
  | zero => rfl
  | succ fuel ih =>
    simp only [subGo]
    split
    · rename_i s hs
      obtain ⟨st, h3, _⟩ := Re.m_steps U r _ _ _ hs
      obtain ⟨w, hw, _⟩ := Re.live_sound (a := ⟨pre, post, []⟩) h1 h3
      rw [h] at hw
      cases hw
    · cases post with
      | nil => rfl
      | cons c cs =>
        simp only
        rw [ih]
        simpa using h1

theorem reSubC_dead {A : CharSet} {F : List PyStr} {U : Uni} {r : Re} {tm : List TItem} (h : (r.live A F).2 = [])
    {s : PyStr} (hs : InCore A F s) : reSubC U r tm s = s := subGo_dead h _ _ _ _ hs

theorem Prog.idle_sound {E : Env} {A : CharSet} {F : List PyStr} {p : Prog} (h : p.idle A F = true)
    {s s' : PyStr} (hs : InCore A F s) (hr : p.run E s = .ok s') : s' = s := by
  induction p generalizing s s' with
  | done => cases hr; rfl
  | rep x y k ih =>
    simp only [Prog.idle] at h
    split at h
    · rename_i hx
      simp only [Prog.run, pyReplace_of_not_infix (dead_ne_nil hx hs) (dead_sound hx hs)] at hr
      exact ih h hs hr
    · split at h
      · cases h
      · split at h
        · rename_i hxy
          have := strEq_iff.1 hxy
          subst this
          simp only [Prog.run, pyReplace_self (List.cons_ne_nil _ _)] at hr
          exact ih h hs hr
        · cases h
  | sub p t k ih =>
    simp only [Prog.idle] at h
    simp only [Prog.run] at hr
    split at h
    · rename_i hc; rw [hc] at hr; cases hr
    · rename_i r tm hc
      rw [hc] at hr
      split at h
      · rename_i hk
        simp only [reSubC_blocked hk hs.1] at hr
        exact ih h hs hr
      · split at h
        · rename_i hk
          simp only [reSubC_dead (by rw [hk]) hs] at hr
          exact ih h hs hr
        · cases h
  | app y k ih => simp [Prog.idle] at h
  | pre y k ih => simp [Prog.idle] at h
  | set y k ih => simp [Prog.idle] at h
  | ite c t e k iht ihe ih =>
    simp only [Prog.idle] at h
    split at h
    · cases h
    · rename_i ht
      split at h
      · cases h
      · rename_i he
        simp only [Prog.run] at hr
        cases hc : c.eval s with
        | true =>
          rw [hc] at hr
          simp only at hr
          split at hr
          · rename_i s1 hs1
            have := iht ht hs hs1
            subst this
            exact ih h hs hr
          · cases hr
        | false =>
          rw [hc] at hr
          simp only at hr
          split at hr
          · rename_i s1 hs1
            have := ihe he hs hs1
            subst this
            exact ih h hs hr
          · cases hr
  | attempt p k ihp ih =>
    simp only [Prog.idle] at h
    split at h
    · cases h
    · rename_i hp
      simp only [Prog.run] at hr
      split at hr
      · rename_i s1 hs1
        have := ihp hp hs hs1
        subst this
        exact ih h hs hr
      · exact ih h hs hr
      · cases hr
  | evens sep p k ihp ih =>
    simp only [Prog.idle] at h
    split at h
    · cases h
    · rename_i hsep
      split at h
      · cases h
      · rename_i hp
        simp only [Prog.run, pySplit_of_not_infix (dead_sound hsep hs), evensRun] at hr
        cases hr1 : p.run E s with
        | error e => rw [hr1] at hr; cases hr
        | ok s1 =>
          rw [hr1] at hr
          have := ihp hp hs hr1
          subst this
          simp only [List.append_nil] at hr
          exact ih h hs hr
  | host g k ih => simp [Prog.idle] at h
  | nat f k ih =>
    simp only [Prog.idle] at h
    split at h
    · rename_i hd
      simp only [Prog.run, native_idle hd hs.1] at hr
      exact ih h hs hr
    · cases h
  | fail e => cases hr

end Verif
