import Verif.Lib.Analysis
import Verif.Lib.ReChars

/-!
# Programs that work part by part

`Prog.apart z p` is a check that the program treats the parts of a text before and after a
character `z` (a newline, a blank) independently of each other: no rule looks across `z`.
-/

namespace Verif

/-! ## Regular expressions -/

/-- The class item does not match `z`. -/
def ClsItem.misses (z : Nat) : ClsItem → Bool
  | .rng a b => !(Nat.ble a z && Nat.ble z b)
  | .space neg => cond neg (isSpace z) (!(isSpace z))
  | .word neg => !neg
  | .digit neg => !neg
  | .letter => true
  | .mark => true

/-- The class item matches `z`. -/
def ClsItem.hits (z : Nat) : ClsItem → Bool
  | .rng a b => Nat.ble a z && Nat.ble z b
  | .space neg => cond neg (!(isSpace z)) (isSpace z)
  | .word neg => neg
  | .digit neg => neg
  | .letter => false
  | .mark => false

/-- Shortest text the expression can consume (a lower bound). -/
def Re.least : Re → Nat
  | .eps => 0
  | .chr _ => 1
  | .any => 1
  | .cls .. => 1
  | .seq a b => Nat.add a.least b.least
  | .alt a b => cond (Nat.ble a.least b.least) a.least b.least
  | .grp _ r => r.least
  | .ref _ => 0
  | .rep lo _ _ r => cond (Nat.beq lo 0) 0 r.least
  | .lookahead .. => 0
  | .lookbehind .. => 0
  | .bol => 0
  | .eol => 0
  | .wordb _ => 0

/-- The expression never consumes `z`, and treats it as the end of the text where it looks around. -/
def Re.apart (z : Nat) : Re → Bool
  | .eps => true
  | .chr c => !(Nat.beq c z)
  | .any => Nat.beq z 10
  | .cls neg items => cond neg (items.any (ClsItem.hits z)) (items.all (ClsItem.misses z))
  | .seq a b => cond (a.apart z) (b.apart z) false
  | .alt a b => cond (a.apart z) (b.apart z) false
  | .grp _ r => r.apart z
  | .ref _ => true
  | .rep _ _ _ r => r.apart z
  | .lookahead _ r => r.apart z
  | .lookbehind _ w r => cond (r.apart z) (Nat.ble w r.least) false
  | .bol => false
  | .eol => false
  | .wordb neg => !neg

/-! ## Programs -/

/-- `z` is not in the string. -/
def lacks (z : Nat) : PyStr → Bool
  | [] => true
  | c :: s => cond (Nat.beq c z) false (lacks z s)

/-- The strings whose presence makes the condition true, if it asks for nothing else. -/
def Cond.words : Cond → Option (List PyStr)
  | .static b => cond b none (some [])
  | .has x => some [x]
  | .hasAny xs => some xs
  | .not _ => none
  | .and a (.static b) => cond b a.words (some [])
  | .and _ _ => none
  | .or a b =>
    match a.words, b.words with
    | some x, some y => some (x ++ y)
    | _, _ => none

/-- Every replaced string contains one of the words. -/
def Prog.onlyOn (ws : List PyStr) : Prog → Bool
  | .done => true
  | .rep x _ k => cond (ws.any fun w => isInfix w x) (k.onlyOn ws) false
  | _ => false

/-- Is it the program that does nothing? -/
def Prog.isDone : Prog → Bool
  | .done => true
  | _ => false

/-- The program treats the parts around `z` independently. -/
def Prog.apart (z : Nat) : Prog → Bool
  | .done => true
  | .rep x _ k => cond (lacks z x) (cond x.isEmpty false (k.apart z)) false
  | .sub p t k =>
    match compileSub p t with
    | none => false
    | some (r, _) => cond (r.apart z) (k.apart z) false
  | .ite c t e k =>
    cond (match c.words with
      | none => false
      | some [] => e.apart z
      | some ws => e.isDone && t.onlyOn ws && t.apart z) (k.apart z) false
  | .attempt p k => p.safe false && p.apart z && k.apart z
  | .host h k => h.isUnicode && k.apart z
  | _ => false

/-! ## Soundness -/

/-- What is assumed of the Unicode database: `z` is no letter, digit or mark. -/
structure Uni.Apart (U : Uni) (z : Nat) : Prop where
  alnum : U.isAlnum z = false
  digit : U.isDigit z = false
  letter : U.isLetter z = false
  mark : U.isMark z = false
  under : z ≠ 95

/-- Nothing, or a text beginning with `z`. -/
def Beyond (z : Nat) (X : PyStr) : Prop := X = [] ∨ ∃ Y, X = z :: Y

/-- The state with more text around. -/
def St.lift (X Y : PyStr) (st : St) : St := ⟨st.pre ++ X, st.post ++ Y, st.caps⟩

/-- No group holds `z`. -/
def St.CapsFree (z : Nat) (st : St) : Prop := ∀ p ∈ st.caps, z ∉ p.2

/-- A move over text without `z`. -/
def St.Moves (z : Nat) (st st' : St) : Prop :=
  st'.CapsFree z ∧ ∃ w, st.post = w ++ st'.post ∧ st'.pre = w.reverse ++ st.pre ∧ z ∉ w

theorem St.Moves.trans {z : Nat} {a b c : St} (h : a.Moves z b) (h' : b.Moves z c) : a.Moves z c := by
  obtain ⟨-, w, h1, h2, h3⟩ := h
  obtain ⟨h4, w', h5, h6, h7⟩ := h'
  refine ⟨h4, w ++ w', ?_, ?_, ?_⟩
  · rw [h1, h5, List.append_assoc]
  · rw [h6, h2, List.reverse_append, List.append_assoc]
  · simp [h3, h7]

theorem St.Moves.refl {z : Nat} {a : St} (h : a.CapsFree z) : a.Moves z a := ⟨h, [], by simp, by simp, by simp⟩

theorem St.Moves.len {z : Nat} {a b : St} (h : a.Moves z b) : b.post.length ≤ a.post.length := by
  obtain ⟨-, w, h1, -⟩ := h
  rw [h1]; simp

theorem ClsItem.misses_sound {U : Uni} {z : Nat} (hU : U.Apart z) {it : ClsItem} (h : it.misses z = true) :
    it.test U z = false := by
  cases it with
  | rng a b =>
    simp only [ClsItem.misses, Bool.not_eq_true'] at h
    exact h
  | space neg => cases neg <;> simp_all [ClsItem.misses, ClsItem.test]
  | word neg => cases neg <;> simp_all [ClsItem.misses, ClsItem.test, hU.alnum, hU.under]
  | digit neg => cases neg <;> simp_all [ClsItem.misses, ClsItem.test, hU.digit]
  | letter => exact hU.letter
  | mark => exact hU.mark

theorem ClsItem.hits_sound {U : Uni} {z : Nat} (hU : U.Apart z) {it : ClsItem} (h : it.hits z = true) :
    it.test U z = true := by
  cases it with
  | rng a b => simpa [ClsItem.hits, ClsItem.test] using h
  | space neg => cases neg <;> simp_all [ClsItem.hits, ClsItem.test]
  | word neg => cases neg <;> simp_all [ClsItem.hits, ClsItem.test, hU.alnum, hU.under]
  | digit neg => cases neg <;> simp_all [ClsItem.hits, ClsItem.test, hU.digit]
  | letter => cases h
  | mark => cases h

theorem cls_apart {U : Uni} {z : Nat} (hU : U.Apart z) {neg : Bool} {items : List ClsItem}
    (h : (Re.cls neg items).apart z = true) : ((items.any (ClsItem.test U z)) != neg) = false := by
  simp only [Re.apart] at h
  cases neg with
  | true =>
    obtain ⟨it, h1, h2⟩ := List.any_eq_true.1 (by simpa using h)
    have : items.any (ClsItem.test U z) = true := List.any_eq_true.2 ⟨it, h1, ClsItem.hits_sound hU h2⟩
    simp [this]
  | false =>
    have : items.any (ClsItem.test U z) = false := by
      rw [List.any_eq_false]
      intro it h1
      have := ClsItem.misses_sound hU (List.all_eq_true.1 (by simpa using h) it h1)
      simp [this]
    simp [this]


/-- The least width is a lower bound. -/
theorem Re.least_le {U : Uni} {r : Re} {a b : St} (h : r.Steps U a b) :
    b.post.length + r.least ≤ a.post.length := by
  induction r generalizing a b with
  | eps => cases h; simp [Re.least]
  | chr c => obtain ⟨cs, h1, rfl⟩ := h; simp [Re.least, h1]
  | any => obtain ⟨d, cs, h1, _, rfl⟩ := h; simp [Re.least, h1]
  | cls neg items => obtain ⟨d, cs, h1, _, rfl⟩ := h; simp [Re.least, h1]
  | seq x y ihx ihy =>
    obtain ⟨m, h1, h2⟩ := h
    have := ihx h1
    have := ihy h2
    simp only [Re.least, Nat.add_eq]
    omega
  | alt x y ihx ihy =>
    simp only [Re.least]
    cases hb : Nat.ble x.least y.least with
    | true =>
      have := Nat.le_of_ble_eq_true hb
      rcases h with h | h
      · have := ihx h; simpa using this
      · have := ihy h; simp; omega
    | false =>
      have : ¬ x.least ≤ y.least := fun hle => by rw [Nat.ble_eq_true_of_le hle] at hb; cases hb
      rcases h with h | h
      · have := ihx h; simp; omega
      · have := ihy h; simpa using this
  | grp n r ih =>
    obtain ⟨m, h1, rfl⟩ := h
    have := ih h1
    exact this
  | ref n => obtain ⟨v, _, h1, h2, _⟩ := h; simp [Re.least, h1]
  | rep lo hi g r ih =>
    have hlen : ∀ n a b, IterN (Re.Steps U r) n a b → b.post.length + (cond (Nat.beq n 0) 0 r.least) ≤ a.post.length := by
      intro n
      induction n with
      | zero => intro a b h; cases h; simp
      | succ n ihn =>
        intro a b h
        obtain ⟨m, h1, h2⟩ := h
        have := ih h1
        have := ihn m b h2
        simp only [Nat.beq, cond_false]
        omega
    obtain ⟨n, hn, h⟩ := h
    have := hlen n a b h
    simp only [Re.least]
    cases lo with
    | zero => simp only [Nat.beq, cond_true]; omega
    | succ lo =>
      cases n with
      | zero => omega
      | succ n => simpa [Nat.beq] using this
  | lookahead neg r ih =>
    rcases h with ⟨rfl, -⟩ | ⟨-, m, -, rfl⟩ <;> simp [Re.least]
  | lookbehind neg w r ih =>
    rcases h with ⟨rfl, -⟩ | ⟨-, p, q, m, -, -, rfl⟩ <;> simp [Re.least]
  | bol => obtain ⟨rfl, -⟩ := h; simp [Re.least]
  | eol => obtain ⟨rfl, -⟩ := h; simp [Re.least]
  | wordb n => cases h; simp [Re.least]

/-- The expression consumes no `z`. -/
theorem Re.apart_moves {U : Uni} {z : Nat} (hU : U.Apart z) {r : Re} (hr : r.apart z = true) {a b : St}
    (ha : a.CapsFree z) (h : r.Steps U a b) : a.Moves z b := by
  induction r generalizing a b with
  | eps => cases h; exact .refl ha
  | chr c =>
    obtain ⟨cs, h1, rfl⟩ := h
    refine ⟨ha, [c], h1, rfl, ?_⟩
    simp only [Re.apart, Bool.not_eq_true'] at hr
    simp only [List.mem_singleton]
    rintro rfl
    rw [Nat.beq_refl] at hr
    cases hr
  | any =>
    obtain ⟨d, cs, h1, h2, rfl⟩ := h
    refine ⟨ha, [d], h1, rfl, ?_⟩
    simp only [Re.apart] at hr
    have := Nat.eq_of_beq_eq_true hr
    simp only [List.mem_singleton]
    rintro rfl
    exact h2 this
  | cls neg items =>
    obtain ⟨d, cs, h1, h2, rfl⟩ := h
    refine ⟨ha, [d], h1, rfl, ?_⟩
    have := cls_apart hU hr
    simp only [List.mem_singleton]
    rintro rfl
    simp only [bne_eq_false_iff_eq] at this
    exact h2 this
  | seq x y ihx ihy =>
    obtain ⟨m, h1, h2⟩ := h
    simp only [Re.apart, Bool.cond_false_right, Bool.and_eq_true] at hr
    have i1 := ihx hr.1 ha h1
    exact i1.trans (ihy hr.2 i1.1 h2)
  | alt x y ihx ihy =>
    simp only [Re.apart, Bool.cond_false_right, Bool.and_eq_true] at hr
    exact h.elim (ihx hr.1 ha) (ihy hr.2 ha)
  | grp n r ih =>
    obtain ⟨m, h1, rfl⟩ := h
    obtain ⟨h2, w, h3, h4, h5⟩ := ih hr ha h1
    refine ⟨?_, w, h3, h4, h5⟩
    intro p hp
    rcases List.mem_cons.1 hp with rfl | hp
    · simp only [h3]
      rw [show (w ++ m.post).length - m.post.length = w.length by simp, List.take_left]
      exact h5
    · exact h2 p hp
  | ref n =>
    obtain ⟨v, h1, h2, h3, h4⟩ := h
    refine ⟨?_, v, h2, h3, ?_⟩
    · intro p hp
      rw [h4] at hp
      exact ha p hp
    · exact ha _ (capOf_mem h1)
  | rep lo hi g r ih =>
    obtain ⟨n, hn, h⟩ := h
    clear hn
    induction n generalizing a with
    | zero => cases h; exact .refl ha
    | succ n ihn =>
      obtain ⟨m, h1, h2⟩ := h
      have i1 := ih hr ha h1
      exact i1.trans (ihn i1.1 h2)
  | lookahead neg r ih =>
    rcases h with ⟨rfl, -⟩ | ⟨-, m, h1, rfl⟩
    · exact .refl ha
    · exact ⟨(ih hr ha h1).1, [], rfl, rfl, by simp⟩
  | lookbehind neg w r ih =>
    simp only [Re.apart, Bool.cond_false_right, Bool.and_eq_true] at hr
    rcases h with ⟨rfl, -⟩ | ⟨-, p, q, m, h0, h1, rfl⟩
    · exact .refl ha
    · have ha' : St.CapsFree z { a with pre := p, post := q } := ha
      exact ⟨(ih hr.1 ha' h1).1, [], rfl, rfl, by simp⟩
  | bol => obtain ⟨rfl, -⟩ := h; exact .refl ha
  | eol => obtain ⟨rfl, -⟩ := h; exact .refl ha
  | wordb n => cases h; exact .refl ha

/-- Matching gives the same in a larger text. -/
def Lifts (z : Nat) (X Y : PyStr) (f : St → (St → Option St) → Option St) : Prop :=
  ∀ (st : St) (k k' : St → Option St), st.CapsFree z →
    (∀ st', st.Moves z st' → k' (st'.lift X Y) = (k st').map (St.lift X Y)) →
    f (st.lift X Y) k' = (f st k).map (St.lift X Y)

theorem eatBlock_lift {z : Nat} {X Y : PyStr} (hY : Beyond z Y) {v : PyStr} (hv : z ∉ v) (pre post : PyStr) :
    eatBlock v (pre ++ X) (post ++ Y) = (eatBlock v pre post).map fun p => (p.1 ++ X, p.2 ++ Y) := by
  induction v generalizing pre post with
  | nil => rfl
  | cons x v ih =>
    cases post with
    | nil =>
      rcases hY with rfl | ⟨Y, rfl⟩
      · rfl
      · have hb : Nat.beq x z = false := by
          cases hb : Nat.beq x z with
          | false => rfl
          | true => exact absurd (Nat.eq_of_beq_eq_true hb) (fun e => hv (by simp [e]))
        simp only [eatBlock, List.nil_append, hb]
        rfl
    | cons c cs =>
      simp only [eatBlock, List.cons_append]
      split
      · have := ih (fun h => hv (by simp [h])) (c :: pre) cs
        simpa using this
      · rfl

theorem repLoop_lift {z : Nat} {X Y : PyStr} {f : St → (St → Option St) → Option St} (hf : Lifts z X Y f)
    {lo : Nat} {hi : Option Nat} {g : Bool} (fuel : Nat) : ∀ (fuel' cnt : Nat) (st : St) (k k' : St → Option St),
      (lo - cnt) + st.post.length + 1 ≤ fuel → (lo - cnt) + st.post.length + 1 ≤ fuel' → st.CapsFree z →
      (∀ st', st.Moves z st' → k' (st'.lift X Y) = (k st').map (St.lift X Y)) →
      repLoop f lo hi g fuel' cnt (st.lift X Y) k' = (repLoop f lo hi g fuel cnt st k).map (St.lift X Y) := by
  induction fuel with
  | zero => intro fuel' cnt st k k' h; omega
  | succ fuel ih =>
    intro fuel' cnt st k k' h1 h2 hc hk
    obtain ⟨fuel', rfl⟩ : ∃ n, fuel' = n + 1 := ⟨fuel' - 1, by omega⟩
    simp only [repLoop]
    by_cases hlo : cnt < lo
    · simp only [hlo, if_true]
      refine hf st _ _ hc fun st' hm => ?_
      have hl := hm.len
      exact ih fuel' (cnt + 1) st' k k' (by omega) (by omega) hm.1 fun st'' h => hk st'' (hm.trans h)
    · simp only [hlo, if_false]
      split
      · exact hk st (.refl hc)
      · have hmore : f (st.lift X Y) (fun st' =>
            if st'.post.length = (st.lift X Y).post.length then k' st' else repLoop f lo hi g fuel' (cnt + 1) st' k') =
            (f st (fun st' =>
            if st'.post.length = st.post.length then k st' else repLoop f lo hi g fuel (cnt + 1) st' k)).map (St.lift X Y) := by
          refine hf st _ _ hc fun st' hm => ?_
          have hl := hm.len
          have hiff : ((st'.lift X Y).post.length = (st.lift X Y).post.length) ↔ st'.post.length = st.post.length := by
            simp [St.lift]
          by_cases he : st'.post.length = st.post.length
          · rw [if_pos (hiff.2 he), if_pos he]
            exact hk st' hm
          · rw [if_neg (fun h => he (hiff.1 h)), if_neg he]
            exact ih fuel' (cnt + 1) st' k k' (by omega) (by omega) hm.1 fun st'' h => hk st'' (hm.trans h)
        cases g with
        | true =>
          simp only [if_true]
          rw [hmore, hk st (.refl hc)]
          generalize f st _ = o
          cases o <;> rfl
        | false =>
          simp only [Bool.false_eq_true, if_false]
          rw [hmore, hk st (.refl hc)]
          cases k st <;> rfl

/-- Moving back inside the part, or out of it. -/
theorem moveBack_lift {z : Nat} {X : PyStr} (hX : Beyond z X) (Y : PyStr) (n : Nat) (pre post : PyStr) :
    (∃ p q, moveBack n pre post = some (p, q) ∧ moveBack n (pre ++ X) (post ++ Y) = some (p ++ X, q ++ Y)) ∨
    (moveBack n pre post = none ∧ (moveBack n (pre ++ X) (post ++ Y) = none ∨
      ∃ p q u, moveBack n (pre ++ X) (post ++ Y) = some (p, q) ∧ q = u ++ (post ++ Y) ∧ u.length = n ∧ z ∈ u)) := by
  have far : ∀ n pre post p q, moveBack n pre post = some (p, q) →
      ∃ u, q = u ++ post ∧ u.length = n ∧ pre = u.reverse ++ p := by
    intro n
    induction n with
    | zero => intro pre post p q h; cases h; exact ⟨[], rfl, rfl, rfl⟩
    | succ n ih =>
      intro pre post p q h
      cases pre with
      | nil => cases h
      | cons c pre =>
        obtain ⟨u, h1, h2, h3⟩ := ih pre (c :: post) p q h
        exact ⟨u ++ [c], by simp [h1], by simp [h2], by simp [h3]⟩
  induction n generalizing pre post with
  | zero => exact .inl ⟨pre, post, rfl, rfl⟩
  | succ n ih =>
    cases pre with
    | cons c pre =>
      have := ih pre (c :: post)
      rcases this with ⟨p, q, h1, h2⟩ | ⟨h1, h2 | ⟨p, q, u, h2, h3, h4, h5⟩⟩
      · exact .inl ⟨p, q, h1, h2⟩
      · exact .inr ⟨h1, .inl h2⟩
      · exact .inr ⟨h1, .inr ⟨p, q, u ++ [c], h2, by simp [h3], by simp [h4], by simp [h5]⟩⟩
    | nil =>
      refine .inr ⟨rfl, ?_⟩
      rcases hX with rfl | ⟨X, rfl⟩
      · exact .inl rfl
      · simp only [List.nil_append, moveBack]
        cases hm : moveBack n X (z :: (post ++ Y)) with
        | none => exact .inl rfl
        | some pq =>
          obtain ⟨p, q⟩ := pq
          obtain ⟨u, h1, h2, -⟩ := far _ _ _ _ _ hm
          exact .inr ⟨p, q, u ++ [z], rfl, by simp [h1], by simp [h2], by simp⟩

/-- An expression that stays apart from `z` matches in a part as in the whole text. -/
theorem Re.apart_lifts {U : Uni} {z : Nat} (hU : U.Apart z) {X Y : PyStr} (hX : Beyond z X) (hY : Beyond z Y) {r : Re}
    (hr : r.apart z = true) : Lifts z X Y (r.m U) := by
  induction r with
  | eps => intro st k k' hc hk; exact hk st (.refl hc)
  | chr c =>
    intro st k k' hc hk
    obtain ⟨pre, post, caps⟩ := st
    simp only [Re.apart, Bool.not_eq_true'] at hr
    cases post with
    | nil =>
      rcases hY with rfl | ⟨Y, rfl⟩
      · rfl
      · simp [Re.m, St.lift, hr]
    | cons d cs =>
      simp only [Re.m, St.lift, List.cons_append]
      split
      · rename_i hb
        have := Nat.eq_of_beq_eq_true hb
        subst this
        refine hk ⟨c :: pre, cs, caps⟩ ⟨hc, [c], rfl, rfl, ?_⟩
        simp only [List.mem_singleton]
        rintro rfl
        rw [Nat.beq_refl] at hr
        cases hr
      · rfl
  | any =>
    intro st k k' hc hk
    obtain ⟨pre, post, caps⟩ := st
    simp only [Re.apart] at hr
    have hz := Nat.eq_of_beq_eq_true hr
    subst hz
    cases post with
    | nil =>
      rcases hY with rfl | ⟨Y, rfl⟩
      · rfl
      · simp [Re.m, St.lift]
    | cons d cs =>
      simp only [Re.m, St.lift, List.cons_append]
      split
      · rfl
      · rename_i hb
        refine hk ⟨d :: pre, cs, caps⟩ ⟨hc, [d], rfl, rfl, ?_⟩
        simp only [List.mem_singleton]
        rintro rfl
        exact hb rfl
  | cls neg items =>
    intro st k k' hc hk
    obtain ⟨pre, post, caps⟩ := st
    have hz := cls_apart hU hr
    cases post with
    | nil =>
      rcases hY with rfl | ⟨Y, rfl⟩
      · rfl
      · simp [Re.m, St.lift, hz]
    | cons d cs =>
      simp only [Re.m, St.lift, List.cons_append]
      split
      · rename_i hb
        refine hk ⟨d :: pre, cs, caps⟩ ⟨hc, [d], rfl, rfl, ?_⟩
        simp only [List.mem_singleton]
        rintro rfl
        rw [hz] at hb
        cases hb
      · rfl
  | seq a b iha ihb =>
    intro st k k' hc hk
    simp only [Re.apart, Bool.cond_false_right, Bool.and_eq_true] at hr
    simp only [Re.m]
    refine iha hr.1 st _ _ hc fun st' hm => ?_
    exact ihb hr.2 st' _ _ hm.1 fun st'' h => hk st'' (hm.trans h)
  | alt a b iha ihb =>
    intro st k k' hc hk
    simp only [Re.apart, Bool.cond_false_right, Bool.and_eq_true] at hr
    simp only [Re.m]
    rw [iha hr.1 st k k' hc hk, ihb hr.2 st k k' hc hk]
    cases Re.m U a st k <;> rfl
  | grp n r ih =>
    intro st k k' hc hk
    simp only [Re.m]
    refine ih hr st _ _ hc fun st' hm => ?_
    have hm' := hm
    obtain ⟨h2, w, h3, h4, h5⟩ := hm'
    have e1 : (st.lift X Y).post.take ((st.lift X Y).post.length - (st'.lift X Y).post.length) =
        st.post.take (st.post.length - st'.post.length) := by
      simp only [St.lift, List.length_append]
      rw [show st.post.length + Y.length - (st'.post.length + Y.length) = st.post.length - st'.post.length by omega,
        List.take_append_of_le_length (by omega)]
    have e2 : st.post.take (st.post.length - st'.post.length) = w := by
      rw [h3, show (w ++ st'.post).length - st'.post.length = w.length by simp, List.take_left]
    rw [e1]
    refine hk { st' with caps := (n, st.post.take (st.post.length - st'.post.length)) :: st'.caps } ⟨?_, w, h3, h4, h5⟩
    intro p hp
    rcases List.mem_cons.1 hp with rfl | hp
    · rw [e2]; exact h5
    · exact h2 p hp
  | ref n =>
    intro st k k' hc hk
    obtain ⟨pre, post, caps⟩ := st
    simp only [Re.m, St.lift]
    cases hcap : capOf n caps with
    | none => rfl
    | some v =>
      have hv : z ∉ v := hc _ (capOf_mem hcap)
      simp only
      rw [eatBlock_lift hY hv]
      cases he : eatBlock v pre post with
      | none => rfl
      | some pq =>
        obtain ⟨p, q⟩ := pq
        obtain ⟨h1, h2⟩ := eatBlock_some he
        exact hk ⟨p, q, caps⟩ ⟨hc, v, h1, h2, hv⟩
  | rep lo hi g r ih =>
    intro st k k' hc hk
    simp only [Re.m]
    refine repLoop_lift (ih hr) _ _ 0 st k k' (by omega) ?_ hc hk
    simp only [St.lift, List.length_append]
    omega
  | lookahead neg r ih =>
    intro st k k' hc hk
    simp only [Re.m]
    rw [ih hr st some some hc fun _ _ => rfl]
    cases hm : Re.m U r st some with
    | none => cases neg <;> simp [hk st (.refl hc)]
    | some st' =>
      obtain ⟨s2, h1, h2⟩ := Re.m_steps U r st some st' hm
      cases h2
      have hmv := Re.apart_moves (r := r) hU hr hc h1
      have := hk { st with caps := st'.caps } ⟨hmv.1, [], rfl, rfl, by simp⟩
      cases neg
      · exact this
      · rfl
  | lookbehind neg w r ih =>
    intro st k k' hc hk
    obtain ⟨pre, post, caps⟩ := st
    simp only [Re.apart, Bool.cond_false_right, Bool.and_eq_true] at hr
    simp only [Re.m]
    rcases moveBack_lift hX Y w pre post with ⟨p, q, h1, h2⟩ | ⟨h1, h2⟩
    · have h2' : moveBack w (St.lift X Y ⟨pre, post, caps⟩).pre (St.lift X Y ⟨pre, post, caps⟩).post = some (p ++ X, q ++ Y) := h2
      rw [h2', h1]
      have hc' : St.CapsFree z ⟨p, q, caps⟩ := hc
      have := ih hr.1 ⟨p, q, caps⟩ some some hc' fun _ _ => rfl
      simp only [St.lift] at this ⊢
      rw [this]
      cases hm : Re.m U r ⟨p, q, caps⟩ some with
      | none => cases neg <;> simp [← hk ⟨pre, post, caps⟩ (.refl hc), St.lift]
      | some st' =>
        obtain ⟨s2, h3, h4⟩ := Re.m_steps U r _ some st' hm
        cases h4
        have hmv := Re.apart_moves hU hr.1 hc' h3
        have := hk ⟨pre, post, st'.caps⟩ ⟨hmv.1, [], rfl, rfl, by simp⟩
        cases neg
        · simpa [St.lift] using this
        · rfl
    · rw [h1]
      have hfin : (if neg = true then k' (St.lift X Y ⟨pre, post, caps⟩) else none) =
          Option.map (St.lift X Y) (if neg = true then k ⟨pre, post, caps⟩ else none) := by
        cases neg
        · rfl
        · simpa using hk ⟨pre, post, caps⟩ (.refl hc)
      rcases h2 with h2 | ⟨p, q, u, h2, h3, h4, h5⟩
      · have h2' : moveBack w (St.lift X Y ⟨pre, post, caps⟩).pre (St.lift X Y ⟨pre, post, caps⟩).post = none := h2
        rw [h2']
        exact hfin
      · have h2' : moveBack w (St.lift X Y ⟨pre, post, caps⟩).pre (St.lift X Y ⟨pre, post, caps⟩).post = some (p, q) := h2
        rw [h2']
        have hno : Re.m U r { (St.lift X Y ⟨pre, post, caps⟩) with pre := p, post := q } some = none := by
          cases hm : Re.m U r { (St.lift X Y ⟨pre, post, caps⟩) with pre := p, post := q } some with
          | none => rfl
          | some st' =>
            exfalso
            obtain ⟨s2, h6, h7⟩ := Re.m_steps U r _ some st' hm
            cases h7
            have hc' : St.CapsFree z { (St.lift X Y ⟨pre, post, caps⟩) with pre := p, post := q } := hc
            obtain ⟨-, v, h8, -, h9⟩ := Re.apart_moves hU hr.1 hc' h6
            have h10 := Re.least_le h6
            have h11 := Nat.le_of_ble_eq_true hr.2
            simp only at h8 h10
            have hlen : u.length ≤ v.length := by
              have := congrArg List.length h8
              simp only [List.length_append] at this
              omega
            have hpre : u <+: v := by
              have a1 : u <+: q := ⟨_, h3.symm⟩
              have a2 : v <+: q := ⟨_, h8.symm⟩
              exact List.prefix_of_prefix_length_le a1 a2 hlen
            exact h9 (hpre.subset h5)
        simp only
        rw [hno]
        exact hfin
  | bol => cases hr
  | eol => cases hr
  | wordb neg =>
    intro st k k' hc hk
    obtain ⟨pre, post, caps⟩ := st
    simp only [Re.apart, Bool.not_eq_true'] at hr
    subst hr
    have hw : (U.isAlnum z || z == 95) = false := by simp [hU.alnum, hU.under]
    have hb : atWordB U (pre ++ X) (post ++ Y) = atWordB U pre post := by
      rcases hX with rfl | ⟨X, rfl⟩ <;> rcases hY with rfl | ⟨Y, rfl⟩ <;> cases pre <;> cases post <;>
        simp [atWordB, hw]
    simp only [Re.m, St.lift, hb]
    have hk0 := hk ⟨pre, post, caps⟩ (.refl hc)
    cases pre with
    | cons c pre => simp [List.cons_append]; split <;> first | rfl | exact hk0
    | nil =>
      cases post with
      | cons c post => simp [List.cons_append]; split <;> first | rfl | exact hk0
      | nil =>
        have : atWordB U [] [] = false := rfl
        simp [this]

/-! ## Substitution -/

/-- The scan of the part after `z` does not depend on what is before. -/
theorem subGo_left {U : Uni} {z : Nat} (hU : U.Apart z) {r : Re} (hr : r.apart z = true) (tm : List TItem)
    {X : PyStr} (hX : Beyond z X) (fuel : Nat) : ∀ (fuel' : Nat) (adv : Bool) (pre post : PyStr),
      2 * post.length + (cond adv 0 1) + 1 ≤ fuel → 2 * post.length + (cond adv 0 1) + 1 ≤ fuel' →
      subGo U r tm fuel' adv (pre ++ X) post = subGo U r tm fuel adv pre post := by
  induction fuel with
  | zero => intro fuel' adv pre post h; omega
  | succ fuel ih =>
    intro fuel' adv pre post h1 h2
    obtain ⟨fuel', rfl⟩ : ∃ n, fuel' = n + 1 := ⟨fuel' - 1, by omega⟩
    simp only [subGo]
    have hl := Re.apart_lifts hU hX (Y := []) (.inl rfl) hr ⟨pre, post, []⟩
      (fun s => if (adv && s.post.length == post.length) = true then none else some s)
      (fun s => if (adv && s.post.length == post.length) = true then none else some s)
      (by intro p hp; cases hp) (by
        intro st' _
        simp only [St.lift, List.append_nil]
        split <;> simp [St.lift])
    simp only [St.lift, List.append_nil] at hl
    rw [hl]
    cases hm : Re.m U r ⟨pre, post, []⟩ (fun s => if (adv && s.post.length == post.length) = true then none else some s) with
    | none =>
      simp only [Option.map_none]
      cases post with
      | nil => rfl
      | cons c cs =>
        have := ih fuel' false (c :: pre) cs (by simp only [List.length_cons, cond_false] at *; omega)
          (by simp only [List.length_cons, cond_false] at *; omega)
        simp only
        rw [← this]
        rfl
    | some s =>
      simp only [Option.map_some]
      obtain ⟨s2, h3, h4⟩ := Re.m_steps U r _ _ s hm
      have hle := Re.least_le h3
      split at h4
      · cases h4
      · rename_i hne
        cases h4
        have := ih fuel' (s.post.length == post.length) s.pre s.post (by
            cases adv <;> cases he : (s.post.length == post.length) <;> simp_all <;> omega) (by
            cases adv <;> cases he : (s.post.length == post.length) <;> simp_all <;> omega)
        simp only [St.lift, List.append_nil]
        rw [this]

theorem subGo_apart {U : Uni} {z : Nat} (hU : U.Apart z) {r : Re} (hr : r.apart z = true) (tm : List TItem)
    (b B : PyStr) (hB : B = subGo U r tm (2 * b.length + 2) false [] b) (fuel : Nat) :
    ∀ (fuel' : Nat) (adv : Bool) (pre post : PyStr),
      2 * post.length + (cond adv 0 1) + 1 ≤ fuel →
      2 * (post.length + 1 + b.length) + (cond adv 0 1) + 1 ≤ fuel' →
      subGo U r tm fuel' adv pre (post ++ z :: b) = subGo U r tm fuel adv pre post ++ z :: B := by
  induction fuel with
  | zero => intro fuel' adv pre post h; omega
  | succ fuel ih =>
    intro fuel' adv pre post h1 h2
    obtain ⟨fuel', rfl⟩ : ∃ n, fuel' = n + 1 := ⟨fuel' - 1, by omega⟩
    simp only [subGo]
    have hl := Re.apart_lifts hU (X := []) (.inl rfl) (Y := z :: b) (.inr ⟨b, rfl⟩) hr ⟨pre, post, []⟩
      (fun s => if (adv && s.post.length == post.length) = true then none else some s)
      (fun s => if (adv && s.post.length == (post ++ z :: b).length) = true then none else some s)
      (by intro p hp; cases hp) (by
        intro st' _
        have : ((st'.post ++ z :: b).length == (post ++ z :: b).length) = (st'.post.length == post.length) := by
          rw [Bool.eq_iff_iff]; simp [List.length_append]
        simp only [St.lift, this]
        split <;> simp [St.lift])
    simp only [St.lift, List.append_nil] at hl
    rw [hl]
    cases hm : Re.m U r ⟨pre, post, []⟩ (fun s => if (adv && s.post.length == post.length) = true then none else some s) with
    | none =>
      simp only [Option.map_none]
      cases post with
      | nil =>
        simp only [List.nil_append, List.cons.injEq, true_and]
        have := subGo_left hU hr tm (X := z :: pre) (.inr ⟨pre, rfl⟩) (2 * b.length + 2) fuel' false [] b
          (by simp) (by simp only [List.length_nil, cond_false] at *; omega)
        rw [List.nil_append] at this
        rw [hB, this]
      | cons c cs =>
        have := ih fuel' false (c :: pre) cs (by simp only [List.length_cons, cond_false] at *; omega)
          (by simp only [List.length_cons, cond_false] at *; omega)
        simp only [List.cons_append, List.cons.injEq, true_and]
        exact this
    | some s =>
      simp only [Option.map_some]
      obtain ⟨s2, h3, h4⟩ := Re.m_steps U r _ _ s hm
      have hle := Re.least_le h3
      split at h4
      · cases h4
      · rename_i hne
        cases h4
        have he : ((s.post ++ z :: b).length == (post ++ z :: b).length) = (s.post.length == post.length) := by
          rw [Bool.eq_iff_iff]; simp [List.length_append]
        have := ih fuel' (s.post.length == post.length) s.pre s.post (by
            cases adv <;> cases he : (s.post.length == post.length) <;> simp_all <;> omega) (by
            cases adv <;> cases he : (s.post.length == post.length) <;> simp_all <;> omega)
        simp only [St.lift, List.append_nil]
        rw [he, this, List.append_assoc]

/-- `re.sub` with such an expression works part by part. -/
theorem reSubC_apart {U : Uni} {z : Nat} (hU : U.Apart z) {r : Re} (hr : r.apart z = true) (tm : List TItem)
    (a b : PyStr) : reSubC U r tm (a ++ z :: b) = reSubC U r tm a ++ z :: reSubC U r tm b := by
  unfold reSubC
  refine subGo_apart hU hr tm b _ rfl _ _ false [] a (by simp) ?_
  simp only [List.length_append, List.length_cons, cond_false]
  omega

theorem lacks_iff {z : Nat} {s : PyStr} : lacks z s = true ↔ z ∉ s := by
  induction s with
  | nil => simp [lacks]
  | cons c s ih =>
    simp only [lacks, List.mem_cons, not_or]
    cases h : Nat.beq c z with
    | true => simp [Nat.eq_of_beq_eq_true h]
    | false =>
      have : z ≠ c := by rintro rfl; rw [Nat.beq_refl] at h; cases h
      simp [ih, this]

theorem isPrefixOf_apart {z : Nat} {x : PyStr} (hx : z ∉ x) (a b : PyStr) :
    x.isPrefixOf (a ++ z :: b) = x.isPrefixOf a := by
  induction x generalizing a with
  | nil => simp
  | cons c x ih =>
    have h1 : c ≠ z := fun e => hx (by simp [e])
    cases a with
    | nil => simp [List.isPrefixOf, h1]
    | cons d a => simp only [List.cons_append, List.isPrefixOf, ih fun h => hx (by simp [h])]

/-- `str.replace` works part by part. -/
theorem pyReplace_apart {z : Nat} {x : PyStr} (hx : z ∉ x) (h0 : x ≠ []) (y a b : PyStr) :
    pyReplace (a ++ z :: b) x y = pyReplace a x y ++ z :: pyReplace b x y := by
  obtain ⟨x0, xs, rfl⟩ : ∃ c l, x = c :: l := by
    cases x with
    | nil => exact absurd rfl h0
    | cons c l => exact ⟨c, l, rfl⟩
  have key : ∀ (a : PyStr) (n : Nat), n ≤ a.length → replaceGo (x0 :: xs) y n (a ++ z :: b) =
      replaceGo (x0 :: xs) y n a ++ z :: replaceGo (x0 :: xs) y 0 b := by
    intro a
    induction a with
    | nil =>
      intro n hn
      have : n = 0 := by simpa using hn
      subst this
      have h1 : x0 ≠ z := fun e => hx (by simp [e])
      have h2 : (x0 == z) = false := by simpa using h1
      simp [replaceGo, List.isPrefixOf, h2]
    | cons c a ih =>
      intro n hn
      cases n with
      | succ n =>
        simp only [List.cons_append, replaceGo]
        exact ih n (by simpa using hn)
      | zero =>
        have hp := isPrefixOf_apart hx (c :: a) b
        simp only [List.cons_append] at hp
        simp only [List.cons_append, replaceGo]
        rw [hp]
        cases h : (x0 :: xs).isPrefixOf (c :: a) with
        | true =>
          have hle := (List.isPrefixOf_iff_prefix.1 h).length_le
          simp only
          rw [ih _ (by simp only [List.length_cons] at *; omega), List.append_assoc]
        | false =>
          simp only
          rw [ih 0 (by omega)]
          rfl
  exact key a 0 (by omega)

/-! ## Programs -/

/-- Case mapping and normalisation work part by part around `z`. -/
def Env.SplitsAt (E : Env) (z : Nat) : Prop :=
  ∀ h, h.isUnicode = true → ∀ a b a' b', E.host h a = .ok a' → E.host h b = .ok b' →
    E.host h (a ++ z :: b) = .ok (a' ++ z :: b')

/-- What the condition asks. -/
theorem Cond.words_eval {c : Cond} {ws : List PyStr} (h : c.words = some ws) (s : PyStr) :
    c.eval s = ws.any fun w => isInfix w s := by
  induction c generalizing ws with
  | static b =>
    cases b with
    | true => cases h
    | false => cases h; rfl
  | has x => cases h; simp [Cond.eval]
  | hasAny xs => cases h; rfl
  | not c => cases h
  | and a b iha ihb =>
    cases b with
    | static b =>
      cases b with
      | true =>
        simp only [Cond.words, cond_true] at h
        simp [Cond.eval, iha h]
      | false =>
        simp only [Cond.words, cond_false] at h
        cases h
        simp [Cond.eval]
    | _ => cases h
  | or a b iha ihb =>
    simp only [Cond.words] at h
    split at h
    · rename_i x y hx hy
      cases h
      simp [Cond.eval, iha hx, ihb hy]
    · cases h

/-- A program that only replaces strings containing one of the words does nothing without them. -/
theorem Prog.onlyOn_sound {E : Env} {ws : List PyStr} {p : Prog} (h : p.onlyOn ws = true) {s : PyStr}
    (hs : ∀ w ∈ ws, isInfix w s = false) : p.run E s = .ok s := by
  induction p with
  | done => rfl
  | rep x y k ih =>
    simp only [Prog.onlyOn, Bool.cond_false_right, Bool.and_eq_true] at h
    obtain ⟨w, h1, h2⟩ := List.any_eq_true.1 h.1
    have hx : ¬ x <:+: s := by
      intro hi
      have := hs w h1
      rw [isInfix_iff.2 ((isInfix_iff.1 h2).trans hi)] at this
      cases this
    have hne : x ≠ [] := by
      rintro rfl
      have : w = [] := by simpa using isInfix_iff.1 h2
      subst this
      have := hs _ h1
      cases s <;> simp [isInfix] at this
    simp only [Prog.run, pyReplace_of_not_infix hne hx]
    exact ih h.2
  | _ => cases h

theorem Prog.run_ite (E : Env) (c : Cond) (t e k : Prog) (s : PyStr) : (Prog.ite c t e k).run E s =
    match cond (c.eval s) (t.run E s) (e.run E s) with
    | .ok s' => k.run E s'
    | .error x => .error x := by
  simp only [Prog.run]
  cases c.eval s <;> rfl

/-- The program works part by part. -/
theorem Prog.apart_sound {E : Env} {z : Nat} (ht : E.Total) (hU : E.uni.Apart z) (hE : E.SplitsAt z) {p : Prog}
    (h : p.apart z = true) {a b a' b' : PyStr} (ha : p.run E a = .ok a') (hb : p.run E b = .ok b') :
    p.run E (a ++ z :: b) = .ok (a' ++ z :: b') := by
  induction p generalizing a b a' b' with
  | done => cases ha; cases hb; rfl
  | rep x y k ih =>
    simp only [Prog.apart, Bool.cond_false_right, Bool.cond_false_left, Bool.and_eq_true, Bool.not_eq_true'] at h
    have hx := lacks_iff.1 h.1
    have h0 : x ≠ [] := by rintro rfl; simp at h
    simp only [Prog.run] at *
    rw [pyReplace_apart hx h0]
    exact ih h.2.2 ha hb
  | sub p t k ih =>
    simp only [Prog.apart] at h
    simp only [Prog.run] at *
    cases hc : compileSub p t with
    | none => rw [hc] at h; cases h
    | some rt =>
      obtain ⟨r, tm⟩ := rt
      rw [hc] at h ha hb
      simp only [Bool.cond_false_right, Bool.and_eq_true] at h ha hb ⊢
      rw [reSubC_apart hU h.1]
      exact ih h.2 ha hb
  | ite c t e k iht ihe ihk =>
    simp only [Prog.apart, Bool.cond_false_right, Bool.and_eq_true] at h
    obtain ⟨h1, h2⟩ := h
    -- what the branches give on the whole text
    have key : ∀ x y, cond (c.eval a) (t.run E a) (e.run E a) = .ok x →
        cond (c.eval b) (t.run E b) (e.run E b) = .ok y →
        cond (c.eval (a ++ z :: b)) (t.run E (a ++ z :: b)) (e.run E (a ++ z :: b)) =
          .ok (x ++ z :: y) := by
      intro x y hx hy
      cases hw : c.words with
      | none => rw [hw] at h1; cases h1
      | some ws =>
        rw [hw] at h1
        cases ws with
        | nil =>
          rw [show ∀ s, c.eval s = false from fun s => Cond.words_eval hw s] at hx hy ⊢
          exact ihe h1 hx hy
        | cons w ws =>
          simp only [Bool.and_eq_true] at h1
          obtain ⟨⟨h3, h4⟩, h5⟩ := h1
          have he : e = .done := by cases e <;> first | rfl | cases h3
          subst he
          -- the condition only skips what would do nothing
          have same : ∀ s, cond (c.eval s) (t.run E s) (Prog.done.run E s) = t.run E s := by
            intro s
            cases hs : c.eval s with
            | true => rfl
            | false =>
              rw [Cond.words_eval hw s] at hs
              exact (Prog.onlyOn_sound h4 fun w hw => by simpa using List.any_eq_false.1 hs w hw).symm
          rw [same] at hx hy ⊢
          exact iht h5 hx hy
    rw [Prog.run_ite] at ha hb ⊢
    cases hx : cond (c.eval a) (t.run E a) (e.run E a) with
    | error er => rw [hx] at ha; cases ha
    | ok x =>
      cases hy : cond (c.eval b) (t.run E b) (e.run E b) with
      | error er => rw [hy] at hb; cases hb
      | ok y =>
        rw [hx] at ha
        rw [hy] at hb
        rw [key x y hx hy]
        exact ihk h2 ha hb
  | attempt p k ihp ihk =>
    simp only [Prog.apart, Bool.and_eq_true] at h
    obtain ⟨x, hx⟩ := Prog.safe_total ht h.1.1 a
    obtain ⟨y, hy⟩ := Prog.safe_total ht h.1.1 b
    simp only [Prog.run, hx, hy] at ha hb
    simp only [Prog.run, ihp h.1.2 hx hy]
    exact ihk h.2 ha hb
  | host h' k ih =>
    simp only [Prog.apart, Bool.and_eq_true] at h
    simp only [Prog.run] at *
    cases hx : E.host h' a with
    | error er => rw [hx] at ha; cases ha
    | ok x =>
      cases hy : E.host h' b with
      | error er => rw [hy] at hb; cases hb
      | ok y =>
        rw [hx] at ha
        rw [hy] at hb
        rw [hE h' h.1 a b x y hx hy]
        exact ih h.2 ha hb
  | _ => cases h

end Verif
