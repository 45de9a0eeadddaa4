import Verif.Lib.Replace
import Verif.Core.Regex

/-!
# Regular expressions made of literal words

What `re.sub` does for patterns built from finite lists of words: as a plain scan of the text.
-/

namespace Verif

/-- The words of an expression without groups, classes and repetitions, in the order in which they
are tried. -/
def Re.words : Re → Option (List PyStr)
  | .eps => some [[]]
  | .chr c => some [[c]]
  | .seq a b =>
    match a.words, b.words with
    | some l, some m => some (l.flatMap fun u => m.map fun v => u ++ v)
    | _, _ => none
  | .alt a b =>
    match a.words, b.words with
    | some l, some m => some (l ++ m)
    | _, _ => none
  | _ => none

/-- The state after a word. -/
def St.eat (st : St) (w : PyStr) : St := ⟨w.reverse ++ st.pre, st.post.drop w.length, st.caps⟩

/-- Try one word. -/
def tryWord (st : St) (k : St → Option St) (w : PyStr) : Option St :=
  if w <+: st.post then k (st.eat w) else none

/-- Try the words in order. -/
def tryWords (st : St) (k : St → Option St) : List PyStr → Option St
  | [] => none
  | w :: l => match tryWord st k w with
    | some r => some r
    | none => tryWords st k l

theorem tryWords_append (st : St) (k : St → Option St) (l m : List PyStr) :
    tryWords st k (l ++ m) = (match tryWords st k l with | some r => some r | none => tryWords st k m) := by
  induction l with
  | nil => rfl
  | cons w l ih =>
    simp only [List.cons_append, tryWords]
    cases tryWord st k w with
    | some r => rfl
    | none => exact ih

theorem St.eat_append (st : St) (u v : PyStr) : (st.eat u).eat v = st.eat (u ++ v) := by
  simp [St.eat, List.drop_drop]

theorem tryWords_map (st : St) (k : St → Option St) (u : PyStr) (m : List PyStr) :
    tryWords st k (m.map fun v => u ++ v) = (if u <+: st.post then tryWords (st.eat u) k m else none) := by
  induction m with
  | nil => simp [tryWords]
  | cons v m ih =>
    simp only [List.map_cons, tryWords, ih]
    by_cases hu : u <+: st.post
    · simp only [if_pos hu]
      have : tryWord st k (u ++ v) = tryWord (st.eat u) k v := by
        unfold tryWord
        rw [St.eat_append]
        have : (u ++ v <+: st.post) ↔ v <+: (st.eat u).post := by
          obtain ⟨t, ht⟩ := hu
          have : (st.eat u).post = t := by
            show st.post.drop u.length = t
            rw [← ht, List.drop_left]
          rw [this, ← ht, List.prefix_append_right_inj]
        simp only [this]
      rw [this]
    · have : tryWord st k (u ++ v) = none := by
        unfold tryWord
        rw [if_neg fun h => hu ((List.prefix_append u v).trans h)]
      rw [this, if_neg hu, if_neg hu]

theorem Re.m_seq (U : Uni) (a b : Re) (st : St) (k : St → Option St) :
    (Re.seq a b).m U st k = a.m U st (fun st' => b.m U st' k) := by
  simp only [Re.m]

theorem Re.m_words {U : Uni} {r : Re} {l : List PyStr} (h : r.words = some l) (st : St) (k : St → Option St) :
    r.m U st k = tryWords st k l := by
  induction r generalizing l st k with
  | eps =>
    cases h
    simp only [Re.m, tryWords, tryWord, List.nil_prefix, if_true]
    have : st.eat [] = st := rfl
    rw [this]
    cases k st <;> rfl
  | chr c =>
    cases h
    simp only [Re.m, tryWords, tryWord]
    cases hp : st.post with
    | nil => simp
    | cons d cs =>
      by_cases hc : c = d
      · subst hc
        have : [c] <+: c :: cs := ⟨cs, rfl⟩
        simp only [Nat.beq_refl, if_true, if_pos this]
        have : st.eat [c] = { st with pre := c :: st.pre, post := cs } := by
          simp [St.eat, hp]
        rw [this]
        cases k _ <;> rfl
      · have h1 : Nat.beq c d = false := by
          cases hb : Nat.beq c d with
          | false => rfl
          | true => exact absurd (Nat.eq_of_beq_eq_true hb) hc
        have : ¬ [c] <+: d :: cs := by
          rintro ⟨t, ht⟩
          simp only [List.cons_append, List.cons.injEq] at ht
          exact hc ht.1
        simp only [h1, if_neg this, Bool.false_eq_true, if_false]
  | seq a b iha ihb =>
    simp only [Re.words] at h
    split at h
    · rename_i l1 l2 h1 h2
      cases h
      simp only [Re.m]
      rw [iha h1]
      have : (fun st' => Re.m U b st' k) = fun st' => tryWords st' k l2 := funext fun st' => ihb h2 st' k
      rw [this]
      clear iha h1
      induction l1 with
      | nil => rfl
      | cons u l1 ih =>
        rw [List.flatMap_cons, tryWords_append, tryWords_map]
        simp only [tryWords, tryWord]
        rw [ih]
    · cases h
  | alt a b iha ihb =>
    simp only [Re.words] at h
    split at h
    · rename_i l1 l2 h1 h2
      cases h
      simp only [Re.m]
      rw [iha h1, ihb h2, tryWords_append]
      cases tryWords st k l1 <;> rfl
    · cases h
  | _ => cases h

/-- Some word begins the text. -/
def anyPrefix (l : List PyStr) (t : PyStr) : Bool := l.any fun w => w.isPrefixOf t

theorem anyPrefix_iff {l : List PyStr} {t : PyStr} : anyPrefix l t = true ↔ ∃ w ∈ l, w <+: t := by
  simp [anyPrefix, List.any_eq_true, List.isPrefixOf_iff_prefix]

/-- Looking for a word succeeds if some word begins the text; no group is set. -/
theorem tryWords_some {st : St} {l : List PyStr} :
    (anyPrefix l st.post = true → ∃ s', tryWords st some l = some s' ∧ s'.caps = st.caps) ∧
    (anyPrefix l st.post = false → tryWords st some l = none) := by
  induction l with
  | nil => exact ⟨fun h => by simp [anyPrefix] at h, fun _ => rfl⟩
  | cons w l ih =>
    simp only [tryWords, tryWord]
    by_cases hw : w <+: st.post
    · rw [if_pos hw]
      refine ⟨fun _ => ⟨_, rfl, rfl⟩, fun h => ?_⟩
      have : anyPrefix (w :: l) st.post = true := anyPrefix_iff.2 ⟨w, by simp, hw⟩
      rw [this] at h; cases h
    · rw [if_neg hw]
      have : anyPrefix (w :: l) st.post = anyPrefix l st.post := by
        have hp : w.isPrefixOf st.post = false := by
          rw [← Bool.not_eq_true, List.isPrefixOf_iff_prefix]; exact hw
        simp [anyPrefix, hp]
      rw [this]
      exact ih

theorem Re.m_ahead {U : Uni} {r : Re} {l : List PyStr} (h : r.words = some l) (neg : Bool) (st : St)
    (k : St → Option St) :
    (Re.lookahead neg r).m U st k = (if anyPrefix l st.post = neg then none else k st) := by
  simp only [Re.m]
  rw [Re.m_words h]
  cases ha : anyPrefix l st.post with
  | true =>
    obtain ⟨s', h1, h2⟩ := tryWords_some.1 ha
    rw [h1]
    cases neg
    · simp only [Bool.false_eq_true, if_false]
      rw [h2]
      rfl
    · rfl
  | false =>
    rw [tryWords_some.2 ha]
    cases neg <;> rfl

theorem moveBack_some {n : Nat} {pre post p q : PyStr} (h : moveBack n pre post = some (p, q)) :
    ∃ w, w.length = n ∧ pre = w ++ p ∧ q = w.reverse ++ post := by
  induction n generalizing pre post with
  | zero => cases h; exact ⟨[], rfl, rfl, rfl⟩
  | succ n ih =>
    cases pre with
    | nil => cases h
    | cons c pre =>
      obtain ⟨w, h1, h2, h3⟩ := ih h
      exact ⟨c :: w, by simp [h1], by simp [h2], by simp [h3]⟩

theorem moveBack_none {n : Nat} {pre post : PyStr} (h : moveBack n pre post = none) : pre.length < n := by
  induction n generalizing pre post with
  | zero => cases h
  | succ n ih =>
    cases pre with
    | nil => simp
    | cons c pre => simp only [moveBack] at h; have := ih h; simp; omega

theorem Re.m_behind {U : Uni} {r : Re} {l : List PyStr} (h : r.words = some l) {n : Nat}
    (hn : ∀ w ∈ l, w.length = n) (neg : Bool) (st : St) (k : St → Option St) :
    (Re.lookbehind neg n r).m U st k = (if anyPrefix (l.map List.reverse) st.pre = neg then none else k st) := by
  simp only [Re.m]
  cases hm : moveBack n st.pre st.post with
  | none =>
    have hl := moveBack_none hm
    have : anyPrefix (l.map List.reverse) st.pre = false := by
      cases ha : anyPrefix (l.map List.reverse) st.pre with
      | false => rfl
      | true =>
        obtain ⟨w, hw, hp⟩ := anyPrefix_iff.1 ha
        obtain ⟨v, hv, rfl⟩ := List.mem_map.1 hw
        have := hp.length_le
        rw [List.length_reverse, hn v hv] at this
        omega
    rw [this]
    cases neg <;> rfl
  | some pq =>
    obtain ⟨p, q⟩ := pq
    obtain ⟨w, hw1, hw2, hw3⟩ := moveBack_some hm
    simp only
    rw [Re.m_words h]
    have e : anyPrefix l q = anyPrefix (l.map List.reverse) st.pre := by
      rw [Bool.eq_iff_iff, anyPrefix_iff, anyPrefix_iff]
      constructor
      · rintro ⟨v, hv, hp⟩
        refine ⟨v.reverse, List.mem_map_of_mem hv, ?_⟩
        rw [hw3] at hp
        obtain ⟨t, ht⟩ := hp
        have hl : v.length = w.reverse.length := by rw [hn v hv, List.length_reverse, hw1]
        have := (List.append_inj ht hl).1
        rw [hw2, this]
        simp
      · rintro ⟨v, hv, hp⟩
        obtain ⟨v, hv', rfl⟩ := List.mem_map.1 hv
        refine ⟨v, hv', ?_⟩
        rw [hw2] at hp
        obtain ⟨t, ht⟩ := hp
        have hl : v.reverse.length = w.length := by rw [List.length_reverse, hn v hv', hw1]
        have := (List.append_inj ht hl).1
        rw [hw3, ← this]
        simp
    cases ha : anyPrefix l q with
    | true =>
      obtain ⟨s', h1, h2⟩ := (tryWords_some (st := { st with pre := p, post := q })).1 ha
      rw [h1, ← e, ha]
      cases neg
      · simp only [Bool.false_eq_true, if_false]
        rw [h2]
        rfl
      · rfl
    | false =>
      rw [(tryWords_some (st := { st with pre := p, post := q })).2 ha, ← e, ha]
      cases neg <;> rfl

/-! ## Words of one character -/

/-- The characters of a list of one-character words. -/
def asChars : List PyStr → Option PyStr
  | [] => some []
  | [c] :: l => match asChars l with
    | some m => some (c :: m)
    | none => none
  | _ => none

theorem asChars_map {l : List PyStr} {m : PyStr} (h : asChars l = some m) : l = m.map fun c => [c] := by
  induction l generalizing m with
  | nil => cases h; rfl
  | cons w l ih =>
    match w, h with
    | [c], h =>
      simp only [asChars] at h
      split at h
      · rename_i m' hm
        cases h
        rw [ih hm]; rfl
      · cases h

theorem tryWords_chars {st : St} {k : St → Option St} {m : PyStr} :
    tryWords st k (m.map fun c => [c]) = (match st.post with
      | [] => none
      | c :: t => if c ∈ m then k ⟨c :: st.pre, t, st.caps⟩ else none) := by
  induction m with
  | nil =>
    simp only [List.map_nil, tryWords]
    cases st.post <;> simp
  | cons d m ih =>
    simp only [List.map_cons, tryWords, tryWord, ih]
    cases hp : st.post with
    | nil => simp
    | cons c t =>
      by_cases hd : d = c
      · subst hd
        have h1 : [d] <+: d :: t := ⟨t, rfl⟩
        have h2 : st.eat [d] = ⟨d :: st.pre, t, st.caps⟩ := by simp [St.eat, hp]
        simp only [if_pos h1, h2, List.mem_cons, true_or, if_true]
        cases hk : k ⟨d :: st.pre, t, st.caps⟩ with
        | some r => rfl
        | none => simp only; split <;> rfl
      · have h1 : ¬ [d] <+: c :: t := by
          rintro ⟨z, hz⟩
          simp only [List.cons_append, List.cons.injEq] at hz
          exact hd hz.1
        simp only [if_neg h1, List.mem_cons, Ne.symm hd, false_or]

theorem Re.m_grpChars {U : Uni} {r : Re} {l : List PyStr} {m : PyStr} (h : r.words = some l) (hc : asChars l = some m)
    (n : Nat) (st : St) (k : St → Option St) :
    (Re.grp n r).m U st k = (match st.post with
      | [] => none
      | c :: t => if c ∈ m then k ⟨c :: st.pre, t, (n, [c]) :: st.caps⟩ else none) := by
  simp only [Re.m]
  rw [Re.m_words h, asChars_map hc, tryWords_chars]
  cases hp : st.post with
  | nil => rfl
  | cons c t => simp

/-! ## Scans -/

/-- Go through the text and rewrite single characters, depending on what comes before and after. -/
def walk (P : PyStr → Nat → PyStr → Bool) (out : Nat → PyStr) : PyStr → PyStr → PyStr
  | _, [] => []
  | pre, c :: t => (if P pre c t then out c else [c]) ++ walk P out (c :: pre) t

theorem subGo_walk {U : Uni} {r : Re} {tm : List TItem} {P : PyStr → Nat → PyStr → Bool} {out : Nat → PyStr}
    (hm : ∀ pre c t k, r.m U ⟨pre, c :: t, []⟩ k = if P pre c t then k ⟨c :: pre, t, [(1, [c])]⟩ else none)
    (hn : ∀ pre k, r.m U ⟨pre, [], []⟩ k = none) (ho : ∀ c, expand [(1, [c])] tm = out c)
    (fuel : Nat) (pre s : PyStr) (hf : s.length < fuel) : subGo U r tm fuel false pre s = walk P out pre s := by
  induction s generalizing fuel pre with
  | nil =>
    cases fuel with
    | zero => cases hf
    | succ fuel => simp only [subGo, hn, walk]
  | cons c t ih =>
    cases fuel with
    | zero => cases hf
    | succ fuel =>
      have hf' : t.length < fuel := by simpa using hf
      simp only [subGo, hm, walk, Bool.false_and]
      by_cases hP : P pre c t = true
      · simp only [hP, if_true, Bool.false_eq_true, if_false, ho]
        have : (t.length == (c :: t).length) = false := by simp
        rw [this, ih _ _ hf']
      · simp only [hP, Bool.false_eq_true, if_false]
        rw [ih _ _ hf']
        rfl

theorem reSubC_walk {U : Uni} {r : Re} {tm : List TItem} {P : PyStr → Nat → PyStr → Bool} {out : Nat → PyStr}
    (hm : ∀ pre c t k, r.m U ⟨pre, c :: t, []⟩ k = if P pre c t then k ⟨c :: pre, t, [(1, [c])]⟩ else none)
    (hn : ∀ pre k, r.m U ⟨pre, [], []⟩ k = none) (ho : ∀ c, expand [(1, [c])] tm = out c) (s : PyStr) :
    reSubC U r tm s = walk P out [] s :=
  subGo_walk hm hn ho _ _ _ (by omega)

/-- Insert a string between a character of one kind and a character of another. -/
def walkPairs (C V : PyStr) (mid : PyStr) : PyStr → PyStr
  | c :: d :: t => if c ∈ C ∧ d ∈ V then c :: mid ++ d :: walkPairs C V mid t else c :: walkPairs C V mid (d :: t)
  | s => s

theorem subGo_pairs {U : Uni} {r : Re} {tm : List TItem} {C V mid : PyStr}
    (hm : ∀ pre c d t k, r.m U ⟨pre, c :: d :: t, []⟩ k =
      if c ∈ C ∧ d ∈ V then k ⟨d :: c :: pre, t, [(2, [d]), (1, [c])]⟩ else none)
    (h1 : ∀ pre c k, r.m U ⟨pre, [c], []⟩ k = none)
    (hn : ∀ pre k, r.m U ⟨pre, [], []⟩ k = none)
    (ho : ∀ c d, expand [(2, [d]), (1, [c])] tm = c :: mid ++ [d])
    (fuel : Nat) (pre s : PyStr) (hf : s.length < fuel) : subGo U r tm fuel false pre s = walkPairs C V mid s := by
  induction fuel generalizing pre s with
  | zero => cases hf
  | succ fuel ih =>
    match s with
    | [] => simp only [subGo, hn, walkPairs]
    | [c] =>
      simp only [subGo, h1, walkPairs]
      rw [ih _ _ (by simpa using hf)]
      rfl
    | c :: d :: t =>
      simp only [subGo, hm, walkPairs, Bool.false_and]
      by_cases hP : c ∈ C ∧ d ∈ V
      · simp only [hP, and_self, if_true, Bool.false_eq_true, if_false, ho]
        have : (t.length == (c :: d :: t).length) = false := by
          simp only [List.length_cons, beq_eq_false_iff_ne]; omega
        rw [this, ih _ _ (by simp only [List.length_cons] at hf; omega)]
        simp
      · simp only [hP, if_false]
        rw [ih _ _ (by simpa using hf)]

theorem reSubC_pairs {U : Uni} {r : Re} {tm : List TItem} {C V mid : PyStr}
    (hm : ∀ pre c d t k, r.m U ⟨pre, c :: d :: t, []⟩ k =
      if c ∈ C ∧ d ∈ V then k ⟨d :: c :: pre, t, [(2, [d]), (1, [c])]⟩ else none)
    (h1 : ∀ pre c k, r.m U ⟨pre, [c], []⟩ k = none)
    (hn : ∀ pre k, r.m U ⟨pre, [], []⟩ k = none)
    (ho : ∀ c d, expand [(2, [d]), (1, [c])] tm = c :: mid ++ [d]) (s : PyStr) :
    reSubC U r tm s = walkPairs C V mid s :=
  subGo_pairs hm h1 hn ho _ _ _ (by omega)

/-! ## The three kinds of patterns -/

/-- A word behind the cursor, then a character. -/
def behindShape : Re → Option (List PyStr × PyStr)
  | .seq (.lookbehind false n a) (.grp 1 b) =>
    match a.words, b.words with
    | some l, some m => match l.all (fun w => Nat.beq w.length n), asChars m with
      | true, some cs => some (l, cs)
      | _, _ => none
    | _, _ => none
  | _ => none

theorem behindShape_sub {r : Re} {l : List PyStr} {cs : PyStr} (h : behindShape r = some (l, cs)) (U : Uni)
    {tm : List TItem} {out : Nat → PyStr} (ho : ∀ c, expand [(1, [c])] tm = out c) (s : PyStr) :
    reSubC U r tm s =
      walk (fun pre c _ => anyPrefix (l.map List.reverse) pre && cs.contains c) out [] s := by
  unfold behindShape at h
  split at h
  · rename_i n a b
    split at h
    · rename_i l' m ha hb
      split at h
      · rename_i cs' hall hcs
        cases h
        have hlen : ∀ w ∈ l, w.length = n := fun w hw => Nat.eq_of_beq_eq_true (List.all_eq_true.1 hall w hw)
        refine reSubC_walk ?_ ?_ ho s
        · intro pre c t k
          rw [Re.m_seq, Re.m_behind ha hlen]
          simp only [Re.m_grpChars hb hcs]
          cases anyPrefix (l.map List.reverse) pre with
          | false => simp
          | true => simp
        · intro pre k
          rw [Re.m_seq, Re.m_behind ha hlen]
          simp only [Re.m_grpChars hb hcs]
          split <;> rfl
      · cases h
    · cases h
  · cases h

/-- A character, then a word ahead (or none of them). -/
def aheadShape : Re → Option (PyStr × Bool × List PyStr)
  | .seq (.grp 1 a) (.lookahead neg b) =>
    match a.words, b.words with
    | some l, some m => match asChars l with
      | some cs => some (cs, neg, m)
      | none => none
    | _, _ => none
  | _ => none

theorem aheadShape_sub {r : Re} {m : List PyStr} {cs : PyStr} {neg : Bool} (h : aheadShape r = some (cs, neg, m)) (U : Uni)
    {tm : List TItem} {out : Nat → PyStr} (ho : ∀ c, expand [(1, [c])] tm = out c) (s : PyStr) :
    reSubC U r tm s = walk (fun _ c t => cs.contains c && (anyPrefix m t != neg)) out [] s := by
  unfold aheadShape at h
  split at h
  · rename_i a neg' b
    split at h
    · rename_i l m' ha hb
      split at h
      · rename_i cs' hcs
        cases h
        refine reSubC_walk ?_ ?_ ho s
        · intro pre c t k
          rw [Re.m_seq, Re.m_grpChars ha hcs]
          simp only [Re.m_ahead hb]
          by_cases hc : c ∈ cs
          · cases anyPrefix m t <;> cases neg <;> simp [hc]
          · simp [hc]
        · intro pre k
          rw [Re.m_seq, Re.m_grpChars ha hcs]
      · cases h
    · cases h
  · cases h

/-- Two characters. -/
def pairShape : Re → Option (PyStr × PyStr)
  | .seq (.grp 1 a) (.grp 2 b) =>
    match a.words, b.words with
    | some l, some m => match asChars l, asChars m with
      | some cs, some ds => some (cs, ds)
      | _, _ => none
    | _, _ => none
  | _ => none

theorem pairShape_sub {r : Re} {C V : PyStr} (h : pairShape r = some (C, V)) (U : Uni)
    {tm : List TItem} {mid : PyStr} (ho : ∀ c d, expand [(2, [d]), (1, [c])] tm = c :: mid ++ [d]) (s : PyStr) :
    reSubC U r tm s = walkPairs C V mid s := by
  unfold pairShape at h
  split at h
  · rename_i a b
    split at h
    · rename_i l m ha hb
      split at h
      · rename_i cs ds hcs hds
        cases h
        refine reSubC_pairs ?_ ?_ ?_ ho s
        · intro pre c d t k
          rw [Re.m_seq, Re.m_grpChars ha hcs]
          simp only [Re.m_grpChars hb hds]
          by_cases hc : c ∈ C <;> by_cases hd : d ∈ V <;> simp [hc, hd]
        · intro pre c k
          rw [Re.m_seq, Re.m_grpChars ha hcs]
          simp only [Re.m_grpChars hb hds]
          split <;> rfl
        · intro pre k
          rw [Re.m_seq, Re.m_grpChars ha hcs]
      · cases h
    · cases h
  · cases h

end Verif
