import Verif.Lib.Segments
import Verif.Lib.Compat
import Verif.Lib.ItransPre
import Verif.Model.Transliterate

/-!
# Programs that act token by token

A text is a list of tokens; `K` says what each token has become.  A program of replacements whose
left-hand sides never reach over the end of a token acts on every token separately.
-/

namespace Verif

/-- What a token has become. -/
def tokImage (K : List (PyStr × PyStr)) (t : PyStr) : PyStr :=
  match K.lookup t with
  | some p => p
  | none => t

/-- `a` ends a token. -/
def endsTok (a : Nat) : List (PyStr × PyStr) → Bool
  | [] => false
  | p :: K => match p.2.getLast? with
    | some b => match Nat.beq a b with | true => true | false => endsTok a K
    | none => endsTok a K

/-- `a` begins a token. -/
def beginsTok (a : Nat) : List (PyStr × PyStr) → Bool
  | [] => false
  | p :: K => match p.2 with
    | b :: _ => match Nat.beq a b with | true => true | false => beginsTok a K
    | [] => beginsTok a K

/-- The string cannot reach over the end of a token. -/
def staysIn (K : List (PyStr × PyStr)) : PyStr → Bool
  | a :: b :: x =>
    match endsTok a K with
    | false => staysIn K (b :: x)
    | true => match beginsTok b K with
      | false => staysIn K (b :: x)
      | true => false
  | _ => true

/-- Some character of the string is neither in the mask nor neutral. -/
def foreignTo (m : Nat) : PyStr → Bool
  | [] => false
  | c :: x => match maskMem m c with
    | true => foreignTo m x
    | false => match neuMem c with | true => foreignTo m x | false => true

/-- No character of the string is inert (in the mask `I`) or neutral. -/
def noNeu (I : Nat) : PyStr → Bool
  | [] => true
  | c :: x => match maskMem I c with
    | true => false
    | false => match neuMem c with | true => false | false => noNeu I x

/-- The characters that are tokens of their own and no rule looks at. -/
def Inert (I c : Nat) : Prop := I.testBit c = true ∨ isNeutral c = true

def mapTok (f : PyStr → PyStr) : List (PyStr × PyStr) → List (PyStr × PyStr)
  | [] => []
  | p :: K => (p.1, f p.2) :: mapTok f K

/-- `mapTok` of a replacement; tokens without the first character are not touched. -/
def repTok (a : Nat) (x y : PyStr) : List (PyStr × PyStr) → List (PyStr × PyStr)
  | [] => []
  | p :: K => match natMem a p.2 with
    | false => p :: repTok a x y K
    | true => (p.1, pyReplace p.2 (a :: x) y) :: repTok a x y K

/-- All characters are in the mask. -/
def inMask (m : Nat) : PyStr → Bool
  | [] => true
  | c :: x => match maskMem m c with | true => inMask m x | false => false

def tokInMask (m : Nat) : List (PyStr × PyStr) → Bool
  | [] => true
  | p :: K => match inMask m p.2 with | true => tokInMask m K | false => false

/-- gimeltra.py:54 the pattern that removes marks -/
def markPat : PyStr := u! "(?![ׄ̈])\\p{M}"

/-- A condition that is false on the texts in question. -/
def Cond.off (m : Nat) : Cond → Bool
  | .static b => match b with | true => false | false => true
  | .has x => foreignTo m x
  | .and a b => match a.off m with | true => true | false => b.off m
  | .or a b => match a.off m with | true => b.off m | false => false
  | _ => false

def withNatO {α : Type} (n : Nat) (f : Nat → Option α) : Option α :=
  match Nat.succ n with
  | 0 => none
  | Nat.succ k => f k

/-- Every member of `I` is a member of `M`. -/
def subMask (I M : Nat) : Bool := Nat.beq (Nat.land I M) I

/-- Run the program on every token: `I` are inert characters, `M` characters that normalisation
leaves alone, `m` covers the characters of the tokens and `I`. -/
def Prog.tokens (I M : Nat) : Prog → Nat → List (PyStr × PyStr) → Option (Nat × List (PyStr × PyStr))
  | .done, m, K => some (m, K)
  | .rep x y k, m, K =>
    match foreignTo m x with
    | true => k.tokens I M m K
    | false =>
      match x with
      | [] => none
      | a :: x' =>
        match noNeu I x with
        | false => none
        | true => match staysIn K x with
          | false => none
          | true => withNatO (Nat.lor m (maskOf y)) fun m' => k.tokens I M m' (repTok a x' y K)
  | .sub p t k, m, K =>
    match compileSub p t with
    | none => none
    | some _ =>
      match strEq p markPat with
      | true => match tokInMask M K && subMask I M with | true => k.tokens I M m K | false => none
      | false => match patIdle (mixSet m) [] p with | true => k.tokens I M m K | false => none
  | .ite c _ e k, m, K =>
    match c.off m with
    | true => match e.tokens I M m K with
      | some (m', K') => k.tokens I M m' K'
      | none => none
    | false => none
  | .host g k, m, K =>
    match g with
    | .nfd => match tokInMask M K && subMask I M with | true => k.tokens I M m K | false => none
    | _ => none
  | .attempt p k, m, K =>
    match p.tokens I M m K with
    | some (m', K') => k.tokens I M m' K'
    | none => none
  | _, _, _ => none

/-! ## Soundness -/

theorem withNatO_eq {α : Type} (n : Nat) (f : Nat → Option α) : withNatO n f = f n := rfl

theorem pyReplace_append {x y p r : PyStr} (hx : x ≠ [])
    (h : ∀ a ∈ p.getLast?, ∀ b ∈ r.head?, ¬ [a, b] <:+: x) :
    pyReplace (p ++ r) x y = pyReplace p x y ++ pyReplace r x y := by
  induction hn : p.length using Nat.strongRecOn generalizing p with
  | _ n ih =>
    cases x with
    | nil => exact absurd rfl hx
    | cons d x =>
      cases p with
      | nil => rfl
      | cons c p =>
        rw [List.cons_append, pyReplace_cons, pyReplace_cons]
        have hl : (c :: p).getLast? = some ((c :: p).getLast (by simp)) := List.getLast?_eq_some_getLast (by simp)
        by_cases hp : (d :: x) <+: (c :: p)
        · obtain ⟨t, ht⟩ := hp
          rw [if_pos (by rw [← List.cons_append, ← ht, List.append_assoc]; exact List.prefix_append _ _),
            if_pos ⟨t, ht⟩, ← List.cons_append, ← ht, List.append_assoc, List.drop_left, List.drop_left, List.append_assoc]
          congr 1
          refine ih t.length ?_ ?_ rfl
          · have := congrArg List.length ht
            simp only [List.length_append, List.length_cons] at this hn
            omega
          · intro a ha
            refine h a ?_
            rw [← ht, List.getLast?_append, Option.mem_def.1 ha]
            rfl
        · rw [if_neg, if_neg hp, List.cons_append]
          · congr 1
            refine ih p.length (by simp only [List.length_cons] at hn; omega) ?_ rfl
            intro a ha
            cases p with
            | nil => cases ha
            | cons e p => exact h a (by rw [List.getLast?_cons_cons]; exact ha)
          · rintro ⟨t, ht⟩
            rw [← List.cons_append] at ht
            rcases List.append_eq_append_iff.1 ht with ⟨w, hw1, hw2⟩ | ⟨w, hw1, hw2⟩
            · exact hp ⟨w, hw1.symm⟩
            · cases w with
              | nil => exact hp ⟨[], by rw [hw1]; simp⟩
              | cons e w =>
                refine h _ (by rw [hl]; exact rfl) e (by rw [hw2]; rfl) ?_
                rw [hw1]
                refine ⟨(c :: p).dropLast, w, ?_⟩
                conv => rhs; rw [← List.dropLast_concat_getLast (l := c :: p) (by simp)]
                simp

theorem endsTok_of {K : List (PyStr × PyStr)} {p : PyStr × PyStr} (hp : p ∈ K) {a : Nat} (ha : p.2.getLast? = some a) :
    endsTok a K = true := by
  induction K with
  | nil => cases hp
  | cons q K ih =>
    unfold endsTok
    rcases List.mem_cons.1 hp with rfl | hp
    · rw [ha]; simp
    · have := ih hp
      repeat' split
      all_goals simp_all

theorem beginsTok_of {K : List (PyStr × PyStr)} {p : PyStr × PyStr} (hp : p ∈ K) {a : Nat} (ha : p.2.head? = some a) :
    beginsTok a K = true := by
  induction K with
  | nil => cases hp
  | cons q K ih =>
    unfold beginsTok
    rcases List.mem_cons.1 hp with rfl | hp
    · obtain ⟨w, hw⟩ : ∃ w, p.2 = a :: w := by
        cases h : p.2 with
        | nil => rw [h] at ha; cases ha
        | cons b w => rw [h] at ha; cases ha; exact ⟨w, rfl⟩
      rw [hw]; simp
    · have := ih hp
      repeat' split
      all_goals simp_all

theorem staysIn_pair {K : List (PyStr × PyStr)} {x : PyStr} (h : staysIn K x = true) {a b : Nat} (hi : [a, b] <:+: x) :
    endsTok a K = false ∨ beginsTok b K = false := by
  obtain ⟨u, v, hu⟩ := hi
  induction u generalizing x with
  | nil =>
    subst hu
    simp only [List.nil_append, List.cons_append, staysIn] at h
    cases ha : endsTok a K with
    | false => exact .inl rfl
    | true =>
      rw [ha] at h
      cases hb : beginsTok b K with
      | false => exact .inr rfl
      | true => rw [hb] at h; cases h
  | cons c u ih =>
    subst hu
    have h' : staysIn K (u ++ [a, b] ++ v) = true := by
      cases u with
      | nil =>
        simp only [List.cons_append, List.nil_append, staysIn] at h
        split at h
        · exact h
        · split at h
          · exact h
          · cases h
      | cons d u =>
        simp only [List.cons_append, staysIn] at h
        split at h
        · exact h
        · split at h
          · exact h
          · cases h
    exact ih h' rfl

theorem foreignTo_spec {m : Nat} {x : PyStr} (h : foreignTo m x = true) : ∃ c ∈ x, m.testBit c = false ∧ isNeutral c = false := by
  induction x with
  | nil => cases h
  | cons c x ih =>
    unfold foreignTo at h
    split at h
    · obtain ⟨d, hd, h'⟩ := ih h; exact ⟨d, List.mem_cons_of_mem _ hd, h'⟩
    · rename_i hm
      split at h
      · obtain ⟨d, hd, h'⟩ := ih h; exact ⟨d, List.mem_cons_of_mem _ hd, h'⟩
      · rename_i hn
        exact ⟨c, List.mem_cons_self, by rw [← maskMem_eq]; exact hm, by rw [← neuMem_eq]; exact hn⟩

theorem noNeu_spec {I : Nat} {x : PyStr} (h : noNeu I x = true) : ∀ c ∈ x, ¬ Inert I c := by
  induction x with
  | nil => simp
  | cons c x ih =>
    unfold noNeu at h
    split at h
    · cases h
    · rename_i hI
      split at h
      · cases h
      · rename_i hn
        intro d hd
        rcases List.mem_cons.1 hd with rfl | hd
        · rw [maskMem_eq] at hI
          rw [neuMem_eq] at hn
          simp [Inert, hI, hn]
        · exact ih h d hd

theorem subMask_spec {I M c : Nat} (h : subMask I M = true) (hc : I.testBit c = true) : M.testBit c = true := by
  have h : I &&& M = I := by simpa [subMask] using h
  have : (I &&& M).testBit c = true := by rw [h]; exact hc
  rw [Nat.testBit_and, Bool.and_eq_true] at this
  exact this.2

theorem inMask_spec {m : Nat} {x : PyStr} (h : inMask m x = true) : ∀ c ∈ x, m.testBit c = true := by
  induction x with
  | nil => simp
  | cons c x ih =>
    unfold inMask at h
    split at h
    · rename_i hm
      intro d hd
      rcases List.mem_cons.1 hd with rfl | hd
      · rw [← maskMem_eq]; exact hm
      · exact ih h d hd
    · cases h

theorem tokInMask_spec {m : Nat} {K : List (PyStr × PyStr)} (h : tokInMask m K = true) :
    ∀ p ∈ K, ∀ c ∈ p.2, m.testBit c = true := by
  induction K with
  | nil => simp
  | cons q K ih =>
    unfold tokInMask at h
    split at h
    · rename_i hm
      intro d hd
      rcases List.mem_cons.1 hd with rfl | hd
      · exact inMask_spec hm
      · exact ih h d hd
    · cases h

theorem mapTok_eq (f : PyStr → PyStr) (K : List (PyStr × PyStr)) : mapTok f K = K.map fun p => (p.1, f p.2) := by
  induction K with
  | nil => rfl
  | cons p K ih => simp [mapTok, ih]

theorem repTok_eq (a : Nat) (x y : PyStr) (K : List (PyStr × PyStr)) :
    repTok a x y K = mapTok (fun p => pyReplace p (a :: x) y) K := by
  induction K with
  | nil => rfl
  | cons p K ih =>
    simp only [repTok, mapTok, ih]
    split
    · rename_i h
      rw [pyReplace_of_not_infix (by simp) fun hi => natMem_false h (hi.subset (by simp))]
    · rfl

theorem mapTok_lookup (f : PyStr → PyStr) (K : List (PyStr × PyStr)) (t : PyStr) :
    (mapTok f K).lookup t = (K.lookup t).map f := by
  induction K with
  | nil => rfl
  | cons p K ih =>
    simp only [mapTok, List.lookup]
    cases t == p.1 with
    | true => rfl
    | false => exact ih

/-- The tokens are in the table, or inert characters. -/
def TokOk (I : Nat) (K : List (PyStr × PyStr)) (t : PyStr) : Prop :=
  (∃ p, K.lookup t = some p) ∨ K.lookup t = none ∧ ∃ c, t = [c] ∧ Inert I c

theorem TokOk.map {I : Nat} {K : List (PyStr × PyStr)} {t : PyStr} (h : TokOk I K t) (f : PyStr → PyStr) : TokOk I (mapTok f K) t := by
  rcases h with ⟨p, hp⟩ | ⟨h1, h2⟩
  · exact .inl ⟨f p, by rw [mapTok_lookup, hp]; rfl⟩
  · exact .inr ⟨by rw [mapTok_lookup, h1]; rfl, h2⟩

/-- A text made of tokens. -/
def tokText (K : List (PyStr × PyStr)) (toks : List PyStr) : PyStr := toks.flatMap (tokImage K)

theorem tokText_mem {I m : Nat} {K : List (PyStr × PyStr)} {toks : List PyStr} (hK : ∀ p ∈ K, ∀ c ∈ p.2, m.testBit c = true)
    (hI : ∀ c, I.testBit c = true → m.testBit c = true) (ht : ∀ t ∈ toks, TokOk I K t) : ∀ c ∈ tokText K toks, m.testBit c = true ∨ isNeutral c = true := by
  intro c hc
  obtain ⟨t, h1, h2⟩ := List.mem_flatMap.1 hc
  unfold tokImage at h2
  rcases ht t h1 with ⟨p, hp⟩ | ⟨h3, d, rfl, hd⟩
  · rw [hp] at h2
    exact .inl (hK _ (lookup_mem hp) c h2)
  · rw [h3] at h2
    rw [List.mem_singleton.1 h2]
    exact hd.imp_left (hI d)

theorem tokText_replace {I : Nat} {K : List (PyStr × PyStr)} {toks : List PyStr} {x y : PyStr} (hx : x ≠ [])
    (hn : noNeu I x = true) (hs : staysIn K x = true) (ht : ∀ t ∈ toks, TokOk I K t) :
    pyReplace (tokText K toks) x y = tokText (mapTok (fun p => pyReplace p x y) K) toks := by
  have hhead : ∀ (l : List PyStr), (∀ t ∈ l, TokOk I K t) → ∀ b, (tokText K l).head? = some b →
      beginsTok b K = true ∨ Inert I b := by
    intro l
    induction l with
    | nil => intro _ b hb; cases hb
    | cons t l ih =>
      intro hl b hb
      have hb : (tokImage K t ++ tokText K l).head? = some b := hb
      rcases hl t (by simp) with ⟨p, hp⟩ | ⟨h3, d, rfl, hd⟩
      · have e : tokImage K t = p := by unfold tokImage; rw [hp]
        rw [e] at hb
        cases p with
        | nil => exact ih (fun t' h' => hl t' (by simp [h'])) b hb
        | cons c w =>
          cases hb
          exact .inl (beginsTok_of (lookup_mem hp) rfl)
      · have e : tokImage K [d] = [d] := by unfold tokImage; rw [h3]
        rw [e] at hb
        cases hb
        exact .inr hd
  induction toks with
  | nil =>
    cases x with
    | nil => exact absurd rfl hx
    | cons a x => rfl
  | cons t toks ih =>
    have ht' : ∀ t ∈ toks, TokOk I K t := fun t' h' => ht t' (by simp [h'])
    show pyReplace (tokImage K t ++ tokText K toks) x y = tokImage _ t ++ tokText _ toks
    rw [pyReplace_append hx, ih ht']
    · congr 1
      rcases ht t (by simp) with ⟨p, hp⟩ | ⟨h3, d, rfl, hd⟩
      · simp only [tokImage, mapTok_lookup, hp, Option.map_some]
      · simp only [tokImage, mapTok_lookup, h3, Option.map_none]
        refine pyReplace_of_not_infix hx fun hi => ?_
        cases x with
        | nil => exact hx rfl
        | cons a x =>
          have : a = d := List.mem_singleton.1 (hi.subset (by simp))
          subst this
          exact noNeu_spec hn a (by simp) hd
    · intro a ha b hb hi
      have ha' : endsTok a K = true ∨ Inert I a := by
        rcases ht t (by simp) with ⟨p, hp⟩ | ⟨h3, d, rfl, hd⟩
        · have e : tokImage K t = p := by unfold tokImage; rw [hp]
          rw [e] at ha
          exact .inl (endsTok_of (lookup_mem hp) ha)
        · have e : tokImage K [d] = [d] := by unfold tokImage; rw [h3]
          rw [e] at ha
          cases ha
          exact .inr hd
      have hna := noNeu_spec hn a (hi.subset (by simp))
      have hnb := noNeu_spec hn b (hi.subset (by simp))
      have hb' := hhead toks ht' b hb
      rcases staysIn_pair hs hi with h | h
      · rw [h] at ha'; simp [hna] at ha'
      · rw [h] at hb'; simp [hnb] at hb'

theorem Cond.off_sound {m : Nat} {c : Cond} (h : c.off m = true) {s : PyStr}
    (hs : ∀ d ∈ s, m.testBit d = true ∨ isNeutral d = true) : c.eval s = false := by
  induction c with
  | static b => cases b <;> simp_all [Cond.off, Cond.eval]
  | has x =>
    simp only [Cond.off] at h
    obtain ⟨d, hd, h1, h2⟩ := foreignTo_spec h
    simp only [Cond.eval]
    cases he : isInfix x s with
    | false => rfl
    | true =>
      have := hs d ((isInfix_iff.1 he).subset hd)
      simp_all
  | hasAny xs => cases h
  | not c => cases h
  | and a b iha ihb =>
    simp only [Cond.off] at h
    simp only [Cond.eval]
    split at h
    · rename_i ha; simp [iha ha]
    · simp [ihb h]
  | or a b iha ihb =>
    simp only [Cond.off] at h
    simp only [Cond.eval]
    split at h
    · rename_i ha; simp [iha ha, ihb h]
    · cases h

theorem mark_never {U : Uni} {p : PyStr} (hp : strEq p markPat = true) {t s : PyStr} {r : Re} {tm : List TItem}
    (hc : compileSub p t = some (r, tm)) (hs : ∀ c ∈ s, U.isMark c = false) : reSubC U r tm s = s := by
  rw [strEq_iff.1 hp] at hc
  have : parseRe markPat = some (.seq (.lookahead true (.cls false [.rng 1476 1476, .rng 776 776])) (.cls false [.mark]), 0) := by
    decide +kernel
  unfold compileSub at hc
  rw [this] at hc
  simp only at hc
  split at hc
  · cases hc
  · cases hc
    refine reSubC_never fun a b ha h => ?_
    obtain ⟨m, hm, d, cs, h1, h2, -⟩ := h
    have hm : m = a := by
      rcases hm with ⟨hm, -⟩ | ⟨hf, -⟩
      · exact hm
      · cases hf
    subst hm
    have hd : d ∈ s := by
      rw [← ha]
      unfold St.whole
      rw [h1]
      simp
    simp only [List.any_cons, List.any_nil, Bool.or_false, ClsItem.test, hs d hd] at h2
    exact h2 rfl

/-- Normalisation to NFD leaves texts of such characters alone, and none of them is a mark. -/
structure Env.Steady (E : Env) (M : Nat) : Prop where
  nfd : ∀ s, (∀ c ∈ s, M.testBit c = true ∨ isNeutral c = true) → E.host .nfd s = .ok s
  mark : ∀ c, M.testBit c = true ∨ isNeutral c = true → E.uni.isMark c = false

theorem patIdle_same {A : CharSet} {U : Uni} {p t s : PyStr} {r : Re} {tm : List TItem} (h : patIdle A [] p = true)
    (hc : compileSub p t = some (r, tm)) (hs : Over A s) : reSubC U r tm s = s := by
  unfold patIdle at h
  unfold compileSub at hc
  split at h
  · rename_i hp; rw [hp] at hc; cases hc
  · rename_i r' ng hp
    rw [hp] at hc
    simp only at hc
    split at hc
    · cases hc
    · cases hc
      split at h
      · rename_i hk
        exact reSubC_blocked hk hs
      · split at h
        · rename_i hk
          exact reSubC_dead (F := []) (by rw [hk]) ⟨hs, by simp⟩
        · cases h

theorem Prog.tokens_sound {E : Env} {I M : Nat} (hE : E.Steady M) {p : Prog} {m m' : Nat} {K K' : List (PyStr × PyStr)}
    (h : p.tokens I M m K = some (m', K')) (hK : ∀ q ∈ K, ∀ c ∈ q.2, m.testBit c = true)
    (hI : ∀ c, I.testBit c = true → m.testBit c = true) {toks : List PyStr} (ht : ∀ t ∈ toks, TokOk I K t) :
    p.run E (tokText K toks) = .ok (tokText K' toks) ∧ (∀ q ∈ K', ∀ c ∈ q.2, m'.testBit c = true) ∧
      (∀ c, I.testBit c = true → m'.testBit c = true) ∧ ∀ t ∈ toks, TokOk I K' t := by
  induction p generalizing m m' K K' with
  | done => cases h; exact ⟨rfl, hK, hI, ht⟩
  | rep x y k ih =>
    simp only [Prog.tokens] at h
    have hm := tokText_mem hK hI ht
    split at h
    · rename_i hf
      obtain ⟨d, hd, h1, h2⟩ := foreignTo_spec hf
      have : pyReplace (tokText K toks) x y = tokText K toks := by
        refine pyReplace_of_not_infix (fun he => by rw [he] at hd; cases hd) fun hi => ?_
        have := hm d (hi.subset hd)
        simp_all
      simp only [Prog.run, this]
      exact ih h hK hI ht
    · split at h
      · cases h
      · rename_i a x hx
        split at h
        · cases h
        · rename_i hn
          split at h
          · cases h
          · rename_i hs
            rw [withNatO_eq, repTok_eq] at h
            simp only [Prog.run]
            rw [tokText_replace (by simp) hn hs ht]
            refine ih h ?_ (fun c hc => ?_) fun t h' => (ht t h').map _
            rotate_left
            · show (m ||| maskOf y).testBit c = true
              rw [Nat.testBit_or, hI c hc]; rfl
            intro q hq c hc
            rw [mapTok_eq] at hq
            obtain ⟨q', hq', rfl⟩ := List.mem_map.1 hq
            show (m ||| maskOf y).testBit c = true
            rw [Nat.testBit_or, Bool.or_eq_true]
            rcases pyReplace_mem (show c ∈ pyReplace q'.2 (a :: x) y from hc) with h' | h'
            · exact .inl (hK q' hq' c h')
            · exact .inr (maskOf_mem h')
  | sub p t k ih =>
    simp only [Prog.tokens] at h
    simp only [Prog.run]
    split at h
    · cases h
    · rename_i rt hc
      obtain ⟨r, tm⟩ := rt
      rw [hc]
      simp only
      split at h
      · rename_i hp
        split at h
        · rename_i hM
          rw [Bool.and_eq_true] at hM
          rw [mark_never hp hc fun c hcm => hE.mark c (tokText_mem (tokInMask_spec hM.1) (fun _ => subMask_spec hM.2) ht c hcm)]
          exact ih h hK hI ht
        · cases h
      · split at h
        · rename_i hp
          rw [patIdle_same hp hc]
          · exact ih h hK hI ht
          · intro c hcm
            show (match maskMem m c with | true => true | false => neuMem c) = true
            rcases tokText_mem hK hI ht c hcm with h' | h'
            · rw [maskMem_eq, h']
            · rw [neuMem_eq, h']; split <;> rfl
        · cases h
  | app y k ih => cases h
  | pre y k ih => cases h
  | set y k ih => cases h
  | ite c t e k iht ihe ihk =>
    simp only [Prog.tokens] at h
    split at h
    · rename_i hc
      split at h
      · rename_i m1 K1 h1
        obtain ⟨e1, e2, e7, e3⟩ := ihe h1 hK hI ht
        obtain ⟨e4, e5, e6⟩ := ihk h e2 e7 e3
        refine ⟨?_, e5, e6⟩
        simp only [Prog.run, Cond.off_sound hc (tokText_mem hK hI ht), e1, e4]
      · cases h
    · cases h
  | attempt p k ihp ihk =>
    simp only [Prog.tokens] at h
    split at h
    · rename_i m1 K1 h1
      obtain ⟨e1, e2, e7, e3⟩ := ihp h1 hK hI ht
      obtain ⟨e4, e5, e6⟩ := ihk h e2 e7 e3
      refine ⟨?_, e5, e6⟩
      simp only [Prog.run, e1, e4]
    · cases h
  | evens s p k => cases h
  | host g k ih =>
    simp only [Prog.tokens] at h
    split at h
    · split at h
      · rename_i hM
        rw [Bool.and_eq_true] at hM
        simp only [Prog.run, hE.nfd _ (tokText_mem (tokInMask_spec hM.1) (fun _ => subMask_spec hM.2) ht)]
        exact ih h hK hI ht
      · cases h
    · cases h
  | nat f k ih => cases h
  | fail e => cases h

/-- No token is added or lost. -/
theorem Prog.tokens_keys {I M : Nat} {p : Prog} {m m' : Nat} {K K' : List (PyStr × PyStr)}
    (h : p.tokens I M m K = some (m', K')) (t : PyStr) :
    (K'.lookup t).isSome = (K.lookup t).isSome := by
  induction p generalizing m m' K K' with
  | done => cases h; rfl
  | rep x y k ih =>
    simp only [Prog.tokens] at h
    split at h
    · exact ih h
    · split at h
      · cases h
      · split at h
        · cases h
        · split at h
          · cases h
          · rw [withNatO_eq, repTok_eq] at h
            rw [ih h, mapTok_lookup]; cases K.lookup t <;> rfl
  | sub p t k ih =>
    simp only [Prog.tokens] at h
    repeat' split at h
    all_goals first | cases h; done | exact ih h
  | app y k ih => cases h
  | pre y k ih => cases h
  | set y k ih => cases h
  | ite c t e k iht ihe ihk =>
    simp only [Prog.tokens] at h
    split at h
    · split at h
      · rename_i h1
        exact (ihk h).trans (ihe h1)
      · cases h
    · cases h
  | attempt p k ihp ihk =>
    simp only [Prog.tokens] at h
    split at h
    · rename_i h1
      exact (ihk h).trans (ihp h1)
    · cases h
  | evens s p k => cases h
  | host g k ih =>
    simp only [Prog.tokens] at h
    repeat' split at h
    all_goals first | cases h; done | exact ih h
  | nat f k ih => cases h
  | fail e => cases h

/-- Every text is its own token. -/
def idTok : List PyStr → List (PyStr × PyStr)
  | [] => []
  | x :: l => (x, x) :: idTok l

theorem idTok_lookup {l : List PyStr} {t : PyStr} : (t ∈ l → (idTok l).lookup t = some t) ∧ (t ∉ l → (idTok l).lookup t = none) := by
  induction l with
  | nil => simp [idTok]
  | cons x l ih =>
    simp only [idTok, List.lookup]
    by_cases h : t = x
    · subst h
      simp
    · have hb : (t == x) = false := by simpa using h
      simp only [hb, List.mem_cons, h, false_or]
      exact ih

theorem idTok_mem {l : List PyStr} {p : PyStr × PyStr} (h : p ∈ idTok l) : p.1 ∈ l ∧ p.2 = p.1 := by
  induction l with
  | nil => cases h
  | cons x l ih =>
    rcases List.mem_cons.1 h with rfl | h
    · simp
    · exact ⟨List.mem_cons_of_mem _ (ih h).1, (ih h).2⟩

/-- Run the program on the tokens and look at the result. -/
def runsOk (I M : Nat) (p : Prog) (l : List PyStr) (f : List (PyStr × PyStr) → Bool) : Bool :=
  withNat (Nat.lor (maskOf l.flatten) I) fun m =>
    match p.tokens I M m (idTok l) with
    | some (_, K) => f K
    | none => false

/-- A checked piece of program turns pieces `f c` into pieces `g c`. -/
theorem runsOk_stage {E : Env} {I M : Nat} (hE : E.Steady M) {p : Prog} {l : List PyStr} {chk : List (PyStr × PyStr) → Bool}
    (h : runsOk I M p l chk = true) {α : Type} {s : List α} {f g : α → PyStr}
    (hf : ∀ c ∈ s, f c ∈ l ∨ f c ∉ l ∧ ∃ d, f c = [d] ∧ Inert I d)
    (hg : ∀ K, chk K = true → ∀ c ∈ s, f c ∈ l → ∀ y, K.lookup (f c) = some y → y = g c)
    (hn : ∀ c ∈ s, f c ∉ l → f c = g c) :
    p.run E (s.flatMap f) = .ok (s.flatMap g) := by
  unfold runsOk at h
  rw [withNat_eq] at h
  split at h
  · rename_i m' K hK
    have hlook : ∀ c ∈ s, f c ∈ l → (idTok l).lookup (f c) = some (f c) := fun c _ hl => idTok_lookup.1 hl
    have hok : ∀ t ∈ s.map f, TokOk I (idTok l) t := by
      intro t ht
      obtain ⟨c, hc, rfl⟩ := List.mem_map.1 ht
      rcases hf c hc with hl | ⟨hl, d, hd⟩
      · exact .inl ⟨_, idTok_lookup.1 hl⟩
      · exact .inr ⟨idTok_lookup.2 hl, d, hd⟩
    have := Prog.tokens_sound hE hK (toks := s.map f) ?_ ?_ hok
    · obtain ⟨h1, -, -, h2⟩ := this
      have e1 : tokText (idTok l) (s.map f) = s.flatMap f := by
        unfold tokText
        rw [List.flatMap_map]
        refine flatMap_congr_mem fun c hc => ?_
        unfold tokImage
        by_cases hl : f c ∈ l
        · rw [idTok_lookup.1 hl]
        · rw [idTok_lookup.2 hl]
      have keys : ∀ c ∈ s, f c ∉ l → K.lookup (f c) = none := by
        intro c hc hl
        have := Prog.tokens_keys hK (f c)
        rw [idTok_lookup.2 hl] at this
        cases hk : K.lookup (f c) with
        | none => rfl
        | some y => rw [hk] at this; cases this
      have e2 : tokText K (s.map f) = s.flatMap g := by
        unfold tokText
        rw [List.flatMap_map]
        refine flatMap_congr_mem fun c hc => ?_
        by_cases hl : f c ∈ l
        · have hk := Prog.tokens_keys hK (f c)
          rw [idTok_lookup.1 hl] at hk
          unfold tokImage
          cases hy : K.lookup (f c) with
          | none => rw [hy] at hk; cases hk
          | some y => exact hg K h c hc hl y hy
        · unfold tokImage
          rw [keys c hc hl]
          exact hn c hc hl
      rw [← e1, ← e2, h1]
    · intro q hq c hc
      obtain ⟨h1, h2⟩ := idTok_mem hq
      show (maskOf l.flatten ||| I).testBit c = true
      rw [Nat.testBit_or, maskOf_mem (List.mem_flatten.2 ⟨q.1, h1, h2 ▸ hc⟩)]
      rfl
    · intro c hc
      show (maskOf l.flatten ||| I).testBit c = true
      rw [Nat.testBit_or, hc, Bool.or_true]
  · cases h

end Verif
