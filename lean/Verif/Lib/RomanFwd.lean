import Verif.Lib.ReWords
import Verif.Lib.Segments

/-!
# From Indic letters to romanised syllables

The steps of the conversion to a romanisation after the letters have been replaced, on texts made
of sounds.
-/

namespace Verif

/-- The marker of the inherent vowel, U+F000. -/
def cSchwa : Nat := 0xF000
/-- The marker of vowel letters, U+1E7F. -/
def cDep : Nat := 0x1E7F
/-- The virama of the romanisations. -/
def cVir : Nat := 0xD7
/-- `_` -/
def cSep : Nat := 95

theorem cDep_ne_schwa : cDep ≠ cSchwa := by decide
theorem cDep_ne_vir : cDep ≠ cVir := by decide
theorem cVir_ne_schwa : cVir ≠ cSchwa := by decide
theorem cSep_ne_dep : cSep ≠ cDep := by decide
theorem cSep_ne_schwa : cSep ≠ cSchwa := by decide
theorem cSep_ne_vir : cSep ≠ cVir := by decide

/-- A string without markers. -/
def Bare (y : PyStr) : Prop := y ≠ [] ∧ cSchwa ∉ y ∧ cDep ∉ y ∧ cVir ∉ y

/-- Checked form of `Bare`. -/
def bareOk (y : PyStr) : Bool := !y.isEmpty && !(natMem cSchwa y) && !(natMem cDep y) && !(natMem cVir y)

theorem bareOk_sound {y : PyStr} (h : bareOk y = true) : Bare y := by
  simp only [bareOk, Bool.and_eq_true, Bool.not_eq_true'] at h
  obtain ⟨⟨⟨h1, h2⟩, h3⟩, h4⟩ := h
  refine ⟨?_, ?_, ?_, ?_⟩
  · rintro rfl; cases h1
  · intro hm; rw [natMem_iff.2 hm] at h2; cases h2
  · intro hm; rw [natMem_iff.2 hm] at h3; cases h3
  · intro hm; rw [natMem_iff.2 hm] at h4; cases h4

/-- The sounds of a text to be romanised. -/
def SoundOk (r : RomanEntry) : Sound → Prop
  | .cons y => y ∈ r.conss
  | .vowel y => y ∈ r.vowels
  | .sign y => y ∈ r.vowels ∧ y ∈ lettersOf r.script GM.VowelSignsNV
  | .virama => True
  | .mark y => y ∈ r.marks
  | .other c => c ∈ r.free ∨ isNeutral c = true

/-- A consonant. -/
def Sound.isCons : Sound → Bool
  | .cons _ => true
  | _ => false

/-- A consonant, or the vowel letter a. -/
def Sound.endsA (R : PyStr) : Sound → Bool
  | .cons _ => true
  | .vowel y => decide (y = inherentA R)
  | _ => false

/-- The spelling begins with i or u. -/
def headIU (R : PyStr) : PyStr → Bool
  | c :: _ => (charsIU R).contains c
  | [] => false

/-- The text after the letters have been replaced; `f` tells after which sounds a vowel letter is
separated. -/
def rawS (R : PyStr) (f : Sound → Bool) : Bool → List Sound → PyStr
  | _, [] => []
  | _, .cons y :: t => y ++ cSchwa :: rawS R f (f (.cons y)) t
  | b, .vowel y :: t => cDep :: ((match b && headIU R y with | true => [cSep] | false => []) ++
      (y ++ rawS R f (f (.vowel y)) t))
  | _, .sign y :: t => y ++ rawS R f (f (.sign y)) t
  | _, .virama :: t => cVir :: rawS R f (f .virama) t
  | _, .mark y :: t => y ++ rawS R f (f (.mark y)) t
  | _, .other c :: t => c :: rawS R f (f (.other c)) t

/-- What is needed of the spellings. -/
structure Spellings (r : RomanEntry) : Prop where
  bare : ∀ y, y ∈ r.conss ∨ y ∈ r.vowels ∨ y ∈ r.marks → Bare y
  free : ∀ c ∈ r.free, c ≠ cSchwa ∧ c ≠ cDep ∧ c ≠ cVir
  a : ∃ a0, inherentA r.script = [a0] ∧ a0 ≠ cSchwa ∧ a0 ≠ cDep ∧ a0 ≠ cVir ∧ a0 ∉ charsIU r.script
  iu : cSep ∉ charsIU r.script

namespace Spellings

variable {r : RomanEntry} (F : Spellings r)
include F

theorem other {c : Nat} (h : SoundOk r (.other c)) : c ≠ cSchwa ∧ c ≠ cDep ∧ c ≠ cVir := by
  rcases h with h | h
  · exact F.free c h
  · unfold isNeutral at h
    simp only [decide_eq_true_eq] at h
    unfold cSchwa cDep cVir
    omega

theorem cons {y : PyStr} (h : SoundOk r (.cons y)) : Bare y := F.bare y (.inl h)
theorem vowel {y : PyStr} (h : SoundOk r (.vowel y)) : Bare y := F.bare y (.inr (.inl h))
theorem sign {y : PyStr} (h : SoundOk r (.sign y)) : Bare y := F.bare y (.inr (.inl h.1))
theorem mark {y : PyStr} (h : SoundOk r (.mark y)) : Bare y := F.bare y (.inr (.inr h))

end Spellings

/-! ## Separators -/

/-- Nothing happens as long as the rule needs the vowel marker right before. -/
theorem walk_free {P : PyStr → Nat → PyStr → Bool} {out : Nat → PyStr}
    (hP : ∀ pre c t, P pre c t = true → pre.head? = some cDep) {p : PyStr} (hp : cDep ∉ p) {pre : PyStr}
    (hpre : pre.head? ≠ some cDep) (t : PyStr) :
    walk P out pre (p ++ t) = p ++ walk P out (p.reverse ++ pre) t := by
  induction p generalizing pre with
  | nil => rfl
  | cons c p ih =>
    simp only [List.mem_cons, not_or] at hp
    have h1 : P pre c (p ++ t) = false := by
      cases h : P pre c (p ++ t) with
      | false => rfl
      | true => exact absurd (hP _ _ _ h) hpre
    simp only [List.cons_append, walk, h1, Bool.false_eq_true, if_false, List.cons.injEq, true_and]
    rw [ih hp.2 (by simp [Ne.symm hp.1])]
    simp

theorem walk_one {P : PyStr → Nat → PyStr → Bool} {out : Nat → PyStr} (pre : PyStr) (c : Nat) (t : PyStr) :
    walk P out pre (c :: t) = (if P pre c t then out c else [c]) ++ walk P out (c :: pre) t := rfl

theorem head_reverse {y pre : PyStr} (h : y ≠ []) : (y.reverse ++ pre).head? = y.getLast? := by
  rw [List.head?_append, List.head?_reverse]
  cases hl : y.getLast? with
  | none => exact absurd (List.getLast?_eq_none_iff.1 hl) h
  | some x => rfl

theorem head_ne_of_bare {y pre : PyStr} (hy : Bare y) : (y.reverse ++ pre).head? ≠ some cDep := by
  intro h
  rw [head_reverse hy.1] at h
  exact hy.2.2.1 (List.mem_of_getLast? h)

/-- The first rule for separators: after a consonant. -/
def sepRule1 (R : PyStr) : PyStr → Nat → PyStr → Bool :=
  fun pre c _ => anyPrefix [[cDep, cSchwa]] pre && (charsIU R).contains c

/-- The second rule for separators: after the letter a. -/
def sepRule2 (R : PyStr) : PyStr → Nat → PyStr → Bool :=
  fun pre c _ => anyPrefix [cDep :: ((inherentA R).reverse ++ [cDep])] pre && (charsIU R).contains c

theorem sepRule1_head {R pre : PyStr} {c : Nat} {t : PyStr} (h : sepRule1 R pre c t = true) : pre.head? = some cDep := by
  simp only [sepRule1, Bool.and_eq_true] at h
  obtain ⟨w, hw, t, rfl⟩ := anyPrefix_iff.1 h.1
  rw [List.mem_singleton.1 hw]; rfl

theorem sepRule2_head {R pre : PyStr} {c : Nat} {t : PyStr} (h : sepRule2 R pre c t = true) : pre.head? = some cDep := by
  simp only [sepRule2, Bool.and_eq_true] at h
  obtain ⟨w, hw, t, rfl⟩ := anyPrefix_iff.1 h.1
  rw [List.mem_singleton.1 hw]; rfl

theorem anyPrefix_two (a b : Nat) (pre : PyStr) :
    anyPrefix [[a, b]] (a :: pre) = decide (pre.head? = some b) := by
  rw [Bool.eq_iff_iff, anyPrefix_iff, decide_eq_true_iff]
  constructor
  · rintro ⟨w, hw, t, ht⟩
    rw [List.mem_singleton.1 hw] at ht
    simp only [List.cons_append, List.cons.injEq, true_and, List.nil_append] at ht
    rw [← ht]; rfl
  · intro h
    cases pre with
    | nil => cases h
    | cons c pre =>
      cases h
      exact ⟨_, List.mem_singleton.2 rfl, pre, rfl⟩

theorem anyPrefix_three (a b d : Nat) (pre : PyStr) :
    anyPrefix [[a, b, d]] (a :: pre) = decide (pre.take 2 = [b, d]) := by
  rw [Bool.eq_iff_iff, anyPrefix_iff, decide_eq_true_iff]
  constructor
  · rintro ⟨w, hw, t, ht⟩
    rw [List.mem_singleton.1 hw] at ht
    simp only [List.cons_append, List.cons.injEq, true_and, List.nil_append] at ht
    rw [← ht]; rfl
  · intro h
    match pre, h with
    | c :: e :: pre, h =>
      cases h
      exact ⟨_, List.mem_singleton.2 rfl, pre, rfl⟩

theorem sepPass1 {r : RomanEntry} (F : Spellings r) {T : List Sound} (hT : ∀ x ∈ T, SoundOk r x) {pre : PyStr}
    (hpre : pre.head? ≠ some cDep) :
    walk (sepRule1 r.script) (fun c => [cSep, c]) pre (rawS r.script (fun _ => false) false T) =
      rawS r.script Sound.isCons (decide (pre.head? = some cSchwa)) T := by
  induction T generalizing pre with
  | nil => rfl
  | cons x T ih =>
    have ih := fun {pre} h => ih (fun x hx => hT x (List.mem_cons_of_mem _ hx)) (pre := pre) h
    have hx := hT x List.mem_cons_self
    have free := fun {p : PyStr} {pre : PyStr} (h1 : cDep ∉ p) (h2 : pre.head? ≠ some cDep) (t : PyStr) =>
      walk_free (P := sepRule1 r.script) (out := fun c => [cSep, c]) (fun _ _ _ h => sepRule1_head h) h1 h2 t
    have bare : ∀ {y : PyStr}, Bare y → walk (sepRule1 r.script) (fun c => [cSep, c]) pre
        (y ++ rawS r.script (fun _ => false) false T) = y ++ rawS r.script Sound.isCons false T := by
      intro y hy
      rw [free hy.2.2.1 hpre, ih (head_ne_of_bare hy)]
      congr 2
      rw [decide_eq_false]
      intro h
      rw [head_reverse hy.1] at h
      exact hy.2.1 (List.mem_of_getLast? h)
    cases x with
    | cons y =>
      have hy := F.cons hx
      simp only [rawS, Sound.isCons]
      rw [show y ++ cSchwa :: rawS r.script (fun _ => false) false T = (y ++ [cSchwa]) ++ rawS r.script (fun _ => false) false T by simp,
        free (by simp [hy.2.2.1, cDep_ne_schwa]) hpre, ih (by simp [cDep_ne_schwa.symm])]
      simp only [List.reverse_append, List.reverse_cons, List.reverse_nil, List.nil_append, List.cons_append, List.head?_cons, decide_true]
      rw [List.append_assoc]; rfl
    | vowel y =>
      have hy := F.vowel hx
      simp only [rawS, Sound.isCons]
      rw [show cDep :: ((match false && headIU r.script y with | true => [cSep] | false => []) ++
        (y ++ rawS r.script (fun _ => false) false T)) = cDep :: (y ++ rawS r.script (fun _ => false) false T) from rfl]
      have h1 : sepRule1 r.script pre cDep (y ++ rawS r.script (fun _ => false) false T) = false := by
        cases h : sepRule1 r.script pre cDep (y ++ rawS r.script (fun _ => false) false T) with
        | false => rfl
        | true => exact absurd (sepRule1_head h) hpre
      rw [walk_one, h1]
      match y, hy with
      | [], hy => exact absurd rfl hy.1
      | c :: y, hy =>
        have hc : c ≠ cDep := by rintro rfl; exact hy.2.2.1 (by simp)
        have hyd : cDep ∉ y := fun h => hy.2.2.1 (by simp [h])
        rw [List.cons_append, walk_one, free hyd (by simpa using hc)]
        have e : sepRule1 r.script (cDep :: pre) c (y ++ rawS r.script (fun _ => false) false T) =
            (decide (pre.head? = some cSchwa) && headIU r.script (c :: y)) := by
          show (anyPrefix [[cDep, cSchwa]] (cDep :: pre) && _) = _
          rw [anyPrefix_two]; rfl
        rw [e]
        have hh := head_ne_of_bare (pre := cDep :: pre) hy
        simp only [List.reverse_cons, List.append_assoc, List.cons_append, List.nil_append] at hh
        rw [ih hh]
        have : decide ((y.reverse ++ c :: cDep :: pre).head? = some cSchwa) = false := by
          rw [decide_eq_false]
          intro h
          cases hr : y.reverse with
          | nil => rw [hr] at h; simp at h; exact hy.2.1 (by simp [h])
          | cons d z =>
            rw [hr] at h
            simp at h
            have : d ∈ y.reverse := by rw [hr]; simp
            exact hy.2.1 (List.mem_cons_of_mem _ (by subst h; simpa using this))
        rw [this]
        cases decide (pre.head? = some cSchwa) && headIU r.script (c :: y) <;> rfl
    | sign y => exact bare (F.sign hx)
    | mark y => exact bare (F.mark hx)
    | virama =>
      simp only [rawS, Sound.isCons]
      rw [show cVir :: rawS r.script (fun _ => false) false T = [cVir] ++ rawS r.script (fun _ => false) false T from rfl,
        free (by simp [cVir, cDep]) hpre, ih (by simp [cVir, cDep])]
      simp [cVir, cSchwa]
    | other c =>
      have hc := F.other hx
      simp only [rawS, Sound.isCons]
      rw [show c :: rawS r.script (fun _ => false) false T = [c] ++ rawS r.script (fun _ => false) false T from rfl,
        free (by simp [Ne.symm hc.2.1]) hpre, ih (by simp [hc.2.1])]
      simp [hc.1]

theorem take_two_iff {a0 : Nat} {y pre : PyStr} (hy : Bare y) (hpre : pre.head? ≠ some cDep) :
    (y.reverse ++ pre).take 2 ≠ [a0, cDep] := by
  obtain ⟨h0, -, h2, -⟩ := hy
  intro h
  have hr : ∀ x ∈ y.reverse, x ≠ cDep := fun x hx he => h2 (by subst he; simpa using hx)
  match hy : y.reverse with
  | [] => exact h0 (by simpa using hy)
  | [c] =>
    rw [hy] at h
    cases pre with
    | nil => simp at h
    | cons d pre =>
      simp at h
      exact hpre (by simp [h.2])
  | c :: d :: z =>
    rw [hy] at h
    simp at h
    exact hr d (by rw [hy]; simp) h.2

theorem sepPass2 {r : RomanEntry} (F : Spellings r) {T : List Sound} (hT : ∀ x ∈ T, SoundOk r x) {pre : PyStr} {a0 : Nat}
    (ha : inherentA r.script = [a0]) (ha1 : a0 ≠ cSchwa) (ha2 : a0 ∉ charsIU r.script)
    (hpre : pre.head? ≠ some cDep) (b : Bool) :
    walk (sepRule2 r.script) (fun c => [cSep, c]) pre (rawS r.script Sound.isCons b T) =
      rawS r.script (Sound.endsA r.script) (b || decide (pre.take 2 = [a0, cDep])) T := by
  have hR : ∀ (pre : PyStr) (c : Nat) (t : PyStr), sepRule2 r.script (cDep :: pre) c t =
      (decide (pre.take 2 = [a0, cDep]) && (charsIU r.script).contains c) := by
    intro pre c t
    show (anyPrefix [cDep :: ((inherentA r.script).reverse ++ [cDep])] (cDep :: pre) && _) = _
    rw [ha]
    show (anyPrefix [[cDep, a0, cDep]] (cDep :: pre) && _) = _
    rw [anyPrefix_three]
  induction T generalizing pre b with
  | nil => rfl
  | cons x T ih =>
    have ih := fun {pre} h b => ih (fun x hx => hT x (List.mem_cons_of_mem _ hx)) (pre := pre) h b
    have hx := hT x List.mem_cons_self
    have free := fun {p : PyStr} {pre : PyStr} (h1 : cDep ∉ p) (h2 : pre.head? ≠ some cDep) (t : PyStr) =>
      walk_free (P := sepRule2 r.script) (out := fun c => [cSep, c]) (fun _ _ _ h => sepRule2_head h) h1 h2 t
    have bare : ∀ {y : PyStr}, Bare y → walk (sepRule2 r.script) (fun c => [cSep, c]) pre
        (y ++ rawS r.script Sound.isCons false T) = y ++ rawS r.script (Sound.endsA r.script) false T := by
      intro y hy
      rw [free hy.2.2.1 hpre, ih (head_ne_of_bare hy)]
      rw [decide_eq_false (take_two_iff hy hpre)]
      rfl
    cases x with
    | cons y =>
      have hy := F.cons hx
      simp only [rawS, Sound.isCons, Sound.endsA]
      rw [show y ++ cSchwa :: rawS r.script Sound.isCons true T = (y ++ [cSchwa]) ++ rawS r.script Sound.isCons true T by simp,
        free (by simp [hy.2.2.1, cDep_ne_schwa]) hpre, ih (by simp [cDep_ne_schwa.symm])]
      rw [List.append_assoc]; rfl
    | vowel y =>
      have hy := F.vowel hx
      have h1 : ∀ t, sepRule2 r.script pre cDep t = false := by
        intro t
        cases h : sepRule2 r.script pre cDep t with
        | false => rfl
        | true => exact absurd (sepRule2_head h) hpre
      simp only [rawS, Sound.isCons, Sound.endsA]
      rw [walk_one, h1]
      match y, hy with
      | [], hy => exact absurd rfl hy.1
      | c :: y, hy =>
        have hc : c ≠ cDep := by rintro rfl; exact hy.2.2.1 (by simp)
        have hyd : cDep ∉ y := fun h => hy.2.2.1 (by simp [h])
        have hhead : ∀ q, (y.reverse ++ c :: q).head? ≠ some cDep := by
          intro q
          have := head_ne_of_bare (pre := q) hy
          simpa using this
        have htake : ∀ q : PyStr, q.head? ≠ some cDep → (y.reverse ++ c :: q).take 2 ≠ [a0, cDep] := by
          intro q hq
          have := take_two_iff (a0 := a0) hy hq
          simpa using this
        have hdep : ((y.reverse ++ c :: cDep :: pre).take 2 = [a0, cDep]) ↔ c :: y = inherentA r.script := by
          rw [ha]
          cases y with
          | nil => simp
          | cons d y =>
            constructor
            · intro h
              exfalso
              have hy' : Bare (d :: y) := ⟨by simp, fun h => hy.2.1 (List.mem_cons_of_mem _ h), hyd,
                fun h => hy.2.2.2 (List.mem_cons_of_mem _ h)⟩
              exact take_two_iff (a0 := a0) hy' (pre := c :: cDep :: pre) (by simpa using hc) h
            · intro h; simp at h
        cases hb : b && headIU r.script (c :: y) with
        | true =>
          simp only [Bool.and_eq_true] at hb
          obtain ⟨hb1, hb2⟩ := hb
          have hne : c :: y ≠ inherentA r.script := by
            rw [ha]
            intro h
            cases h
            exact ha2 (by simpa [headIU] using hb2)
          simp only [List.cons_append, List.nil_append, hb1, Bool.true_or, Bool.true_and, hb2]
          rw [walk_one, hR]
          have hs : (charsIU r.script).contains cSep = false := by simpa using F.iu
          rw [hs, Bool.and_false]
          have h2 : ∀ t, sepRule2 r.script (cSep :: cDep :: pre) c t = false := by
            intro t
            cases h : sepRule2 r.script (cSep :: cDep :: pre) c t with
            | false => rfl
            | true => have := sepRule2_head h; simp [cSep_ne_dep] at this
          rw [walk_one, h2, free hyd (by simpa using hc), ih (hhead _)]
          rw [decide_eq_false (htake _ (by simp [cSep_ne_dep])), decide_eq_false hne]
          rfl
        | false =>
          simp only [List.cons_append, List.nil_append]
          rw [walk_one, hR, free hyd (by simpa using hc), ih (hhead _)]
          have e1 : decide ((y.reverse ++ c :: cDep :: pre).take 2 = [a0, cDep]) = decide (c :: y = inherentA r.script) := by
            rw [Bool.eq_iff_iff, decide_eq_true_iff, decide_eq_true_iff]; exact hdep
          rw [e1]
          have e2 : ((b || decide (pre.take 2 = [a0, cDep])) && headIU r.script (c :: y)) =
              (decide (pre.take 2 = [a0, cDep]) && (charsIU r.script).contains c) := by
            have key : ∀ b x q : Bool, (b && x) = false → ((b || q) && x) = (q && x) := by decide
            exact key b ((charsIU r.script).contains c) _ hb
          rw [e2]
          cases decide (pre.take 2 = [a0, cDep]) && (charsIU r.script).contains c <;> rfl
    | sign y => exact bare (F.sign hx)
    | mark y => exact bare (F.mark hx)
    | virama =>
      simp only [rawS, Sound.isCons, Sound.endsA]
      rw [show cVir :: rawS r.script Sound.isCons false T = [cVir] ++ rawS r.script Sound.isCons false T from rfl,
        free (by simp [cDep_ne_vir]) hpre, ih (by simp [cDep_ne_vir.symm])]
      have : ¬ (([cVir].reverse ++ pre).take 2 = [a0, cDep]) := by
        cases pre with
        | nil => simp
        | cons d pre =>
          simp only [List.reverse_cons, List.reverse_nil, List.nil_append, List.cons_append, List.take_succ_cons, List.take_zero,
            List.cons.injEq, and_true, not_and]
          intro _ h
          exact hpre (by simp [h])
      rw [decide_eq_false this]
      rfl
    | other c =>
      have hc := F.other hx
      simp only [rawS, Sound.isCons, Sound.endsA]
      rw [show c :: rawS r.script Sound.isCons false T = [c] ++ rawS r.script Sound.isCons false T from rfl,
        free (by simp [Ne.symm hc.2.1]) hpre, ih (by simp [hc.2.1])]
      have : ¬ (([c].reverse ++ pre).take 2 = [a0, cDep]) := by
        cases pre with
        | nil => simp
        | cons d pre =>
          simp only [List.reverse_cons, List.reverse_nil, List.nil_append, List.cons_append, List.take_succ_cons, List.take_zero,
            List.cons.injEq, and_true, not_and]
          intro _ h
          exact hpre (by simp [h])
      rw [decide_eq_false this]
      rfl


/-! ## Where the markers stand -/

theorem append_cons_split {u v p q : PyStr} {m : Nat} (hm : m ∉ u) (h : u ++ v = p ++ m :: q) :
    ∃ p', p = u ++ p' ∧ v = p' ++ m :: q := by
  induction u generalizing p with
  | nil => exact ⟨p, rfl, h⟩
  | cons c u ih =>
    cases p with
    | nil =>
      simp only [List.cons_append, List.nil_append, List.cons.injEq] at h
      exact absurd (by simp [h.1]) hm
    | cons d p =>
      simp only [List.cons_append, List.cons.injEq] at h
      obtain ⟨p', e1, e2⟩ := ih (fun hh => hm (List.mem_cons_of_mem _ hh)) h.2
      exact ⟨p', by rw [e1, h.1]; rfl, e2⟩

/-- The separated vowel letter holds no inherent-vowel and virama markers. -/
theorem vowel_unmarked {r : RomanEntry} (F : Spellings r) {y : PyStr} (hx : SoundOk r (.vowel y)) (b : Bool) {m : Nat}
    (hm : m = cSchwa ∨ m = cVir) :
    m ∉ cDep :: ((match b && headIU r.script y with | true => [cSep] | false => []) ++ y) := by
  have hy := F.vowel hx
  have h1 : m ≠ cDep := by rcases hm with rfl | rfl <;> decide
  have h2 : m ≠ cSep := by rcases hm with rfl | rfl <;> decide
  have h3 : m ∉ y := by
    rcases hm with rfl | rfl
    · exact hy.2.1
    · exact hy.2.2.2
  cases b && headIU r.script y <;> simp [h1, h2, h3]

theorem rawS_vowel (R : PyStr) (f : Sound → Bool) (b : Bool) (y : PyStr) (t : List Sound) :
    rawS R f b (.vowel y :: t) =
      (cDep :: ((match b && headIU R y with | true => [cSep] | false => []) ++ y)) ++ rawS R f (f (.vowel y)) t := by
  simp [rawS]

/-- The marker of the inherent vowel ends a consonant. -/
theorem schwa_at {r : RomanEntry} (F : Spellings r) (f : Sound → Bool) {T : List Sound} (hT : ∀ x ∈ T, SoundOk r x) {b : Bool}
    {p q : PyStr} (h : rawS r.script f b T = p ++ cSchwa :: q) :
    ∃ T1 y T2 p', T = T1 ++ .cons y :: T2 ∧ p = p' ++ y ∧ q = rawS r.script f (f (.cons y)) T2 := by
  induction T generalizing b p with
  | nil => simp [rawS] at h
  | cons x T ih =>
    have hx := hT x List.mem_cons_self
    have step : ∀ {u : PyStr} {b : Bool}, cSchwa ∉ u → u ++ rawS r.script f b T = p ++ cSchwa :: q →
        ∃ T1 y T2 p', x :: T = T1 ++ .cons y :: T2 ∧ p = p' ++ y ∧ q = rawS r.script f (f (.cons y)) T2 := by
      intro u b hu hh
      obtain ⟨p', e1, e2⟩ := append_cons_split hu hh
      obtain ⟨T1, y, T2, p'', e3, e4, e5⟩ := ih (fun x hx => hT x (List.mem_cons_of_mem _ hx)) e2
      exact ⟨x :: T1, y, T2, u ++ p'', by rw [e3]; rfl, by rw [e1, e4, List.append_assoc], e5⟩
    cases x with
    | cons y =>
      have hy := F.cons hx
      simp only [rawS] at h
      obtain ⟨p', e1, e2⟩ := append_cons_split hy.2.1 h
      cases p' with
      | nil =>
        simp only [List.nil_append, List.cons.injEq, true_and] at e2
        exact ⟨[], y, T, [], rfl, by simpa using e1, e2.symm⟩
      | cons d p' =>
        simp only [List.cons_append, List.cons.injEq] at e2
        obtain ⟨T1, y', T2, p'', e3, e4, e5⟩ := ih (fun x hx => hT x (List.mem_cons_of_mem _ hx)) e2.2
        exact ⟨.cons y :: T1, y', T2, y ++ cSchwa :: p'', by rw [e3]; rfl, by rw [e1, e4, ← e2.1]; simp, e5⟩
    | vowel y =>
      rw [rawS_vowel] at h
      exact step (vowel_unmarked F hx b (.inl rfl)) h
    | sign y => exact step (F.sign hx).2.1 h
    | mark y => exact step (F.mark hx).2.1 h
    | virama => exact step (u := [cVir]) (by simp [cVir_ne_schwa.symm]) h
    | other c => exact step (u := [c]) (by simp [(F.other hx).1.symm]) h

/-- The virama marker follows the inherent vowel of a consonant. -/
theorem virama_at {r : RomanEntry} (F : Spellings r) (f : Sound → Bool) {T : List Sound} (hT : ∀ x ∈ T, SoundOk r x) {b : Bool}
    {x0 : Sound} (hf : formedAfter x0 T = true) {p q : PyStr} (h : rawS r.script f b T = p ++ cVir :: q) :
    (p = [] ∧ x0.isCons = true) ∨ p.getLast? = some cSchwa := by
  induction T generalizing b p x0 with
  | nil => simp [rawS] at h
  | cons x T ih =>
    have hx := hT x List.mem_cons_self
    simp only [formedAfter, Bool.and_eq_true] at hf
    have step : ∀ {u : PyStr} {b : Bool}, cVir ∉ u → x.isCons = false → u ++ rawS r.script f b T = p ++ cVir :: q →
        (p = [] ∧ x0.isCons = true) ∨ p.getLast? = some cSchwa := by
      intro u b hu hc hh
      obtain ⟨p', e1, e2⟩ := append_cons_split hu hh
      rcases ih (fun x hx => hT x (List.mem_cons_of_mem _ hx)) hf.2 e2 with h | h
      · rw [hc] at h; cases h.2
      · right; rw [e1, List.getLast?_append, h]; rfl
    cases x with
    | cons y =>
      have hy := F.cons hx
      rw [show rawS r.script f b (.cons y :: T) = (y ++ [cSchwa]) ++ rawS r.script f (f (.cons y)) T by simp [rawS]] at h
      obtain ⟨p', e1, e2⟩ := append_cons_split (by simp [hy.2.2.2, cVir_ne_schwa]) h
      rcases ih (fun x hx => hT x (List.mem_cons_of_mem _ hx)) hf.2 e2 with h | h
      · right; rw [e1, h.1]; simp
      · right; rw [e1, List.getLast?_append, h]; rfl
    | vowel y =>
      rw [rawS_vowel] at h
      exact step (vowel_unmarked F hx b (.inr rfl)) rfl h
    | sign y => exact step (F.sign hx).2.2.2 rfl h
    | mark y => exact step (F.mark hx).2.2.2 rfl h
    | virama =>
      simp only [rawS] at h
      cases p with
      | nil =>
        left
        refine ⟨rfl, ?_⟩
        have := hf.1
        cases x0 <;> simp_all [mayFollow, Sound.isCons]
      | cons d p =>
        simp only [List.cons_append, List.cons.injEq] at h
        rcases ih (fun x hx => hT x (List.mem_cons_of_mem _ hx)) hf.2 h.2 with h | h
        · cases h.2
        · right
          cases p with
          | nil => cases h
          | cons e p => simpa using h
    | other c => exact step (u := [c]) (by simp [(F.other hx).2.2.symm]) rfl h

/-- A word without markers that begins like no free character, and such that no mark begins with it
or is the beginning of it. -/
structure Foreign (r : RomanEntry) (w : PyStr) : Prop where
  bare : Bare w
  marks : ∀ y ∈ r.marks, ¬ w <+: y ∧ ¬ y <+: w
  free : ∀ c ∈ r.free, w.head? ≠ some c
  neutral : ∀ c, w.head? = some c → isNeutral c = false

theorem raw_prefix {r : RomanEntry} (F : Spellings r) (f : Sound → Bool) {T : List Sound} (hT : ∀ x ∈ T, SoundOk r x) {b : Bool}
    {w : PyStr} (hw : Foreign r w) (h : w <+: rawS r.script f b T) :
    (∃ y t, T = .cons y :: t ∧ w <+: y) ∨ (∃ y t, T = .sign y :: t ∧ w.head? = y.head?) := by
  have hne := hw.bare.1
  obtain ⟨c, w, rfl⟩ := List.exists_cons_of_ne_nil hne
  obtain ⟨q, h⟩ := h
  have hc1 : c ≠ cSchwa := by rintro rfl; exact hw.bare.2.1 (by simp)
  have hc2 : c ≠ cDep := by rintro rfl; exact hw.bare.2.2.1 (by simp)
  have hc3 : c ≠ cVir := by rintro rfl; exact hw.bare.2.2.2 (by simp)
  cases T with
  | nil => simp [rawS] at h
  | cons x t =>
    have hx := hT x List.mem_cons_self
    cases x with
    | cons y =>
      left
      refine ⟨y, t, rfl, ?_⟩
      simp only [rawS] at h
      rcases List.append_eq_append_iff.1 h with ⟨a, e, -⟩ | ⟨a, e, e2⟩
      · exact ⟨a, e.symm⟩
      · cases a with
        | nil => exact ⟨[], by simpa using e⟩
        | cons d a =>
          simp only [List.cons_append, List.cons.injEq] at e2
          exact absurd (by rw [e, e2.1]; simp) hw.bare.2.1
    | vowel y =>
      simp only [rawS, List.cons_append, List.cons.injEq] at h
      exact absurd h.1 hc2
    | sign y =>
      right
      refine ⟨y, t, rfl, ?_⟩
      have hy := (F.sign hx).1
      obtain ⟨d, y, rfl⟩ := List.exists_cons_of_ne_nil hy
      simp only [rawS, List.cons_append, List.cons.injEq] at h
      simp [h.1]
    | virama =>
      simp only [rawS, List.cons_append, List.cons.injEq] at h
      exact absurd h.1 hc3
    | mark y =>
      have := hw.marks y hx
      simp only [rawS] at h
      rcases List.append_eq_append_iff.1 h with ⟨a, e, -⟩ | ⟨a, e, -⟩
      · exact absurd ⟨a, e.symm⟩ this.1
      · exact absurd ⟨a, e.symm⟩ this.2
    | other d =>
      simp only [rawS, List.cons_append, List.cons.injEq] at h
      obtain ⟨rfl, -⟩ := h
      rcases hx with hx | hx
      · exact absurd rfl (hw.free c hx)
      · rw [hw.neutral c rfl] at hx; cases hx

theorem formed_split {x0 x : Sound} {T1 T2 : List Sound} (h : formedAfter x0 (T1 ++ x :: T2) = true) : formedAfter x T2 = true := by
  induction T1 generalizing x0 with
  | nil => simp only [List.nil_append, formedAfter, Bool.and_eq_true] at h; exact h.2
  | cons y T1 ih => simp only [List.cons_append, formedAfter, Bool.and_eq_true] at h; exact ih h.2

theorem breath_split {R : PyStr} {y : PyStr} {T1 T2 : List Sound} (h : noFalseAspirate R (T1 ++ .cons y :: T2) = true) :
    (endsPlosive R y && joinedH R T2) = false := by
  induction T1 with
  | nil => simp only [List.nil_append, noFalseAspirate, Bool.and_eq_true, Bool.not_eq_true'] at h; exact h.1
  | cons x T1 ih =>
    refine ih ?_
    cases x <;> simp only [List.cons_append, noFalseAspirate, Bool.and_eq_true] at h
    · exact h.2
    all_goals exact h

/-! ## The words the rules look for are absent -/

/-- Spellings of the nukta. -/
def nuktaOf (R : PyStr) : PyStr := letterAt R .NuktaMap 0

/-- The words of the rules that keep plosives apart from h, consonants apart from vowels, and that
reorder the nukta. -/
def deadWords (R : PyStr) : List PyStr :=
  (plosives R).map (fun p => p ++ cSchwa :: cVir :: letterH R) ++
    ((lettersOf R GM.Vowels).map (fun v => cSchwa :: cVir :: v) ++ [cSchwa :: nuktaOf R])

/-- What is needed of the letters in these words. -/
structure DeadFacts (r : RomanEntry) : Prop where
  plosive : ∀ p ∈ plosives r.script, p ≠ []
  h : Foreign r (letterH r.script)
  vowel : ∀ v ∈ lettersOf r.script GM.Vowels, Foreign r v ∧ ∀ y ∈ r.conss, ¬ v <+: y
  nukta : Foreign r (nuktaOf r.script) ∧ (∀ y ∈ r.conss, ¬ nuktaOf r.script <+: y) ∧
    ∀ y ∈ r.vowels, (nuktaOf r.script).head? ≠ y.head?

theorem virama_prefix {r : RomanEntry} (F : Spellings r) (f : Sound → Bool) {T : List Sound} (hT : ∀ x ∈ T, SoundOk r x) {b : Bool}
    {w : PyStr} (h : cVir :: w <+: rawS r.script f b T) : ∃ t, T = .virama :: t ∧ w <+: rawS r.script f (f .virama) t := by
  obtain ⟨q, h⟩ := h
  have key : ∀ {y z : PyStr}, Bare y → cVir :: w ++ q = y ++ z → False := by
    intro y z hy he
    obtain ⟨d, y, rfl⟩ := List.exists_cons_of_ne_nil hy.1
    simp only [List.cons_append, List.cons.injEq] at he
    exact hy.2.2.2 (by simp [he.1])
  cases T with
  | nil => simp [rawS] at h
  | cons x t =>
    have hx := hT x List.mem_cons_self
    cases x with
    | cons y => exact (key (F.cons hx) h).elim
    | vowel y =>
      simp only [rawS, List.cons_append, List.cons.injEq] at h
      exact absurd h.1.symm cDep_ne_vir
    | sign y => exact (key (F.sign hx) h).elim
    | mark y => exact (key (F.mark hx) h).elim
    | virama =>
      simp only [rawS, List.cons_append, List.cons.injEq, true_and] at h
      exact ⟨t, rfl, q, h⟩
    | other c =>
      simp only [rawS, List.cons_append, List.cons.injEq] at h
      exact absurd h.1.symm (F.other hx).2.2

theorem dead_absent {r : RomanEntry} (F : Spellings r) (D : DeadFacts r) (f : Sound → Bool) {T : List Sound}
    (hT : ∀ x ∈ T, SoundOk r x) {x0 : Sound} (hf : formedAfter x0 T = true) (hb : noFalseAspirate r.script T = true) {b : Bool} :
    ∀ w ∈ deadWords r.script, ¬ w <:+: rawS r.script f b T := by
  intro w hw hi
  obtain ⟨p, q, hi⟩ := hi
  have sub : ∀ {T1 T2 : List Sound} {x : Sound}, T = T1 ++ x :: T2 → ∀ z ∈ T2, SoundOk r z :=
    fun e z hz => hT z (by rw [e]; simp [hz])
  simp only [deadWords, List.mem_append, List.mem_map, List.mem_singleton] at hw
  rcases hw with ⟨a, ha, rfl⟩ | ⟨v, hv, rfl⟩ | rfl
  · obtain ⟨T1, y, T2, p', e1, e2, e3⟩ := schwa_at F f hT (p := p ++ a) (q := cVir :: letterH r.script ++ q) (b := b)
      (by rw [← hi]; simp)
    have hy := F.cons (hT (.cons y) (by rw [e1]; simp))
    obtain ⟨t, rfl, h2⟩ := virama_prefix F f (sub e1) (w := letterH r.script) ⟨q, e3⟩
    have hf2 := formed_split (by rw [e1] at hf; exact hf)
    rcases raw_prefix F f (fun z hz => sub e1 z (List.mem_cons_of_mem _ hz)) D.h h2 with ⟨z, t', rfl, hz⟩ | ⟨z, t', rfl, -⟩
    · have := breath_split (by rw [e1] at hb; exact hb)
      have e4 : endsPlosive r.script y = true := by
        unfold endsPlosive
        rw [List.any_eq_true]
        refine ⟨a, ha, ?_⟩
        have h1 := congrArg List.getLast? e2
        have ha0 := D.plosive a ha
        rw [List.getLast?_append, List.getLast?_append] at h1
        rw [beq_iff_eq]
        cases hA : a.getLast? with
        | none => exact absurd (List.getLast?_eq_none_iff.1 hA) ha0
        | some u =>
          cases hY : y.getLast? with
          | none => exact absurd (List.getLast?_eq_none_iff.1 hY) hy.1
          | some v =>
            rw [hA, hY] at h1
            simpa using h1
      rw [e4] at this
      have h5 : joinedH r.script (.virama :: .cons z :: t') = true := by
        simp only [joinedH]
        exact List.isPrefixOf_iff_prefix.2 hz
      rw [h5] at this
      cases this
    · simp [formedAfter, mayFollow] at hf2
  · obtain ⟨T1, y, T2, p', e1, e2, e3⟩ := schwa_at F f hT (p := p) (q := cVir :: v ++ q) (b := b)
      (by rw [← hi]; simp)
    obtain ⟨t, rfl, h2⟩ := virama_prefix F f (sub e1) (w := v) ⟨q, e3⟩
    have hf2 := formed_split (by rw [e1] at hf; exact hf)
    rcases raw_prefix F f (fun z hz => sub e1 z (List.mem_cons_of_mem _ hz)) (D.vowel v hv).1 h2 with ⟨z, t', rfl, hz⟩ | ⟨z, t', rfl, -⟩
    · exact (D.vowel v hv).2 z (sub e1 (.cons z) (by simp)) hz
    · simp [formedAfter, mayFollow] at hf2
  · obtain ⟨T1, y, T2, p', e1, e2, e3⟩ := schwa_at F f hT (p := p) (q := nuktaOf r.script ++ q) (b := b)
      (by rw [← hi]; simp)
    rcases raw_prefix F f (sub e1) D.nukta.1 ⟨q, e3⟩ with ⟨z, t', rfl, hz⟩ | ⟨z, t', rfl, hz⟩
    · exact D.nukta.2.1 z (sub e1 (.cons z) (by simp)) hz
    · exact D.nukta.2.2 z (sub e1 (.sign z) (by simp)).1 hz

/-! ## Dropping the inherent vowel -/

/-- The text after the inherent vowels have been dropped. -/
def rawD (R : PyStr) : Bool → List Sound → PyStr
  | _, [] => []
  | _, .cons y :: t => y ++ ((match signed t with | true => [] | false => [cSchwa]) ++ rawD R true t)
  | b, .vowel y :: t => cDep :: ((match b && headIU R y with | true => [cSep] | false => []) ++
      (y ++ rawD R (decide (y = inherentA R)) t))
  | _, .sign y :: t => y ++ rawD R false t
  | _, .virama :: t => cVir :: rawD R false t
  | _, .mark y :: t => y ++ rawD R false t
  | _, .other c :: t => c :: rawD R false t

/-- The rule that drops the inherent vowel before one of the words `W`. -/
def dropRule (W : List PyStr) : PyStr → Nat → PyStr → Bool := fun _ c t => [cSchwa].contains c && (anyPrefix W t != false)

/-- What is needed of the words. -/
structure DropFacts (r : RomanEntry) (W : List PyStr) : Prop where
  virama : [cVir] ∈ W
  signs : ∀ y ∈ lettersOf r.script GM.VowelSignsNV, y ∈ W
  words : ∀ w ∈ W, w = [cVir] ∨ (Foreign r w ∧ ∀ y ∈ r.conss, ¬ w <+: y)

theorem signed_iff {r : RomanEntry} (F : Spellings r) {W : List PyStr} (D : DropFacts r W) (f : Sound → Bool) {T : List Sound}
    (hT : ∀ x ∈ T, SoundOk r x) (b : Bool) : anyPrefix W (rawS r.script f b T) = signed T := by
  rw [Bool.eq_iff_iff, anyPrefix_iff]
  constructor
  · rintro ⟨w, hw, hp⟩
    rcases D.words w hw with rfl | ⟨h1, h2⟩
    · obtain ⟨t, rfl, -⟩ := virama_prefix F f hT hp
      rfl
    · rcases raw_prefix F f hT h1 hp with ⟨y, t, rfl, h⟩ | ⟨y, t, rfl, -⟩
      · exact absurd h (h2 y (hT (.cons y) List.mem_cons_self))
      · rfl
  · intro h
    cases T with
    | nil => cases h
    | cons x t =>
      cases x with
      | sign y => exact ⟨y, D.signs y (hT _ List.mem_cons_self).2, _, rfl⟩
      | virama => exact ⟨[cVir], D.virama, _, rfl⟩
      | _ => cases h

theorem walk_drop_free {W : List PyStr} {p : PyStr} (hp : cSchwa ∉ p) (pre t : PyStr) :
    walk (dropRule W) (fun _ => []) pre (p ++ t) = p ++ walk (dropRule W) (fun _ => []) (p.reverse ++ pre) t := by
  induction p generalizing pre with
  | nil => rfl
  | cons c p ih =>
    simp only [List.mem_cons, not_or] at hp
    have h1 : dropRule W pre c (p ++ t) = false := by
      unfold dropRule
      have : [cSchwa].contains c = false := by simpa using Ne.symm hp.1
      rw [this]; rfl
    simp only [List.cons_append, walk, h1, Bool.false_eq_true, if_false, List.cons.injEq, true_and]
    rw [ih hp.2]
    simp

theorem walk_drop {r : RomanEntry} (F : Spellings r) {W : List PyStr} (D : DropFacts r W) {T : List Sound}
    (hT : ∀ x ∈ T, SoundOk r x) (b : Bool) (pre : PyStr) :
    walk (dropRule W) (fun _ => []) pre (rawS r.script (Sound.endsA r.script) b T) = rawD r.script b T := by
  induction T generalizing pre b with
  | nil => rfl
  | cons x T ih =>
    have hx := hT x List.mem_cons_self
    have hT' : ∀ x ∈ T, SoundOk r x := fun x hx => hT x (List.mem_cons_of_mem _ hx)
    have ih := fun b pre => ih hT' b pre
    cases x with
    | cons y =>
      simp only [rawS, rawD]
      rw [walk_drop_free (F.cons hx).2.1, walk_one, ih]
      have : ∀ pre t, dropRule W pre cSchwa t = anyPrefix W t := by
        intro pre t
        have : [cSchwa].contains cSchwa = true := by decide
        simp only [dropRule, this, Bool.true_and]
        cases anyPrefix W t <;> rfl
      rw [this, signed_iff F D _ hT']
      simp only [Sound.endsA]
      cases signed T <;> rfl
    | vowel y =>
      rw [rawS_vowel, walk_drop_free (vowel_unmarked F hx b (.inl rfl)), ih]
      simp [rawD, Sound.endsA]
    | sign y => simp only [rawS, rawD]; rw [walk_drop_free (F.sign hx).2.1, ih]; rfl
    | mark y => simp only [rawS, rawD]; rw [walk_drop_free (F.mark hx).2.1, ih]; rfl
    | virama =>
      simp only [rawS, rawD]
      rw [show cVir :: rawS r.script (Sound.endsA r.script) (Sound.endsA r.script .virama) T =
        [cVir] ++ rawS r.script (Sound.endsA r.script) (Sound.endsA r.script .virama) T from rfl,
        walk_drop_free (by simp [cVir_ne_schwa.symm]), ih]
      rfl
    | other c =>
      simp only [rawS, rawD]
      rw [show c :: rawS r.script (Sound.endsA r.script) (Sound.endsA r.script (.other c)) T =
        [c] ++ rawS r.script (Sound.endsA r.script) (Sound.endsA r.script (.other c)) T from rfl,
        walk_drop_free (by simp [(F.other hx).1.symm]), ih]
      rfl

/-! ## The markers are spelled out -/

/-- The inherent vowel is written, the other markers are removed. -/
def spell (R : PyStr) (c : Nat) : PyStr :=
  if c = cSchwa then inherentA R else if c = cDep then [] else if c = cVir then [] else [c]

theorem spell_bare {R y : PyStr} (h : cSchwa ∉ y ∧ cDep ∉ y ∧ cVir ∉ y) : y.flatMap (spell R) = y := by
  induction y with
  | nil => rfl
  | cons c y ih =>
    simp only [List.mem_cons, not_or] at h
    rw [List.flatMap_cons, ih ⟨h.1.2, h.2.1.2, h.2.2.2⟩]
    simp only [spell, if_neg (Ne.symm h.1.1), if_neg (Ne.symm h.2.1.1), if_neg (Ne.symm h.2.2.1), List.cons_append, List.nil_append]

theorem spell_schwa (R : PyStr) : spell R cSchwa = inherentA R := if_pos rfl
theorem spell_dep (R : PyStr) : spell R cDep = [] := by
  unfold spell; rw [if_neg cDep_ne_schwa, if_pos rfl]
theorem spell_vir (R : PyStr) : spell R cVir = [] := by
  unfold spell; rw [if_neg cVir_ne_schwa, if_neg cDep_ne_vir.symm, if_pos rfl]

theorem spell_rawD {r : RomanEntry} (F : Spellings r) {T : List Sound} (hT : ∀ x ∈ T, SoundOk r x) (b : Bool) :
    (rawD r.script b T).flatMap (spell r.script) =
      ((match b with | true => separator r.script T | false => []) ++ romanPieces r.script T).flatten := by
  induction T generalizing b with
  | nil => cases b <;> rfl
  | cons x T ih =>
    have hx := hT x List.mem_cons_self
    have hT' : ∀ x ∈ T, SoundOk r x := fun x hx => hT x (List.mem_cons_of_mem _ hx)
    have ih := fun b => ih hT' b
    have bare : ∀ {y : PyStr}, Bare y → (y ++ rawD r.script false T).flatMap (spell r.script) = (y :: romanPieces r.script T).flatten := by
      intro y hy
      rw [List.flatMap_append, spell_bare hy.2, ih]
      rfl
    have sep0 : ∀ {x : Sound}, (∀ y, x ≠ .vowel y) → ∀ b : Bool,
        (match b with | true => separator r.script (x :: T) | false => []) = ([] : List PyStr) := by
      intro x h b
      cases b
      · rfl
      · cases x <;> first | rfl | exact absurd rfl (h _)
    cases x with
    | cons y =>
      rw [sep0 (by simp)]
      simp only [rawD, romanPieces, List.nil_append]
      rw [List.flatMap_append, spell_bare (F.cons hx).2, List.flatMap_append, ih]
      cases hs : signed T with
      | true =>
        have : separator r.script T = [] := by
          cases T with
          | nil => rfl
          | cons x T => cases x <;> first | rfl | cases hs
        simp [this]
      | false => simp [spell_schwa]
    | vowel y =>
      have hy := F.vowel hx
      obtain ⟨c, y', e⟩ := List.exists_cons_of_ne_nil hy.1
      have h1 : ∀ b : Bool, (match b && headIU r.script y with | true => [cSep] | false => []).flatMap (spell r.script) =
          (match b with | true => separator r.script (.vowel y :: T) | false => []).flatten := by
        intro b
        cases b with
        | false => rfl
        | true =>
          rw [e]
          simp only [Bool.true_and, headIU, separator]
          by_cases h : c ∈ charsIU r.script
          · rw [if_pos h, List.contains_iff_mem.2 h]
            exact spell_bare (R := r.script) (y := [cSep]) (by decide)
          · rw [if_neg h]
            have : (charsIU r.script).contains c = false := by simpa using h
            rw [this]; rfl
      simp only [rawD, romanPieces]
      rw [List.flatMap_cons, spell_dep, List.nil_append, List.flatMap_append, h1, List.flatMap_append, spell_bare hy.2, ih,
        List.flatten_append]
      by_cases h : y = inherentA r.script
      · rw [decide_eq_true h, if_pos h]; simp
      · rw [decide_eq_false h, if_neg h]; simp
    | sign y => rw [sep0 (by simp)]; exact bare (F.sign hx)
    | mark y => rw [sep0 (by simp)]; exact bare (F.mark hx)
    | virama =>
      rw [sep0 (by simp)]
      simp only [rawD, romanPieces]
      rw [List.flatMap_cons, spell_vir, ih]; rfl
    | other c =>
      rw [sep0 (by simp)]
      simp only [rawD, romanPieces]
      have hc := F.other hx
      rw [List.flatMap_cons, ih]
      simp [spell, hc.1, hc.2.1, hc.2.2]

end Verif
