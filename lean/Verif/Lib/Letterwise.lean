import Verif.Lib.Live
import Verif.Lib.FreshAna
import Verif.Lib.PlainUse
import Verif.Lib.Tables
import Verif.Spec.Core

/-!
# Letter by letter conversion
-/

namespace Verif

/-! ## Applying rules -/

/-- Apply the rules one after the other. -/
def applyRules (L : List (PyStr × PyStr)) (s : PyStr) : PyStr := L.foldl (fun s p => pyReplace s p.1 p.2) s

theorem run_replaceAll (E : Env) (L : List (PyStr × PyStr)) (s : PyStr) :
    (replaceAll L).prog.run E s = .ok (applyRules L s) := by
  induction L generalizing s with
  | nil => rfl
  | cons p L ih =>
    have : (replaceAll (p :: L)).prog = .rep p.1 p.2 (replaceAll L).prog := rfl
    rw [this]
    exact ih (pyReplace s p.1 p.2)

/-- What the rules make of a single character. -/
def charImage (L : List (PyStr × PyStr)) (c : Nat) : PyStr :=
  match L.lookup [c] with
  | some y => y
  | none => [c]

theorem lookup_snoc (K : List (PyStr × PyStr)) (p : PyStr × PyStr) (x : PyStr) :
    (K ++ [p]).lookup x = match K.lookup x with | some y => some y | none => if x = p.1 then some p.2 else none := by
  rw [List.lookup_append]
  cases K.lookup x with
  | some y => rfl
  | none =>
    simp only [List.lookup, Option.none_or]
    by_cases h : x = p.1
    · simp [h]
    · have : (x == p.1) = false := by simpa using h
      simp [h, this]

theorem lookup_mem {K : List (PyStr × PyStr)} {x y : PyStr} (h : K.lookup x = some y) : (x, y) ∈ K := by
  induction K with
  | nil => cases h
  | cons p K ih =>
    simp only [List.lookup] at h
    split at h
    · rename_i hb
      have : x = p.1 := by simpa using hb
      cases h
      rw [this]
      exact List.mem_cons_self
    · exact List.mem_cons_of_mem _ (ih h)

theorem lookup_none {K : List (PyStr × PyStr)} {x : PyStr} : K.lookup x = none ↔ ∀ p ∈ K, p.1 ≠ x := by
  induction K with
  | nil => simp
  | cons p K ih =>
    simp only [List.lookup]
    split
    · rename_i hb
      have : x = p.1 := by simpa using hb
      simp [this]
    · rename_i hb
      have : x ≠ p.1 := by simpa using hb
      simp [ih, Ne.symm this]

/-- Rules sorted by length act letter by letter if no long left-hand side occurs in the text and no
rule applies to what a rule has produced. -/
theorem applyRules_letterwise {L : List (PyStr × PyStr)} {s : PyStr} (hsort : LongestFirst L)
    (h0 : ∀ p ∈ L, p.1 ≠ []) (h1 : ∀ p ∈ L, 2 ≤ p.1.length → ¬ p.1 <:+: s)
    (h2 : ∀ c ∈ s, ∀ y, ([c], y) ∈ L → ∀ d ∈ y, ∀ p ∈ L, p.1 ≠ [d]) :
    applyRules L s = s.flatMap (charImage L) := by
  have key : ∀ (M K : List (PyStr × PyStr)), L = K ++ M →
      applyRules M (s.flatMap (charImage K)) = s.flatMap (charImage L) := by
    intro M
    induction M with
    | nil => intro K hL; rw [List.append_nil] at hL; rw [hL]; rfl
    | cons p M ih =>
      intro K hL
      have hp : p ∈ L := by rw [hL]; simp
      show applyRules M (pyReplace (s.flatMap (charImage K)) p.1 p.2) = _
      rw [← ih (K ++ [p]) (by rw [hL]; simp)]
      congr 1
      match hx : p.1 with
      | [] => exact absurd hx (h0 p hp)
      | [d] =>
        rw [pyReplace_single, List.flatMap_assoc]
        apply flatMap_congr_mem
        intro c hc
        unfold charImage
        rw [lookup_snoc]
        cases hK : K.lookup [c] with
        | some y =>
          have hy := lookup_mem hK
          have : d ∉ y := fun hd => h2 c hc y (by rw [hL]; exact List.mem_append_left _ hy) d hd p hp hx
          simp only
          have e : ∀ y : PyStr, d ∉ y → y.flatMap (fun c => if c = d then p.2 else [c]) = y := by
            intro y
            induction y with
            | nil => intro _; rfl
            | cons a y ihy =>
              intro h
              simp only [List.mem_cons, not_or] at h
              rw [List.flatMap_cons, if_neg (Ne.symm h.1), ihy h.2]
              rfl
          exact e y this
        | none =>
          simp only [List.flatMap_cons, List.flatMap_nil, List.append_nil, hx, List.cons.injEq, and_true]
          split <;> rfl
      | a :: b :: x =>
        have hlen : ∀ q ∈ K, 2 ≤ q.1.length := by
          intro q hq
          have hs : L.Pairwise fun p q => q.1.length ≤ p.1.length := hsort
          rw [hL, List.pairwise_append] at hs
          have := hs.2.2 q hq p (by simp)
          rw [hx] at this
          simp only [List.length_cons] at this
          omega
        have e : ∀ K : List (PyStr × PyStr), (∀ q ∈ K, 2 ≤ q.1.length) → s.flatMap (charImage K) = s := by
          intro K hK
          have : ∀ c, charImage K c = [c] := by
            intro c
            unfold charImage
            rw [lookup_none.2]
            intro q hq hq'
            have := hK q hq
            rw [hq'] at this
            simp at this
          simp only [show charImage K = fun c => [c] from funext this]
          exact List.flatMap_singleton' s
        rw [e K hlen, e (K ++ [p])]
        · rw [← hx]
          exact pyReplace_of_not_infix (h0 p hp) (h1 p hp (by rw [hx]; simp))
        · intro q hq
          rcases List.mem_append.1 hq with h | h
          · exact hlen q h
          · rw [List.mem_singleton.1 h, hx]; simp
  have h := key L [] rfl
  have e : s.flatMap (charImage []) = s := List.flatMap_singleton' s
  rwa [e] at h

/-! ## Checks per script -/

/-- A mask and the neutral characters. -/
def mixSet (m : Nat) : CharSet where
  mem c := match maskMem m c with | true => true | false => neuMem c
  rangeOut a b := match maskOut m a b with | true => neu.rangeOut a b | false => false
  noSpace := false
  range_sound := by
    intro a b c h h1 h2
    split at h
    · rename_i hm
      rw [maskOut_sound m a b c hm h1 h2]
      exact neu.range_sound a b c h h1 h2
    · cases h
  space_sound := by simp

/-- The pattern matches nowhere in the texts of the class. -/
def patIdle (A : CharSet) (F : List PyStr) (p : PyStr) : Bool :=
  match parseRe p with
  | none => true
  | some (r, _) =>
    match r.blocked A with
    | true => true
    | false => match r.live A F with | (_, []) => true | _ => false

theorem patIdle_run {E : Env} {A : CharSet} {F : List PyStr} {p : PyStr} (h : patIdle A F p = true) {t s s' : PyStr}
    {k : Prog} (hs : InCore A F s) (hr : (Prog.sub p t k).run E s = .ok s') : k.run E s = .ok s' := by
  simp only [Prog.run] at hr
  unfold patIdle at h
  unfold compileSub at hr
  split at h
  · rename_i hp; rw [hp] at hr; cases hr
  · rename_i r ng hp
    rw [hp] at hr
    simp only at hr
    split at hr
    · cases hr
    · rename_i r' tm hc
      cases ht : parseTmpl ng 0 t with
      | none => rw [ht] at hc; cases hc
      | some tm' =>
        rw [ht] at hc
        cases hc
        split at h
        · rename_i hk
          rwa [reSubC_blocked hk hs.1] at hr
        · split at h
          · rename_i hk
            rwa [reSubC_dead (by rw [hk]) hs] at hr
          · cases h

/-- The Om of the script does not occur. -/
def omIdle (A : CharSet) (F : List PyStr) (signs : List PyStr) (om : PyStr) : Bool :=
  match Nat.beq om.length 1 with
  | true => dead A F om
  | false => patIdle A F (omPunc signs ++ om ++ omPunc signs) && patIdle A F ((u! "^") ++ om ++ omPunc signs) &&
      patIdle A F (omPunc signs ++ om ++ (u! "$")) && patIdle A F ((u! "^") ++ om ++ (u! "$"))

theorem omIdle_run {E : Env} {A : CharSet} {F : List PyStr} {signs : List PyStr} {om tOm : PyStr}
    (h : omIdle A F signs om = true) {s s' : PyStr} (hs : InCore A F s)
    (hr : (indicOm signs om tOm).prog.run E s = .ok s') : s' = s := by
  unfold omIdle at h
  unfold indicOm at hr
  split at h
  · rename_i hl
    rw [hl] at hr
    have : (replace om tOm).prog.run E s = .ok (pyReplace s om tOm) := rfl
    simp only [this, pyReplace_of_not_infix (dead_ne_nil h hs) (dead_sound h hs)] at hr
    cases hr; rfl
  · rename_i hl
    rw [hl] at hr
    simp only [Bool.and_eq_true] at h
    obtain ⟨⟨⟨h1, h2⟩, h3⟩, h4⟩ := h
    have hr : (Prog.sub (omPunc signs ++ om ++ omPunc signs) _ (Prog.sub _ _ (Prog.sub _ _ (Prog.sub _ _ .done)))).run E s = .ok s' := hr
    have := patIdle_run h4 hs (patIdle_run h3 hs (patIdle_run h2 hs (patIdle_run h1 hs hr)))
    cases this; rfl

/-- A letter is core, or does not occur in core text. -/
def letterFine (A : CharSet) (F : List PyStr) (letters x : PyStr) : Bool :=
  match x with
  | [] => false
  | [d] => match A.mem d with | true => natMem d letters | false => true
  | _ => dead A F x

/-- How often a letter occurs in the list. -/
def countIn (x : PyStr) : List PyStr → Nat
  | [] => 0
  | y :: l => cond (strEq x y) (Nat.succ (countIn x l)) (countIn x l)

/-- The checks for a script: `m` covers the core letters and plain characters, `mn` those that
nativisation leaves alone. -/
def coreOkAt (m mn : Nat) (e : CoreEntry) : Bool :=
  strMem e.script sourceScripts && strMem e.script targetScripts && strMem e.script GM.IndicScripts &&
  (sameForPre e.script (u! "Devanagari") || sameForPre e.script (u! "Tamil")) &&
  e.letters.all (fun c => maskMem m c && Nat.beq (countIn [c] (lettersOf e.script letterSecs)) 1) &&
  plainChars.all (fun c => natMem c e.notPlain || maskMem m c) &&
  e.letters.all (fun c => natMem c e.natDrop || maskMem mn c) &&
  plainChars.all (fun c => natMem c e.natDrop || maskMem mn c || natMem c e.notPlain) &&
  (lettersOf e.script letterSecs).all (letterFine (mixSet m) e.forbid e.letters) &&
  (PreProcess.PreProcess e.script (u! "Devanagari") [] []).prog.idle (mixSet m) e.forbid &&
  (PreProcess.PreProcess e.script (u! "Tamil") [] []).prog.idle (mixSet m) e.forbid &&
  (prefixII e.script).prog.idle (mixSet m) e.forbid &&
  omIdle (mixSet m) e.forbid (lettersOf e.script GM.Signs) (headSec .OmMap e.script) &&
  (endII e.script).prog.idle (mixSet m) e.forbid &&
  (finishT e.script false).prog.idle (mixSet m) e.forbid &&
  (strMem [] e.natForbid || (finishT e.script true).prog.idle (mixSet mn) (e.forbid ++ e.natForbid)) &&
  e.letters.all (fun c => !(neuMem c) && !(natMem c plainChars))

/-- The characters that are not in the other list. -/
def without (l d : PyStr) : PyStr := l.filter fun c => !(natMem c d)

/-- The checks for a script. -/
def coreOk (e : CoreEntry) : Bool :=
  withNat (maskOf (without (e.letters ++ plainChars) e.notPlain)) fun m =>
    withNat (maskOf (without (without (e.letters ++ plainChars) e.notPlain) e.natDrop)) fun mn => coreOkAt m mn e

end Verif
