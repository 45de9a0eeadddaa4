import Verif.Lib.Compat
import Verif.Lib.CoreChecks
import Verif.Props.Plain

/-!
# Conversions to the scripts with numerals of their own
-/

namespace Verif

/-- The program replaces, does `f` and is idle afterwards; before, the texts are over the first
alphabet, after over the second one. -/
def Prog.around (f : Native) (A : CharSet) (F : List PyStr) (B : CharSet) : Prog → Bool
  | .rep x _ k => match dead A F x with | true => k.around f A F B | false => false
  | .nat g k => decide (g = f) && k.idle B []
  | _ => false

theorem Prog.around_sound {E : Env} {f : Native} {A B : CharSet} {F : List PyStr} {p : Prog} (h : p.around f A F B = true)
    {s s' : PyStr} (hs : InCore A F s) (hB : Over B (f.sem E.uni s)) (hr : p.run E s = .ok s') : s' = f.sem E.uni s := by
  induction p generalizing s s' with
  | rep x y k ih =>
    simp only [Prog.around] at h
    split at h
    · rename_i hx
      simp only [Prog.run, pyReplace_of_not_infix (dead_ne_nil hx hs) (dead_sound hx hs)] at hr
      exact ih h hs hB hr
    · cases h
  | nat g k ih =>
    simp only [Prog.around, Bool.and_eq_true, decide_eq_true_eq] at h
    obtain ⟨rfl, h⟩ := h
    simp only [Prog.run] at hr
    exact Prog.idle_sound h ⟨hB, fun _ h => (List.not_mem_nil h).elim⟩ hr
  | _ => cases h

/-- The script with the ASCII digits as letters. -/
def withDigits (e : CoreEntry) : CoreEntry := { e with letters := e.letters ++ u! "0123456789" }

/-- The checks of a script with numerals of its own: the letters with the digits are in order, the
last steps turn numbers into numerals and do nothing else. -/
def numOkAt (f : Native) (signs : PyStr) (m mn : Nat) (e : CoreEntry) : Bool :=
  (withDigits e).letters.all (fun c => maskMem m c && Nat.beq (countIn [c] (letterList e.script)) 1) &&
  plainChars.all (fun c => natMem c e.notPlain || maskMem m c) &&
  (letterList e.script).all (letterFine (mixSet m) e.forbid (withDigits e).letters) &&
  (endII e.script).prog.around f (mixSet m) e.forbid (mixSet mn) &&
  (finishT e.script false).prog.idle (mixSet mn) [] &&
  (finishT e.script true).prog.idle (mixSet mn) [] &&
  (e.letters ++ signs).all (maskMem mn) &&
  plainChars.all (fun c => natMem c e.notPlain || maskMem mn c)

def numOk (f : Native) (signs : PyStr) (e : CoreEntry) : Bool :=
  withNat (maskOf (without ((withDigits e).letters ++ plainChars) (without e.notPlain (u! "0123456789")))) fun m =>
    withNat (maskOf (without (e.letters ++ signs ++ plainChars) e.notPlain)) fun mn => numOkAt f signs m mn e

set_option maxRecDepth 100000 in
theorem numOk_kharoshthi : numOk .kharoshthiNumerals (u! "𐩀𐩁𐩂𐩃𐩄𐩅𐩆𐩇") coreKharoshthi = true := by decide +kernel
set_option maxRecDepth 100000 in
theorem numOk_oldPersian : numOk .oldPersianNumeral (u! "𐏑𐏒𐏓𐏔𐏕") coreOldPersian = true := by decide +kernel

/-- The digits of the source are not letters of the target other than themselves. -/
def digitsAgree (T : PyStr) (a : CoreEntry) : Bool :=
  ((letterList a.script).zip (letterList T)).all fun p => match p.1 with
    | [d] => !(Nat.ble 48 d && Nat.ble d 57) || strEq p.2 [d]
    | _ => true

set_option maxRecDepth 100000 in
theorem digitsAgree_kharoshthi : (coreTable.all (digitsAgree (u! "Kharoshthi"))) = true := by decide +kernel
set_option maxRecDepth 100000 in
theorem digitsAgree_oldPersian : (coreTable.all (digitsAgree (u! "OldPersian"))) = true := by decide +kernel

theorem compatible_withDigits {a e : CoreEntry} (h : Compatible a.script e) (hd : digitsAgree e.script a = true) :
    Compatible a.script (withDigits e) := by
  intro d hm y hy
  rcases List.mem_append.1 hm with hm | hd'
  · exact h d hm y hy
  · have := List.all_eq_true.1 hd _ hy
    have hr : (Nat.ble 48 d && Nat.ble d 57) = true := by
      exact List.all_eq_true.1 (show (u! "0123456789").all (fun d => Nat.ble 48 d && Nat.ble d 57) = true by decide) d hd'
    simp only [hr, Bool.not_true, Bool.false_or] at this
    exact strEq_iff.1 this

/-- The characters of a text with numbers, written differently. -/
theorem mem_write {f g : Nat → PyStr} {P : Nat → Prop} {l : List Piece} (hc : Piece.NoDigit P l) {c : Nat}
    (h : c ∈ Piece.write f l) : (c ∈ Piece.write g l ∧ P c) ∨ ∃ n, c ∈ f n := by
  induction l with
  | nil => cases h
  | cons p l ih =>
    cases p with
    | ch d =>
      rcases List.mem_cons.1 h with rfl | h
      · exact .inl ⟨List.mem_cons_self, hc.1⟩
      · rcases ih hc.2 h with h | h
        · exact .inl ⟨List.mem_cons_of_mem _ h.1, h.2⟩
        · exact .inr h
    | num n =>
      rcases List.mem_append.1 h with h | h
      · exact .inr ⟨n, h⟩
      · rcases ih hc h with h | h
        · exact .inl ⟨List.mem_append_right _ h.1, h.2⟩
        · exact .inr h

theorem mem_pyMul {x c : Nat} {n : Nat} (h : c ∈ pyMul [x] n) : c = x := by
  induction n with
  | zero => simp [pyMul] at h
  | succ n ih => simp [pyMul] at h; first | exact h | exact h.2 | (rcases h with h | h <;> first | exact h | exact ih h)

theorem oldPersianNumber_signs (n : Nat) : ∀ c ∈ oldPersianNumber n, c ∈ (u! "𐏑𐏒𐏓𐏔𐏕") := by
  intro c hc
  simp only [oldPersianNumber, List.mem_append] at hc
  rcases hc with (((h | h) | h) | h) | h <;> rw [mem_pyMul h] <;> decide

theorem kharoshthiOnes_signs (n : Nat) : ∀ c ∈ kharoshthiOnes n, c ∈ (u! "𐩀𐩁𐩂𐩃𐩄𐩅𐩆𐩇") := by
  intro c hc
  unfold kharoshthiOnes at hc
  split at hc <;> revert c <;> decide

theorem kharoshthiNumberF_signs (fuel n : Nat) : ∀ c ∈ kharoshthiNumberF fuel n, c ∈ (u! "𐩀𐩁𐩂𐩃𐩄𐩅𐩆𐩇") := by
  induction fuel generalizing n with
  | zero => intro c hc; cases hc
  | succ fuel ih =>
    have hx : ∀ (k x : Nat), x ∈ (u! "𐩀𐩁𐩂𐩃𐩄𐩅𐩆𐩇") →
        ∀ c ∈ (if k > 0 then (if k > 1 then kharoshthiNumberF fuel k else []) ++ [x] else []), c ∈ (u! "𐩀𐩁𐩂𐩃𐩄𐩅𐩆𐩇") := by
      intro k x hx c hc
      split at hc
      · rcases List.mem_append.1 hc with h | h
        · split at h
          · exact ih k c h
          · cases h
        · rw [List.mem_singleton.1 h]; exact hx
      · cases hc
    intro c hc
    simp only [kharoshthiNumberF] at hc
    rcases List.mem_append.1 hc with hc | h
    · rcases List.mem_append.1 hc with hc | h
      · rcases List.mem_append.1 hc with hc | h
        · rcases List.mem_append.1 hc with h | h
          · exact hx _ _ (by decide) c h
          · exact hx _ _ (by decide) c h
        · rw [mem_pyMul h]; decide
      · exact hx _ _ (by decide) c h
    · exact kharoshthiOnes_signs _ c h

theorem signs_not_ascii {f : Nat → PyStr} {signs : PyStr} (hs : signs.all (fun c => decide (57 < c)) = true)
    (hf : ∀ n, ∀ c ∈ f n, c ∈ signs) : ∀ n, ∀ c ∈ f n, ¬ ascii c := by
  intro n c hc ha
  have := List.all_eq_true.1 hs c (hf n c hc)
  have := of_decide_eq_true this
  unfold ascii at ha
  omega

/-- All numbers of the text become numerals, everything else stays. -/
theorem numerals_write {U : Uni} (hU : U.AsciiDigits) {f : Nat → PyStr} (hf : ∀ n, ∀ c ∈ f n, ¬ ascii c) (l : List Piece)
    (hs : Piece.spaced l) (hc : Piece.NoDigit (fun c => U.isDigit c = false) l) :
    (numbersDesc U (Piece.write pyStrNat l)).foldl (fun t n => pyReplace t (pyStrNat n) (f n)) (Piece.write pyStrNat l) =
      Piece.write f l := by
  obtain ⟨h1, h2⟩ := numbersDesc_write hU l hs hc
  refine replace_all pyStrNat_decimal hf _ h2 l hs ?_ fun n hn => h1.mem_iff.2 hn
  clear h1 h2 hs
  induction l with
  | nil => trivial
  | cons p l ih =>
    cases p with
    | ch c =>
      refine ⟨fun h => ?_, ih hc.2⟩
      have := (hU c h.1 h.2).1
      rw [hc.1] at this; cases this
    | num n => exact ih hc

/-- The conversion to a script with numerals of its own. -/
theorem num_convert {E : Env} (hU : E.uni.AsciiDigits) {a e : CoreEntry} {f : Nat → PyStr} {F : Native} {signs : PyStr}
    (fa : CoreFacts a) (fe : CoreFacts e) (hk : numOk F signs e = true)
    (hsem : ∀ s, F.sem E.uni s = (numbersDesc E.uni s).foldl (fun t n => pyReplace t (pyStrNat n) (f n)) s)
    (hsig : ∀ n, ∀ c ∈ f n, c ∈ signs) (hsg : signs.all (fun c => decide (57 < c)) = true)
    (hne : a.script ≠ e.script) (hA : Compatible a.script (withDigits e)) {nat : Bool} {s r : PyStr} (h : CoreText a s)
    (h' : CoreText (withDigits e) (respell a.script e.script s)) {l : List Piece}
    (hw : respell a.script e.script s = Piece.write pyStrNat l) (hs : Piece.spaced l)
    (hc : Piece.NoDigit (fun c => E.uni.isDigit c = false) l)
    (hr : (convert a.script e.script nat [] []).prog.run E s = .ok r) : r = Piece.write f l := by
  unfold numOk at hk
  rw [withNat_eq, withNat_eq] at hk
  unfold numOkAt at hk
  simp only [Bool.and_eq_true, Bool.or_eq_true, List.all_eq_true, Nat.beq_eq, natMem_iff] at hk
  obtain ⟨⟨⟨⟨⟨⟨⟨h1, h2⟩, h3⟩, h4⟩, h5⟩, h6⟩, h7⟩, h8⟩ := hk
  let lf : LetterFacts (withDigits e) := ⟨_, fe.tbl, fun c hc => (h1 c hc).1, fun c hc => (h1 c hc).2,
    fun c hc hn => (h2 c hc).resolve_left hn, h3⟩
  obtain ⟨s2, r1, r2⟩ := core_front (eT := withDigits e) fa lf fe.tgt fe.indic fe.pre hne hA h h' hr
  have hw' : F.sem E.uni (respell a.script e.script s) = Piece.write f l := by
    rw [hsem, hw]
    exact numerals_write hU (signs_not_ascii hsg hsig) l hs hc
  have hB : Over (mixSet (maskOf (without (e.letters ++ signs ++ plainChars) e.notPlain))) (Piece.write f l) := by
    intro c hm
    have : c ∈ e.letters ∨ c ∈ signs ∨ (c ∈ plainChars ∧ c ∉ e.notPlain) ∨ isNeutral c = true := by
      rcases mem_write (g := pyStrNat) hc hm with ⟨h, hd⟩ | ⟨n, h⟩
      · rw [← hw] at h
        rcases h'.chars c h with h | h | h
        · rcases List.mem_append.1 h with h | h
          · exact .inl h
          · have hx : ascii c := by
              have : ∀ d ∈ (u! "0123456789"), 48 ≤ d ∧ d ≤ 57 := by decide
              exact this c h
            have := (hU c hx.1 hx.2).1
            rw [hd] at this; cases this
        · exact .inr (.inr (.inl h))
        · exact .inr (.inr (.inr h))
      · exact .inr (.inl (hsig n c h))
    show (match maskMem _ c with | true => true | false => neuMem c) = true
    rcases this with h | h | h | h
    · rw [h7 c (List.mem_append_left _ h)]
    · rw [h7 c (List.mem_append_right _ h)]
    · rw [(h8 c h.1).resolve_left h.2]
    · rw [neuMem_eq, h]; split <;> rfl
  have r1 : (endII e.script).prog.run E (respell a.script e.script s) = .ok s2 := r1
  have r2 : (finishT e.script nat).prog.run E s2 = .ok r := r2
  have e2 := Prog.around_sound (B := mixSet (maskOf (without (e.letters ++ signs ++ plainChars) e.notPlain))) h4
    (lf.inCore h') (by rw [hw']; exact hB) r1
  rw [hw'] at e2
  subst e2
  have hi : InCore (mixSet (maskOf (without (e.letters ++ signs ++ plainChars) e.notPlain))) [] (Piece.write f l) :=
    ⟨hB, fun _ h => (List.not_mem_nil h).elim⟩
  cases nat with
  | false => exact Prog.idle_sound h5 hi r2
  | true => exact Prog.idle_sound h6 hi r2

end Verif
