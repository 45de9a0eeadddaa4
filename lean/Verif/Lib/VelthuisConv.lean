import Verif.Lib.ItransPre
import Verif.Lib.ReadTable

/-!
# Velthuis: the pattern for Om

Om is `o.m` in Velthuis and is used as a regular expression, in which the full stop stands for any
character.
-/

namespace Verif

/-- Begins with o, any character, m. -/
def Re.beginsOm : Re → Bool
  | .seq (.chr c) (.seq .any (.chr d)) => Nat.beq c 111 && Nat.beq d 109
  | .seq (.chr c) (.seq .any (.seq (.chr d) _)) => Nat.beq c 111 && Nat.beq d 109
  | _ => false

/-- o, any character, m is part of the pattern. -/
def Re.hasOm : Re → Bool
  | .seq a b => (Re.seq a b).beginsOm || b.hasOm
  | _ => false

theorem Re.beginsOm_sound {U : Uni} {r : Re} (h : r.beginsOm = true) {a b : St} (hs : r.Steps U a b) :
    ∃ c, [111, c, 109] <:+: a.whole := by
  have fin : ∀ {x c y : Nat} {cs : PyStr}, a.post = x :: c :: y :: cs → (Nat.beq x 111 && Nat.beq y 109) = true →
      ∃ c, [111, c, 109] <:+: a.whole := by
    intro x c y cs hp h
    rw [Bool.and_eq_true] at h
    have h1 := Nat.eq_of_beq_eq_true h.1
    have h2 := Nat.eq_of_beq_eq_true h.2
    subst h1 h2
    exact ⟨c, a.pre.reverse, cs, by simp [St.whole, hp]⟩
  unfold Re.beginsOm at h
  split at h
  · obtain ⟨m1, ⟨c1, h1, rfl⟩, m2, ⟨d, c2, h2, -, rfl⟩, c3, h3, rfl⟩ := hs
    exact fin (by rw [h1]; exact congrArg _ (h2.trans (congrArg _ h3))) h
  · obtain ⟨m1, ⟨c1, h1, rfl⟩, m2, ⟨d, c2, h2, -, rfl⟩, m3, ⟨c3, h3, rfl⟩, -⟩ := hs
    exact fin (by rw [h1]; exact congrArg _ (h2.trans (congrArg _ h3))) h
  · cases h

theorem Re.hasOm_sound {U : Uni} {r : Re} (h : r.hasOm = true) {a b : St} (hs : r.Steps U a b) :
    ∃ c, [111, c, 109] <:+: a.whole := by
  induction r generalizing a b with
  | seq x y _ ih =>
    simp only [Re.hasOm, Bool.or_eq_true] at h
    rcases h with h | h
    · exact Re.beginsOm_sound h hs
    · obtain ⟨m, h1, h2⟩ := hs
      rw [← h1.whole]
      exact ih h h2
  | _ => cases h

def patHasOm (p : PyStr) : Bool :=
  match parseRe p with
  | none => true
  | some (r, _) => r.hasOm

theorem patHasOm_run {E : Env} {p : PyStr} (h : patHasOm p = true) {t s s' : PyStr} {k : Prog}
    (hs : ∀ c, ¬ [111, c, 109] <:+: s) (hr : (Prog.sub p t k).run E s = .ok s') : k.run E s = .ok s' := by
  simp only [Prog.run] at hr
  unfold patHasOm at h
  unfold compileSub at hr
  split at hr
  · cases hr
  · rename_i r tm hc
    split at hc
    · cases hc
    · rename_i r' ng hp
      rw [hp] at h
      split at hc
      · cases hc
      · cases hc
        rwa [reSubC_never] at hr
        intro a b ha hst
        obtain ⟨c, hc⟩ := Re.hasOm_sound h hst
        rw [ha] at hc
        exact hs c hc

def omPatsHave (punc om : PyStr) : Bool :=
  patHasOm (punc ++ om ++ punc) && patHasOm ((u! "^") ++ om ++ punc) &&
    patHasOm (punc ++ om ++ (u! "$")) && patHasOm ((u! "^") ++ om ++ (u! "$"))

theorem omPatsHave_run {E : Env} {punc om tOm : PyStr} (h : omPatsHave punc om = true)
    {s s' : PyStr} (hs : ∀ c, ¬ [111, c, 109] <:+: s) (hr : (omSubs punc om tOm).prog.run E s = .ok s') : s' = s := by
  simp only [omPatsHave, Bool.and_eq_true] at h
  obtain ⟨⟨⟨h1, h2⟩, h3⟩, h4⟩ := h
  have hr : (Prog.sub (punc ++ om ++ punc) _ (Prog.sub _ _ (Prog.sub _ _ (Prog.sub _ _ .done)))).run E s = .ok s' := hr
  have := patHasOm_run h4 hs (patHasOm_run h3 hs (patHasOm_run h2 hs (patHasOm_run h1 hs hr)))
  cases this; rfl

theorem velthuis_om {E : Env} {t : PyStr} (h : ∀ c, ¬ [111, c, 109] <:+: t) : OmStill E romanVelthuis t := by
  have h1 : omPatsHave (omPunc (lettersOf romanVelthuis.script GM.Signs)) (headSec .OmMap romanVelthuis.script) = true := by
    decide +kernel
  have h2 : omPatsHave (u! "(\\s)") (headSec .OmMap romanVelthuis.script) = true := by decide +kernel
  rintro punc (rfl | rfl) tOm s' hr
  · exact omPatsHave_run h1 h hr
  · exact omPatsHave_run h2 h hr

theorem velthuis_facts : ReadFacts romanVelthuis :=
  readFacts (by decide +kernel) (by decide +kernel) (by decide +kernel)

end Verif
