import Verif.Lib.VelthuisConv
import Verif.Props.RomanBack

/-!
# C17, C44 for Velthuis
-/

namespace Verif

/-- Velthuis text is read letter by letter, if o and m nowhere stand with one character between. -/
theorem C44_velthuis (E : Env) (hE : E.TextOps) (e : CoreEntry) (he : e ∈ coreTable) (e' : CoreEntry) (he' : e' ∈ coreTable)
    (s : PyStr) (hs : Readable e romanVelthuis s)
    (ho : ∀ c, ¬ [111, c, 109] <:+: romanise e.script (u! "Velthuis") s)
    (hs' : CoreText e' (respell e.script e'.script s)) (nativize : Bool)
    (hn : nativize = true → NativeText e' (respell e.script e'.script s)) :
    process E (u! "Velthuis") e'.script (romanise e.script (u! "Velthuis") s) nativize [] [] (u! "default") =
      .ok (some (respell e.script e'.script s)) := by
  obtain ⟨fS⟩ := facts he
  obtain ⟨fT⟩ := facts he'
  have F := velthuis_facts
  have hK : E.KeepsSpelt romanVelthuis := fun h => absurd rfl h
  obtain ⟨x, hx⟩ := C09_no_exception E hE _ _ F.src fT.tgt (romanise e.script (u! "Velthuis") s) nativize
  have hx : process E (u! "Velthuis") e'.script (romanise e.script (u! "Velthuis") s) nativize [] [] (u! "default") = .ok (some x) := hx
  rw [hx]
  rw [process_plain hE (show u! "Velthuis" ∈ sourceScripts from F.src) fT.tgt] at hx
  cases hc : (convert (u! "Velthuis") e'.script nativize [] []).prog.run E (romanise e.script (u! "Velthuis") s) with
  | error y => rw [hc] at hx; cases hx
  | ok t =>
    rw [hc] at hx
    cases hx
    obtain ⟨h1, h2⟩ := readTargets_all e' he'
    rw [read_convert (r := romanVelthuis) fS.toLetterFacts fT h1 h2 F hK hs (velthuis_om ho) hs' hn hc]

/-- An Indic text comes back from Velthuis. -/
theorem C17_velthuis (E : Env) (hE : E.TextOps) (e : CoreEntry) (he : e ∈ coreTable) (ha : Apt e.script (u! "Velthuis"))
    (s : PyStr) (hs : Readable e romanVelthuis s) (ho : ∀ c, ¬ [111, c, 109] <:+: romanise e.script (u! "Velthuis") s)
    (nativize nativize' : Bool) (hn : nativize' = true → NativeText e s) :
    ∃ t, process E e.script (u! "Velthuis") s nativize [] [] (u! "default") = .ok (some t) ∧
      process E (u! "Velthuis") e.script t nativize' [] [] (u! "default") = .ok (some s) := by
  obtain ⟨fS⟩ := facts he
  have hself := respell_self fS.tbl s
  have hr : romanVelthuis ∈ romanTable := by simp [romanTable]
  refine ⟨_, C43_syllable_by_syllable E hE e he romanVelthuis hr ha s hs.toRomanText nativize, ?_⟩
  have := C44_velthuis E hE e he e he s hs ho (by rw [hself]; exact hs.core) nativize' (by rw [hself]; exact hn)
  rwa [hself] at this

/-- Decides the condition on o and m. -/
def noOm : PyStr → Bool
  | 111 :: _ :: 109 :: _ => false
  | _ :: s => noOm s
  | [] => true

theorem noOm_sound {s : PyStr} (h : noOm s = true) : ∀ c, ¬ [111, c, 109] <:+: s := by
  intro c hi
  induction s with
  | nil => have := hi.length_le; simp at this
  | cons d s ih =>
    rcases List.infix_cons_iff.1 hi with hi | hi
    · obtain ⟨w, hw⟩ := hi
      rw [← hw] at h
      simp [noOm] at h
    · unfold noOm at h
      split at h
      · simp at h
      · rename_i he
        cases he
        exact ih h hi
      · rename_i he; cases he

example : Readable coreDevanagari romanVelthuis (u! "संस्कृतम् धर्मक्षेत्रे") ∧
    (∀ c, ¬ [111, c, 109] <:+: romanise (u! "Devanagari") (u! "Velthuis") (u! "संस्कृतम् धर्मक्षेत्रे")) :=
  ⟨isReadable_sound (by decide +kernel), noOm_sound (by decide +kernel)⟩

/-- A word of o, any letter, m is taken for Om. -/
theorem C44_velthuis_violated :
    process sampleEnv (u! "Devanagari") (u! "Velthuis") (u! "ओक्म्") false [] [] (u! "default") = .ok (some (u! "okm")) ∧
    process sampleEnv (u! "Velthuis") (u! "Devanagari") (u! "okm") false [] [] (u! "default") = .ok (some (u! "ॐ")) := by
  decide +kernel

end Verif
