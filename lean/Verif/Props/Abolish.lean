import Verif.Props.OptionOrder
import Verif.Props.Plain
import Verif.Spec.Abolish

/-!
# C53: options that abolish characters
-/

namespace Verif

theorem applyInTurn_append {E : Env} {fns : List (PyStr × Gen Unit)} (os : List PyStr) (o : PyStr) (text : PyStr) :
    applyInTurn E fns (os ++ [o]) text = (applyInTurn E fns os text).bind fun t => applyInTurn E fns [o] t := by
  induction os generalizing text with
  | nil => rfl
  | cons a os ih =>
    simp only [List.cons_append, applyInTurn]
    cases dictGet? fns a with
    | none => rfl
    | some f =>
      simp only
      cases f.prog.run E text with
      | error e => rfl
      | ok t => exact ih t

def abolishedChars : PyStr := abolished.flatMap (·.2)

theorem abolished_big : abolishedChars.all (fun c => Nat.blt 13 c) = true := by decide +kernel

/-- Each option is known, steers nothing else, and cleans the text of its characters. -/
theorem abolished_clean : abolished.all (fun p => !(strMem p.1 specialPost) && (match dictGet? postFns p.1 with
    | some g => cleans p.2 g.prog p.2
    | none => false)) = true := by decide +kernel

theorem plainEnd_eq {S T S' T' : PyStr} {n n' : Bool} (h : pyIn T GM.Transliteration = pyIn T' GM.Transliteration) :
    plainEnd S T n = plainEnd S' T' n' := by
  simp only [plainEnd, PostProcess.defaultPost, h, show ∀ x : PyStr, pyIn x ([] : List PyStr) = false from fun _ => rfl, branch_false]

/-- The end of the conversion brings in none of the characters. -/
theorem end_clean : us!["Devanagari", "ISO"].all (fun T =>
    abolished.all fun p => cleans p.2 (plainEnd [] T true).prog []) = true := by decide +kernel

theorem end_cleans {p : PyStr × PyStr} (hp : p ∈ abolished) (S T : PyStr) (nat : Bool) :
    cleans p.2 (plainEnd S T nat).prog [] = true := by
  have key : ∀ T' ∈ us!["Devanagari", "ISO"], pyIn T GM.Transliteration = pyIn T' GM.Transliteration →
      cleans p.2 (plainEnd S T nat).prog [] = true := by
    intro T' hT' he
    rw [plainEnd_eq (S := S) (n := nat) (S' := []) (n' := true) he]
    exact List.all_eq_true.1 (List.all_eq_true.1 end_clean T' hT') p hp
  cases h : pyIn T GM.Transliteration with
  | true => exact key (u! "ISO") (by simp) (h.trans (by decide +kernel))
  | false => exact key (u! "Devanagari") (by simp) (h.trans (by decide +kernel))

theorem ok_of_bind {α β : Type} {x : Except Exn α} {f : α → Except Exn β} {b : β} (h : x >>= f = .ok b) :
    ∃ a, x = .ok a ∧ f a = .ok b := by
  cases x with
  | error e => cases h
  | ok a => exact ⟨a, rfl, h⟩

/-- **C53.** If one of the options of `abolished` is the last post-option, the result contains none of the characters it
abolishes, for every text, every two covered scripts and any other ordinary options. -/
theorem C53_abolished (E : Env) (hE : E.TextOps) (S T : PyStr) (hS : S ∈ sourceScripts) (hT : T ∈ targetScripts) (hne : S ≠ T)
    (nativize : Bool) (pre post : List PyStr)
    (hpre : ∀ o ∈ pre, o ∈ names preFns ∧ o ∉ specialPre) (hpost : ∀ o ∈ post, o ∈ names postFns ∧ o ∉ specialPost)
    (option chars : PyStr) (h : (option, chars) ∈ abolished) (text result : PyStr)
    (hr : process E S T text nativize (post ++ [option]) pre (u! "default") = .ok (some result)) :
    ∀ c ∈ result, c ∉ chars := by
  have hc := List.all_eq_true.1 abolished_clean _ h
  simp only [Bool.and_eq_true, Bool.not_eq_true', strMem_false] at hc
  obtain ⟨hsp, hc⟩ := hc
  cases hg : dictGet? postFns option with
  | none => rw [hg] at hc; cases hc
  | some g =>
  rw [hg] at hc
  have hname : option ∈ names postFns := List.mem_map.2 ⟨_, dictGet?_some hg, rfl⟩
  rw [options_run E hE S T hS hT hne nativize pre (post ++ [option]) text hpre (fun o ho => by
    rcases List.mem_append.1 ho with ho | ho
    · exact hpost o ho
    · cases List.mem_singleton.1 ho
      exact ⟨hname, hsp⟩)] at hr
  have hctl : ∀ {l : PyStr}, (∀ c ∈ l, c ∈ abolishedChars) → ∀ c ∈ l, c < 7 ∨ 13 < c := by
    intro l hl c hc
    exact .inr (Nat.blt_eq.mp (List.all_eq_true.1 abolished_big c (hl c hc)))
  have hsub : ∀ c ∈ chars, c ∈ abolishedChars := fun c hc => List.mem_flatMap.2 ⟨_, h, hc⟩
  obtain ⟨t1, h1, hr⟩ := ok_of_bind hr
  obtain ⟨t2, h2, hr⟩ := ok_of_bind hr
  obtain ⟨t3, h3, hr⟩ := ok_of_bind hr
  obtain ⟨t4, h4, hr⟩ := ok_of_bind hr
  obtain ⟨t5, h5, hr⟩ := ok_of_bind hr
  cases hr
  rw [applyInTurn_append] at h4
  obtain ⟨t, -, h4⟩ := ok_of_bind h4
  have h4 : g.prog.run E t = .ok t4 := by
    simp only [applyInTurn, hg] at h4
    cases hx : g.prog.run E t with
    | error e => rw [hx] at h4; cases h4
    | ok x => rw [hx] at h4; exact h4
  have clean := cleans_sound (hctl hsub) hc (fun _ _ h => h) h4
  have he' : cleans chars (plainEnd S T nativize).prog [] = true := end_cleans h S T nativize
  exact cleans_sound (hctl hsub) he' (fun c hc hl => absurd hl (clean c hc)) h5

/-- Tamil without superscript numbers; without the option they are there. -/
example : process sampleEnv (u! "Devanagari") (u! "Tamil") (u! "गज") false us!["TamilRemoveNumbers"] [] (u! "default")
      = .ok (some (u! "கஜ"))
    ∧ process sampleEnv (u! "Devanagari") (u! "Tamil") (u! "गज") false [] [] (u! "default") = .ok (some (u! "க³ஜ")) := by
  decide +kernel

example (text result : PyStr)
    (hr : process sampleEnv (u! "Devanagari") (u! "Tamil") text false us!["TamilRemoveNumbers"] [] (u! "default") = .ok (some result)) :
    ∀ c ∈ result, c ∉ (u! "²³⁴₂₃₄¹₁") := by
  have hm : ((u! "TamilRemoveNumbers"), [0xB2, 0xB3, 0xB9, 0x2074, 0x2081, 0x2082, 0x2083, 0x2084]) ∈ abolished := by
    refine dictGet?_some ?_
    decide +kernel
  have := C53_abolished _ sampleEnv_textOps (u! "Devanagari") (u! "Tamil") (strMem_iff.1 (by decide +kernel))
    (strMem_iff.1 (by decide +kernel)) (by decide) false [] [] (by simp) (by simp) _ _ hm text result hr
  intro c hc h
  exact this c hc (by revert h; simp; omega)

end Verif
