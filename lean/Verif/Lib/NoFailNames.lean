import Verif.Lib.NoFailUse

/-!
# Scripts and options as `process` takes them
-/

namespace Verif

/-- A name that is not listed among the Indic and Latin scripts, in any case. -/
def ownName (x : PyStr) : Bool := x.all (fun c => Nat.blt c 128) &&
  (GM.IndicScripts ++ GM.LatinScripts).all fun s => !(strEq (asciiLower x) (asciiLower s))

theorem ownName_all : (us!["Latn", "Type"] ++ standardsWritten).all ownName = true := by decide +kernel

theorem resolveName_own {E : Env} (hE : E.TextOps) {x : PyStr} (hx : ownName x = true) : resolveName E x = x := by
  simp only [ownName, Bool.and_eq_true] at hx
  have hl : ∀ s ∈ GM.IndicScripts ++ GM.LatinScripts, E.lower s = asciiLower s := by
    intro s hs
    refine hE.lower_ascii s fun c hc => ?_
    have := List.all_eq_true.1 (List.all_eq_true.1 names_ascii s hs) c hc
    rwa [Nat.blt_eq] at this
  have hlx : E.lower x = asciiLower x := by
    refine hE.lower_ascii x fun c hc => ?_
    have := List.all_eq_true.1 hx.1 c hc
    rwa [Nat.blt_eq] at this
  unfold resolveName
  have : (GM.IndicScripts ++ GM.LatinScripts).find? (fun s => strEq (E.lower x) (E.lower s)) = none := by
    rw [List.find?_eq_none]
    intro s hs
    rw [hl s hs, hlx]
    have := List.all_eq_true.1 hx.2 s hs
    simpa using this
  rw [this]

theorem extra_listed : (us!["Itrans", "IPA"] ++ dualScripts).all
    (fun x => strMem x (GM.IndicScripts ++ GM.LatinScripts)) = true := by decide +kernel

theorem resolve_any {E : Env} (hE : E.TextOps) {x : PyStr}
    (hx : (x ∈ anySrc ∨ x ∈ standardsRead) ∨ (x ∈ anyTgt ∨ x ∈ standardsWritten)) : resolveName E x = x := by
  have hl : x ∈ us!["Itrans", "IPA"] ++ dualScripts → resolveName E x = x := fun h =>
    resolveName_listed hE (strMem_iff.1 (List.all_eq_true.1 extra_listed x h))
  have ho : x ∈ us!["Latn", "Type"] ++ standardsWritten → resolveName E x = x := fun h =>
    resolveName_own hE (List.all_eq_true.1 ownName_all x h)
  have hs : x ∈ semiticScripts → resolveName E x = x := by
    intro h
    rcases List.mem_append.1 h with h | h
    · exact resolveName_semitic hE h
    · exact ho (List.mem_append_left _ h)
  rcases hx with (h | h) | (h | h)
  · rcases List.mem_append.1 h with h | h
    · rcases List.mem_append.1 h with h | h
      · rcases List.mem_append.1 h with h | h
        · exact resolveName_listed hE (src_listed (src_plain h))
        · rw [List.mem_singleton] at h
          subst h
          exact hl (strMem_iff.1 (by decide +kernel))
      · exact hl (List.mem_append_right _ h)
    · exact hs h
  · refine ho (List.mem_append_right _ ?_)
    revert x
    intro x _ _ _ hx
    have := List.all_eq_true.1 (show standardsRead.all (fun x => strMem x standardsWritten) = true by decide +kernel) x hx
    exact strMem_iff.1 this
  · rcases List.mem_append.1 h with h | h
    · rcases List.mem_append.1 h with h | h
      · exact resolveName_listed hE (tgt_listed (tgt_plain h))
      · rw [List.mem_singleton] at h
        subst h
        exact hl (strMem_iff.1 (by decide +kernel))
    · exact hs h
  · exact ho (List.mem_append_right _ h)

theorem autodetect_own : ownName (u! "autodetect") = true := by decide +kernel

theorem autodetect_none : strMem (u! "autodetect") (anySrc ++ standardsRead) = false := by decide +kernel

/-- The request is converted as it stands. -/
theorem process_any {E : Env} (hE : E.TextOps) {S T : PyStr} (hS : S ∈ anySrc ∨ S ∈ standardsRead)
    (hT : T ∈ anyTgt ∨ T ∈ standardsWritten) (text : PyStr) (nat : Bool) (post pre : List PyStr) :
    process E S T text nat post pre (u! "default") = ((convert S T nat (matchOptions E (names preFns) pre)
      (matchOptions E (names postFns) post)).prog.run E text).map some := by
  have ha : strEq S (u! "autodetect") = false := by
    rw [strEq_false]
    rintro rfl
    exact strMem_false.1 autodetect_none (List.mem_append.2 hS)
  show (processDefault E S T text nat post pre).map some = _
  simp only [processDefault, ha, resolve_any hE (Or.inl hS), resolve_any hE (Or.inr hT), convertDefault]

theorem mem_matchOptions {E : Env} {known req : List PyStr} {k : PyStr} :
    k ∈ matchOptions E known req ↔ k ∈ known ∧ Requested E req k := by
  unfold matchOptions Requested
  simp only [List.mem_flatMap, List.mem_filter, strEq_iff]
  constructor
  · rintro ⟨o, ho, hk, e⟩
    exact ⟨hk, o, ho, e⟩
  · rintro ⟨hk, o, ho, e⟩
    exact ⟨o, ho, hk, e⟩

end Verif
