import Verif.Lib.NoFailLoc
import Verif.Props.NoFail

/-!
# C54: ALA-LC romanisation

The script name `RomanLoC` stands for a different romanisation of each script.  The lists of scripts and options
are those of C47 and C07 (`Verif.Spec.NoFail`, `Verif.Spec.Scripts`).
-/

namespace Verif

theorem loc_listed : strMem (u! "RomanLoC") (GM.IndicScripts ++ GM.LatinScripts) = true := by decide +kernel

/-- The request is converted as it stands. -/
theorem process_loc {E : Env} (hE : E.TextOps) {S T : PyStr} (hS : S ∈ locSources) (hT : T ∈ locTargets)
    (text : PyStr) (nat : Bool) (post pre : List PyStr) :
    process E S T text nat post pre (u! "default") = ((convert S T nat (matchOptions E (names preFns) pre)
      (matchOptions E (names postFns) post)).prog.run E text).map some := by
  have hl : resolveName E (u! "RomanLoC") = u! "RomanLoC" := resolveName_listed hE (strMem_iff.1 loc_listed)
  have rS : resolveName E S = S := by
    rcases List.mem_append.1 hS with h | h
    · exact resolve_any hE (Or.inl (List.mem_append.1 h))
    · rw [List.mem_singleton.1 h]; exact hl
  have rT : resolveName E T = T := by
    rcases List.mem_append.1 hT with h | h
    · exact resolve_any hE (Or.inr (List.mem_append.1 h))
    · rw [List.mem_singleton.1 h]; exact hl
  have ha : strEq S (u! "autodetect") = false := by
    rw [strEq_false]
    rintro rfl
    exact strMem_false.1 (show strMem (u! "autodetect") locSources = false by decide +kernel) hS
  show (processDefault E S T text nat post pre).map some = _
  simp only [processDefault, ha, rS, rT, convertDefault]

theorem loc_fine {S T : PyStr} (hS : S ∈ locSources) (hT : T ∈ locTargets) (hloc : S = u! "RomanLoC" ∨ T = u! "RomanLoC")
    (hbS : S ∉ batakScripts) (hbT : T ∉ batakScripts) : locFine S T = true := by
  rcases hloc with rfl | rfl
  · have := List.all_eq_true.1 locFrom_all T hT
    rwa [strMem_false.2 hbT, Bool.false_or] at this
  · have := List.all_eq_true.1 locTo_all S hS
    rwa [strMem_false.2 hbS, Bool.false_or] at this

/-- **C54 (partial).** A request from or to ALA-LC romanisation returns a string for every text and any
combination of options, but for the options of C47.  Missing: the Batak scripts, see `C54_violated`. -/
theorem C54_alalc_no_exception_partial (E : Env) (hE : E.TextOps) (S T : PyStr)
    (hS : S ∈ sourceScripts ++ [u! "Itrans"] ++ dualScripts ++ semiticScripts ++ standardsRead ++ [u! "RomanLoC"])
    (hT : T ∈ targetScripts ++ [u! "IPA"] ++ semiticScripts ++ standardsWritten ++ [u! "RomanLoC"])
    (hloc : S = u! "RomanLoC" ∨ T = u! "RomanLoC") (hbS : S ∉ batakScripts) (hbT : T ∉ batakScripts)
    (post pre : List PyStr)
    (hpre : ∀ o ∈ failingPre ++ externalPre, ¬ Requested E pre o)
    (hpost : ∀ o ∈ failingPost ++ externalPost, ¬ Requested E post o)
    -- two options look up the punctuation of a script with a table of letters
    (htab : Requested E post (u! "indicDandas") ∨ Requested E post (u! "romanFullStop") →
      S ∉ semiticScripts ++ dualScripts ++ standardsRead ∧ T ∉ semiticScripts ++ dualScripts ++ standardsWritten)
    (text : PyStr) (nativize : Bool) :
    ∃ result, process E S T text nativize post pre (u! "default") = .ok (some result) := by
  rw [process_loc hE hS hT]
  have hs := loc_safe (kp := false) (nat := nativize) (pre := matchOptions E (names preFns) pre)
    (post := matchOptions E (names postFns) post) (loc_fine hS hT hloc hbS hbT)
    (fun o ho => by
      obtain ⟨h1, h2⟩ := mem_matchOptions.1 ho
      exact ⟨h1, fun h => hpre o (List.mem_append_left _ h) h2, fun h => hpre o (List.mem_append_right _ h) h2⟩)
    (fun o ho => by
      obtain ⟨h1, h2⟩ := mem_matchOptions.1 ho
      exact ⟨h1, fun h => hpost o (List.mem_append_left _ h) h2, fun h => hpost o (List.mem_append_right _ h) h2,
        fun e => by cases e⟩)
    (fun h => htab (h.imp (fun h => (mem_matchOptions.1 h).2) fun h => (mem_matchOptions.1 h).2))
    (fun e => by cases e) (fun e => by cases e) (fun e => by cases e)
  obtain ⟨r, hr⟩ := Prog.safe_total hE.total (optOk_iff.1 hs).1 text
  exact ⟨r, by rw [hr]; rfl⟩

/-- From ALA-LC romanisation to Khuen Tham, with an option. -/
example (text : PyStr) : ∃ r, process sampleEnv (u! "RomanLoC") (u! "KhuenTham") text true us!["removediacritics"]
    us!["REMOVEJOINERS"] (u! "default") = .ok (some r) := by
  refine C54_alalc_no_exception_partial _ sampleEnv_textOps _ _ (strMem_iff.1 (by decide +kernel)) (strMem_iff.1 (by decide +kernel))
    (Or.inl rfl) (strMem_false.1 (by decide +kernel)) (strMem_false.1 (by decide +kernel)) _ _
    (not_requested (by decide +kernel)) (not_requested (by decide +kernel)) (fun h => ?_) _ _
  have n := not_requested (l := us!["indicDandas", "romanFullStop"]) (req := us!["removediacritics"]) (by decide +kernel)
  rcases h with h | h
  · exact absurd h (n _ (List.mem_cons_self ..))
  · exact absurd h (n _ (List.mem_cons_of_mem _ (List.mem_cons_self ..)))

/-- **C54 (partial), neutral characters.** What C07 says of neutral characters holds also of ALA-LC
romanisation, with the same exceptions. -/
theorem C54_neutral_kept_partial (E : Env) (hE : E.TextOps) (S T : PyStr)
    (hS : S ∈ sourceScripts ++ [u! "Itrans"] ++ dualScripts ++ semiticScripts ++ standardsRead ++ [u! "RomanLoC"])
    (hT : T ∈ targetScripts ++ [u! "IPA"] ++ semiticScripts ++ standardsWritten ++ [u! "RomanLoC"])
    (hloc : S = u! "RomanLoC" ∨ T = u! "RomanLoC") (hbS : S ∉ batakScripts) (hbT : T ∉ batakScripts)
    (hloseS : S ∉ loseSrc ++ dualScripts ++ standardsRead) (hloseT : T ∉ loseTgt ++ [u! "IPA"])
    (hdbl : T ∈ semiticScripts → T ∈ doublingSemitic)
    (post pre : List PyStr)
    (hpre : ∀ o ∈ failingPre ++ externalPre, ¬ Requested E pre o)
    (hpost : ∀ o ∈ failingPost ++ externalPost ++ movingPost, ¬ Requested E post o)
    (htab : Requested E post (u! "indicDandas") ∨ Requested E post (u! "romanFullStop") →
      S ∉ semiticScripts ++ dualScripts ++ standardsRead ∧ T ∉ semiticScripts ++ dualScripts ++ standardsWritten)
    (text : PyStr) (htext : ∀ c ∈ text, isCompat c = false) (nativize : Bool) (result : PyStr)
    (hr : process E S T text nativize post pre (u! "default") = .ok (some result)) :
    neutralPart result = neutralPart text := by
  rw [process_loc hE hS hT] at hr
  refine neutral_of_ok hE htext (loc_safe (kp := true) (nat := nativize) (pre := matchOptions E (names preFns) pre)
    (post := matchOptions E (names postFns) post) (loc_fine hS hT hloc hbS hbT)
    (fun o ho => by
      obtain ⟨h1, h2⟩ := mem_matchOptions.1 ho
      exact ⟨h1, fun h => hpre o (List.mem_append_left _ h) h2, fun h => hpre o (List.mem_append_right _ h) h2⟩)
    (fun o ho => by
      obtain ⟨h1, h2⟩ := mem_matchOptions.1 ho
      exact ⟨h1, fun h => hpost o (List.mem_append_left _ (List.mem_append_left _ h)) h2,
        fun h => hpost o (List.mem_append_left _ (List.mem_append_right _ h)) h2,
        fun _ h => hpost o (List.mem_append_right _ h) h2⟩)
    (fun h => htab (h.imp (fun h => (mem_matchOptions.1 h).2) fun h => (mem_matchOptions.1 h).2))
    (fun _ => hloseS) (fun _ => hloseT) (fun _ => hdbl)) hr

/-- From Khmer to its ALA-LC romanisation. -/
example (text result : PyStr) (htext : ∀ c ∈ text, isCompat c = false)
    (hr : process sampleEnv (u! "Khmer") (u! "RomanLoC") text true [] [] (u! "default") = .ok (some result)) :
    neutralPart result = neutralPart text := by
  refine C54_neutral_kept_partial _ sampleEnv_textOps _ _ (strMem_iff.1 (by decide +kernel)) (strMem_iff.1 (by decide +kernel))
    (Or.inr rfl) (strMem_false.1 (by decide +kernel)) (strMem_false.1 (by decide +kernel)) (strMem_false.1 (by decide +kernel))
    (strMem_false.1 (by decide +kernel)) (fun h => absurd h (strMem_false.1 (by decide +kernel))) _ _
    (not_requested (by decide +kernel)) (not_requested (by decide +kernel)) (fun h => ?_) text htext true result hr
  rcases h with ⟨o, ho, -⟩ | ⟨o, ho, -⟩ <;> cases ho

theorem batak_raises : batakScripts.all (fun S => [true, false].all fun n =>
    (convert S (u! "RomanLoC") n [] []).prog.raises && (convert (u! "RomanLoC") S n [] []).prog.raises) = true := by
  decide +kernel

theorem batak_known : batakScripts.all (fun S => strMem S locSources && strMem S locTargets) = true := by decide +kernel

/-- **C54 fails** for the Batak scripts: every text in one of them raises an exception on the way to ALA-LC
romanisation, and every text on the way back. -/
theorem C54_violated (E : Env) (hE : E.TextOps) (S : PyStr) (hS : S ∈ batakScripts) (text : PyStr) (nativize : Bool) :
    (∃ e, process E S (u! "RomanLoC") text nativize [] [] (u! "default") = .error e)
    ∧ ∃ e, process E (u! "RomanLoC") S text nativize [] [] (u! "default") = .error e := by
  have h := List.all_eq_true.1 (List.all_eq_true.1 batak_raises S hS) nativize (by cases nativize <;> simp)
  have k := List.all_eq_true.1 batak_known S hS
  rw [Bool.and_eq_true] at h k
  have hl : (u! "RomanLoC") ∈ locSources ∧ (u! "RomanLoC") ∈ locTargets :=
    ⟨List.mem_append_right _ (List.mem_singleton.2 rfl), List.mem_append_right _ (List.mem_singleton.2 rfl)⟩
  constructor
  · obtain ⟨e, he⟩ := Prog.raises_run E _ h.1 text
    refine ⟨e, ?_⟩
    rw [process_loc hE (strMem_iff.1 k.1) hl.2, show matchOptions E (names preFns) [] = [] from rfl,
      show matchOptions E (names postFns) [] = [] from rfl, he]
    rfl
  · obtain ⟨e, he⟩ := Prog.raises_run E _ h.2 text
    refine ⟨e, ?_⟩
    rw [process_loc hE hl.1 (strMem_iff.1 k.2), show matchOptions E (names preFns) [] = [] from rfl,
      show matchOptions E (names postFns) [] = [] from rfl, he]
    rfl

end Verif
