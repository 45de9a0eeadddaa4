import Verif.Lib.NoFailNames
import Verif.Lib.AlwaysFail
import Verif.Props.Plain

/-!
# C47: no text makes a request with options crash

`dualScripts`, `semiticScripts`, `standardsRead`, `standardsWritten`, the four lists of options and
`Requested` are in `Verif.Spec.NoFail`.
-/

namespace Verif

/-- **C47.** A request returns a string for every text, between the covered scripts, Semitic scripts
and romanisation standards included, with any combination of options, none of which is one of
those that raise on every text or of the three the model leaves open. -/
theorem C47_no_exception_with_options (E : Env) (hE : E.TextOps) (S T : PyStr)
    (hS : S ∈ sourceScripts ++ [u! "Itrans"] ++ dualScripts ++ semiticScripts ++ standardsRead)
    (hT : T ∈ targetScripts ++ [u! "IPA"] ++ semiticScripts ++ standardsWritten)
    (post pre : List PyStr)
    (hpre : ∀ o ∈ failingPre ++ externalPre, ¬ Requested E pre o)
    (hpost : ∀ o ∈ failingPost ++ externalPost, ¬ Requested E post o)
    -- two options look up the punctuation of a script with a table of letters
    (hdandas : Requested E post (u! "indicDandas") → S ∈ sourceScripts ++ [u! "Itrans"] ∧ S ∉ dualScripts ∧ T ∉ standardsWritten)
    (hstop : Requested E post (u! "romanFullStop") → T ∈ targetScripts ++ [u! "IPA"] ∧ T ∉ dualScripts ∧ S ∉ standardsRead)
    -- left to a module that the model leaves open
    (hipa : S = u! "Tamil" → T ≠ u! "IPA")
    (text : PyStr) (nativize : Bool) :
    ∃ result, process E S T text nativize post pre (u! "default") = .ok (some result) := by
  have hS' : S ∈ anySrc ∨ S ∈ standardsRead := List.mem_append.1 hS
  have hT' : T ∈ anyTgt ∨ T ∈ standardsWritten := List.mem_append.1 hT
  rw [process_any hE hS' hT']
  have hs : (convert S T nativize (matchOptions E (names preFns) pre) (matchOptions E (names postFns) post)).prog.safe false
      = true := by
    refine (optOk_iff.1 (convert_safe (kp := false) hS' hT' (fun o ho => ?_) (fun o ho => ?_) (fun ho => ?_) (fun ho => ?_) hipa
      (fun e => by cases e) (fun e => by cases e) (fun e => by cases e) (fun e => by cases e))).1
    · obtain ⟨h1, h2⟩ := mem_matchOptions.1 ho
      exact ⟨h1, fun h => hpre o (List.mem_append_left _ h) h2, fun h => hpre o (List.mem_append_right _ h) h2⟩
    · obtain ⟨h1, h2⟩ := mem_matchOptions.1 ho
      exact ⟨h1, fun h => hpost o (List.mem_append_left _ h) h2, fun h => hpost o (List.mem_append_right _ h) h2,
        fun e => by cases e⟩
    · obtain ⟨h1, h2, h3⟩ := hdandas (mem_matchOptions.1 ho).2
      exact ⟨List.mem_append_left _ h1, h2, hT'.resolve_right h3⟩
    · obtain ⟨h1, h2, h3⟩ := hstop (mem_matchOptions.1 ho).2
      exact ⟨h1, h2, hS'.resolve_right h3⟩
  obtain ⟨r, hr⟩ := Prog.safe_total hE.total hs text
  exact ⟨r, by rw [hr]; rfl⟩

/-- From Devanagari to the ISO 259 romanisation of Hebrew, with two options, one of them in capitals. -/
example (text : PyStr) : ∃ r, process sampleEnv (u! "Devanagari") (u! "ISO259") text true us!["AnusvaraAsN", "removediacritics"]
    us!["REMOVEJOINERS"] (u! "default") = .ok (some r) := by
  have no : ∀ (l req : List PyStr), l.all (fun o => req.all fun q => !(strEq (asciiLower q) (asciiLower o))) = true →
      ∀ o ∈ l, ¬ Requested sampleEnv req o := by
    rintro l req h o ho ⟨q, hq, e⟩
    have := List.all_eq_true.1 (List.all_eq_true.1 h o ho) q hq
    simp only [Bool.not_eq_true', strEq_false] at this
    exact this e
  refine C47_no_exception_with_options _ sampleEnv_textOps _ _ (strMem_iff.1 (by decide +kernel)) (strMem_iff.1 (by decide +kernel))
    _ _ (no _ _ (by decide +kernel)) (no _ _ (by decide +kernel)) (fun h => absurd h ?_) (fun h => absurd h ?_) (by decide) _ _
  · exact no us!["indicDandas"] _ (by decide +kernel) _ (List.mem_singleton.2 rfl)
  · exact no us!["romanFullStop"] _ (by decide +kernel) _ (List.mem_singleton.2 rfl)

/-- A conversion that passes the analysis leaves the neutral characters in their order. -/
theorem neutral_of_ok {E : Env} (hE : E.TextOps) {p : Prog} {text result : PyStr} (htext : ∀ c ∈ text, isCompat c = false)
    (hs : (optAna true).ok p = true) (hr : (p.run E text).map some = .ok (some result)) : neutralPart result = neutralPart text := by
  obtain ⟨-, hk, hn⟩ := optOk_iff.1 hs
  cases hrun : p.run E text with
  | error e => rw [hrun] at hr; cases hr
  | ok r =>
    rw [hrun] at hr
    cases hr
    have hfree : freeOf (guardSet false).mem text = true := by
      rw [freeOf_all]
      intro c hc
      have := htext c hc
      simpa [guardSet, guardMem_eq] using this
    have hctl : ∀ c, 7 ≤ c → c ≤ 13 → (guardSet false).mem c = false := by
      intro c h1 h2
      simp only [guardSet, guardMem_eq, isCompat, Bool.false_and, Bool.or_false, decide_eq_false_iff_not]
      omega
    rw [← Prog.run_guard (noNew_compat hE) hctl hn hfree] at hrun
    have := Prog.keeps_sound (keeps_guard hE) (hk rfl) hrun
    rw [show neu.mem = isNeutral from by funext c; exact neuMem_eq c] at this
    exact this

/-- **C07 (partial), with options.** A request that returns a string leaves in it the neutral characters of
the text, in their order, also between Semitic scripts and romanisation standards and with options.
Missing: the scripts of `loseSrc` and `loseTgt` and the target IPA, Semitic texts in a script with a table of
letters, texts of such a script in a Semitic one that writes double letters once, and the two options of
`movingPost`: see `C07_violated` and `C07_options_violated`. -/
theorem C07_neutral_kept_with_options_partial (E : Env) (hE : E.TextOps) (S T : PyStr)
    (hS : S ∈ sourceScripts ++ [u! "Itrans"] ++ dualScripts ++ semiticScripts ++ standardsRead)
    (hT : T ∈ targetScripts ++ [u! "IPA"] ++ semiticScripts ++ standardsWritten)
    (hloseS : S ∉ loseSrc) (hloseT : T ∉ loseTgt ++ [u! "IPA"])
    (hsem : S ∈ semiticScripts ++ dualScripts ++ standardsRead → T ∈ semiticScripts ++ dualScripts ++ standardsWritten)
    (hdbl : S ∉ semiticScripts ++ dualScripts → T ∈ semiticScripts → T ∈ doublingSemitic)
    (post pre : List PyStr)
    (hpre : ∀ o ∈ failingPre ++ externalPre, ¬ Requested E pre o)
    (hpost : ∀ o ∈ failingPost ++ externalPost ++ movingPost, ¬ Requested E post o)
    (hdandas : Requested E post (u! "indicDandas") → S ∈ sourceScripts ++ [u! "Itrans"] ∧ S ∉ dualScripts ∧ T ∉ standardsWritten)
    (hstop : Requested E post (u! "romanFullStop") → T ∈ targetScripts ++ [u! "IPA"] ∧ T ∉ dualScripts ∧ S ∉ standardsRead)
    (text : PyStr) (htext : ∀ c ∈ text, isCompat c = false) (nativize : Bool) (result : PyStr)
    (hr : process E S T text nativize post pre (u! "default") = .ok (some result)) :
    neutralPart result = neutralPart text := by
  have hS' : S ∈ anySrc ∨ S ∈ standardsRead := List.mem_append.1 hS
  have hT' : T ∈ anyTgt ∨ T ∈ standardsWritten := List.mem_append.1 hT
  rw [process_any hE hS' hT'] at hr
  have hs := convert_safe (kp := true) (nat := nativize) (pre := matchOptions E (names preFns) pre)
    (post := matchOptions E (names postFns) post) hS' hT'
    (fun o ho => by
      obtain ⟨h1, h2⟩ := mem_matchOptions.1 ho
      exact ⟨h1, fun h => hpre o (List.mem_append_left _ h) h2, fun h => hpre o (List.mem_append_right _ h) h2⟩)
    (fun o ho => by
      obtain ⟨h1, h2⟩ := mem_matchOptions.1 ho
      exact ⟨h1, fun h => hpost o (List.mem_append_left _ (List.mem_append_left _ h)) h2,
        fun h => hpost o (List.mem_append_left _ (List.mem_append_right _ h)) h2,
        fun _ h => hpost o (List.mem_append_right _ h) h2⟩)
    (fun ho => by
      obtain ⟨h1, h2, h3⟩ := hdandas (mem_matchOptions.1 ho).2
      exact ⟨List.mem_append_left _ h1, h2, hT'.resolve_right h3⟩)
    (fun ho => by
      obtain ⟨h1, h2, h3⟩ := hstop (mem_matchOptions.1 ho).2
      exact ⟨h1, h2, hS'.resolve_right h3⟩)
    (fun _ h => hloseT (List.mem_append_right _ (List.mem_singleton.2 h)))
    (fun _ => hloseS) (fun _ _ => hloseT)
    (fun _ ha h => (List.mem_append.1 (hsem h)).resolve_right fun h => standard_not_any h ha)
    (fun _ => hdbl)
  exact neutral_of_ok hE htext hs hr

/-- No option of `l` is requested. -/
theorem not_requested {l req : List PyStr} (h : l.all (fun o => req.all fun q => !(strEq (asciiLower q) (asciiLower o))) = true) :
    ∀ o ∈ l, ¬ Requested sampleEnv req o := by
  rintro o ho ⟨q, hq, e⟩
  have := List.all_eq_true.1 (List.all_eq_true.1 h o ho) q hq
  simp only [Bool.not_eq_true', strEq_false] at this
  exact this e

/-- From Syriac to Hebrew with an option. -/
example (text result : PyStr) (htext : ∀ c ∈ text, isCompat c = false)
    (hr : process sampleEnv (u! "Syre") (u! "Hebr") text true us!["removediacritics"] [] (u! "default") = .ok (some result)) :
    neutralPart result = neutralPart text := by
  refine C07_neutral_kept_with_options_partial _ sampleEnv_textOps _ _ (strMem_iff.1 (by decide +kernel)) (strMem_iff.1 (by decide +kernel))
    (strMem_false.1 (by decide +kernel)) (strMem_false.1 (by decide +kernel)) (fun _ => strMem_iff.1 (by decide +kernel))
    (fun _ _ => strMem_iff.1 (by decide +kernel)) _ _ (not_requested (by decide +kernel)) (not_requested (by decide +kernel))
    (fun h => absurd h ?_) (fun h => absurd h ?_) text htext true result hr
  · exact not_requested (l := us!["indicDandas"]) (by decide +kernel) _ (List.mem_singleton.2 rfl)
  · exact not_requested (l := us!["romanFullStop"]) (by decide +kernel) _ (List.mem_singleton.2 rfl)

/-- **C07 fails** outside the scripts and options of `C07_neutral_kept_with_options_partial`: the doubling
mark of a Semitic or Urdu text copies a Chinese character in an Indic output, and the breath of the IPA output
copies one, a Semitic output drops one of two, and so does an option; another
option replaces every text by a fixed word. -/
theorem C07_options_violated :
    process sampleEnv (u! "Latn") (u! "Devanagari") (u! "中꞉") false [] [] (u! "default") = .ok (some (u! "中्中"))
    ∧ process sampleEnv (u! "Urdu") (u! "Devanagari") (u! "中ّ") false [] [] (u! "default") = .ok (some (u! "中्中"))
    ∧ process sampleEnv (u! "Devanagari") (u! "IPA") (u! "中ः") false [] [] (u! "default") = .ok (some (u! "中h中̆"))
    ∧ process sampleEnv (u! "Devanagari") (u! "Syre") (u! "中्中") false [] [] (u! "default") = .ok (some (u! "中"))
    ∧ process sampleEnv (u! "Devanagari") (u! "Takri") (u! "中्中") false us!["TakriRemoveGemination"] [] (u! "default")
      = .ok (some (u! "中"))
    ∧ process sampleEnv (u! "Devanagari") (u! "TaiTham") (u! "中") false us!["TaiThamMoveNnga"] [] (u! "default")
      = .ok (some (u! "Vinodh")) := by
  decide +kernel

/-- **C48.** Every one of the options of `failingPre` and `failingPost` makes every request raise,
whatever the text, the scripts and the other options: C47 excludes no more than it must.  (Pre-options
are ignored for a source to be detected.) -/
theorem C48_failing_options (E : Env) (S T : PyStr) (hT : T ≠ [] ∧ T ≠ u! "Ignore") (post pre : List PyStr)
    (h : (S ≠ u! "autodetect" ∧ ∃ o ∈ failingPre, Requested E pre o) ∨ ∃ o ∈ failingPost, Requested E post o)
    (text : PyStr) (nativize : Bool) :
    ∃ e, process E S T text nativize post pre (u! "default") = .error e := by
  have key : ∀ (S : PyStr) (pre : List PyStr), ((∃ o ∈ failingPre, Requested E pre o) ∨ ∃ o ∈ failingPost, Requested E post o) →
      ∃ e, convertDefault E S (resolveName E T) text nativize post pre = .error e := by
    intro S pre h
    refine Prog.raises_run E _ (convert_raises (resolve_real E hT) ?_) text
    rcases h with ⟨o, ho, hr⟩ | ⟨o, ho, hr⟩
    · have := List.all_eq_true.1 failingPre_all o ho
      rw [Bool.and_eq_true, strMem_iff] at this
      exact Or.inl ⟨o, ho, mem_matchOptions.2 ⟨this.1, hr⟩⟩
    · have := List.all_eq_true.1 failingPost_all o ho
      simp only [Bool.and_eq_true, strMem_iff] at this
      exact Or.inr ⟨o, ho, mem_matchOptions.2 ⟨this.1.1, hr⟩⟩
  have hd : ∃ e, processDefault E S T text nativize post pre = .error e := by
    unfold processDefault
    split
    · rename_i ha
      rw [strEq_iff] at ha
      have hp := h.resolve_left fun h => h.1 ha
      split
      · exact ⟨_, rfl⟩
      · exact key _ _ (Or.inr hp)
    · exact key _ _ (h.imp (fun h => h.2) id)
  obtain ⟨e, he⟩ := hd
  refine ⟨e, ?_⟩
  show (processDefault E S T text nativize post pre).map some = _
  rw [he]
  rfl

/-- `RemoveSchwa` needs a second argument. -/
example (text : PyStr) : ∃ e, process sampleEnv (u! "Tamil") (u! "ISO") text true us!["anusvaraasn", "removeschwa"] []
    (u! "default") = .error e := by
  refine C48_failing_options _ _ _ (by decide) _ _ (Or.inr ⟨u! "RemoveSchwa", strMem_iff.1 (by decide +kernel),
    u! "removeschwa", strMem_iff.1 (by decide +kernel), ?_⟩) _ _
  show asciiLower _ = asciiLower _
  decide +kernel

/-- The romanisation standard PersianDMG can be written (C47) but not read: every request with it as
source raises. -/
theorem C48_PersianDMG_unreadable (E : Env) (hE : E.TextOps) (T : PyStr) (hT : T ≠ [] ∧ T ≠ u! "Ignore") (post pre : List PyStr)
    (text : PyStr) (nativize : Bool) :
    ∃ e, process E (u! "PersianDMG") T text nativize post pre (u! "default") = .error e := by
  have ha : strEq (u! "PersianDMG") (u! "autodetect") = false := by decide +kernel
  have hr : resolveName E (u! "PersianDMG") = u! "PersianDMG" :=
    resolve_any hE (Or.inr (Or.inr (strMem_iff.1 (by decide +kernel))))
  obtain ⟨e, he⟩ := Prog.raises_run E _ (dmg_raises 3 ⟨u! "PersianDMG", resolveName E T, nativize,
    matchOptions E (names preFns) pre, matchOptions E (names postFns) post⟩ rfl (resolve_real E hT) fun _ => .done) text
  refine ⟨e, ?_⟩
  show (processDefault E _ T text nativize post pre).map some = _
  simp only [processDefault, ha, hr]
  show Except.map some (convertDefault E _ _ text nativize post pre) = _
  unfold convertDefault
  exact congrArg (Except.map some) he

end Verif
