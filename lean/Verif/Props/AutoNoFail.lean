import Verif.Props.NoFail
import Verif.Props.Detect
import Verif.Props.Unknown
import Verif.Lib.NoFailLoc

/-!
# C55: automatic detection leads to a conversion that does not crash
-/

namespace Verif

/-- Scripts for which Japanese libraries are called. -/
def kanaScripts : List PyStr := us!["Hiragana", "Katakana"]

theorem listed_covered : (GM.IndicScripts ++ GM.LatinScripts).all (fun S => strMem S (anySrc ++ standardsRead ++ us!["RomanLoC"])) = true := by
  decide +kernel

theorem answers_covered : (renamedScripts.map Prod.snd ++ us!["Assamese", "Bengali", "LaoPali", "Lao", "Mon", "Burmese", "KhamtiShan",
    "TaiLaing", "Shan", "Syrj", "Syrn", "Syre", "Shahmukhi", "Urdu", "Arab-Fa", "Arab", "Titus", "Latn", "BurmeseRomanLoC", "ISO",
    "IAST", "Itrans", "HK"]).all (fun S => strMem S (anySrc ++ standardsRead ++ us!["RomanLoC"])) = true := by decide +kernel

theorem autoFold_mem (f : PyStr → PyStr → Bool) : ∀ (l : List PyStr) (b : Option PyStr) {w : PyStr},
    l.foldl (fun best w => match best with
      | none => some w
      | some b => match f w b with
        | true => some b
        | false => some w) b = some w → w ∈ l ∨ b = some w
  | [], b, w, h => Or.inr h
  | x :: l, b, w, h => by
    rw [List.foldl_cons] at h
    rcases autoFold_mem f l _ h with h | h
    · exact Or.inl (List.mem_cons_of_mem _ h)
    · cases b with
      | none =>
        cases h
        exact Or.inl (List.mem_cons_self ..)
      | some b =>
        simp only at h
        cases hf : f x b with
        | true => rw [hf] at h; exact Or.inr h
        | false =>
          rw [hf] at h
          cases h
          exact Or.inl (List.mem_cons_self ..)

theorem mem_distinct_of {l : List PyStr} {w : PyStr} (h : w ∈ distinct l) : w ∈ l := by
  have key : ∀ (l acc : List PyStr), w ∈ l.foldl addKey acc → w ∈ acc ∨ w ∈ l := by
    intro l
    induction l with
    | nil => intro acc h; exact Or.inl h
    | cons x l ih =>
      intro acc h
      rw [List.foldl_cons] at h
      rcases ih _ h with h | h
      · unfold addKey at h
        split at h
        · exact Or.inl h
        · rcases List.mem_append.1 h with h | h
          · exact Or.inl h
          · exact Or.inr (List.mem_cons.2 (Or.inl (List.mem_singleton.1 h)))
      · exact Or.inr (List.mem_cons_of_mem _ h)
  rcases key l [] h with h | h
  · cases h
  · exact h

theorem autoScript_mem {E : Env} {text S : PyStr} (h : autoScript E text = .ok S) :
    S = u! "Zyyy" ∨ ∃ c ∈ text, S = E.charScript c := by
  unfold autoScript at h
  simp only at h
  split at h
  · cases h
  · cases h; exact Or.inl rfl
  · rename_i w hw hm
    cases h
    rcases autoFold_mem (fun w b => Nat.ble (countStr w _) (countStr b _)) _ none hm with h | h
    · have := mem_distinct_of h
      obtain ⟨c, hc, e⟩ := List.mem_map.1 this
      exact Or.inr ⟨c, hc, e.symm⟩
    · cases h

/-- **C55**, what is detected: a script of the library, or what the Unicode database says of a character of
the text. -/
theorem C55_detected_script (E : Env) (text S : PyStr) (h : autoDetect E text = .ok S) :
    S ∈ sourceScripts ++ [u! "Itrans"] ++ dualScripts ++ semiticScripts ++ standardsRead ++ [u! "RomanLoC"] ++ kanaScripts
    ∨ S = u! "Zyyy" ∨ ∃ c ∈ text, S = E.charScript c := by
  have ans : ∀ {R : PyStr}, R ∈ renamedScripts.map Prod.snd ++ us!["Assamese", "Bengali", "LaoPali", "Lao", "Mon", "Burmese",
      "KhamtiShan", "TaiLaing", "Shan", "Syrj", "Syrn", "Syre", "Shahmukhi", "Urdu", "Arab-Fa", "Arab", "Titus", "Latn",
      "BurmeseRomanLoC", "ISO", "IAST", "Itrans", "HK"] → Except.ok (ε := Exn) R = .ok S →
      S ∈ sourceScripts ++ [u! "Itrans"] ++ dualScripts ++ semiticScripts ++ standardsRead ++ [u! "RomanLoC"] ++ kanaScripts := by
    intro R hR e
    cases e
    exact List.mem_append_left _ (strMem_iff.1 (List.all_eq_true.1 answers_covered _ hR))
  unfold autoDetect at h
  split at h
  · cases h
  · split at h
    · cases h
    · rename_i script _
      unfold refineScript at h
      split at h
      · exact Or.inl (ans (by split <;> simp) h)
      split at h
      · exact Or.inl (ans (by split <;> simp) h)
      split at h
      · unfold detectMyanmar at h
        simp only at h
        split at h
        · cases h
        · refine Or.inl (ans ?_ h)
          unfold myanmarPick
          repeat' split
          all_goals simp
      split at h
      · rename_i r hr
        refine Or.inl (ans (List.mem_append_left _ (List.mem_map.2 ⟨_, dictGet?_some hr, rfl⟩)) h)
      split at h
      · refine Or.inl (ans ?_ h)
        unfold detectSyriac
        repeat' split
        all_goals simp
      split at h
      · refine Or.inl (ans ?_ h)
        unfold detectArabic
        repeat' split
        all_goals simp
      split at h
      · refine Or.inl (ans ?_ h)
        unfold detectLatin
        repeat' split
        all_goals simp
      split at h
      · rename_i hk
        cases h
        left
        simp only [Bool.or_eq_true] at hk
        rcases hk with (hk | hk) | hk
        · exact List.mem_append_left _ (strMem_iff.1 (List.all_eq_true.1 listed_covered _ (List.mem_append_left _ (strMem_iff.1 hk))))
        · exact List.mem_append_left _ (strMem_iff.1 (List.all_eq_true.1 listed_covered _ (List.mem_append_right _ (strMem_iff.1 hk))))
        · exact List.mem_append_right _ (strMem_iff.1 hk)
      · exact Or.inr (autoScript_mem h)

/-- The options that can be detected. -/
def detectable : List PyStr := us!["ThaiPhonetic", "ThaiSajjhayawithA", "ThaiSajjhayaOrthography", "ThaiOrthography",
  "LaoSajhayaOrthographywithA", "LaoSajhayaOrthography", "LaoTranscription", "UrduShortNotShown"]

theorem mem_detectable {text S o : PyStr} (h : o ∈ detectPreoptions text S) : o ∈ detectable := by
  revert h
  unfold detectPreoptions detectable
  simp only
  repeat' split
  all_goals intro h; simp only [List.mem_singleton, List.not_mem_nil] at h
  all_goals subst h; simp

theorem detectable_fine : (failingPre ++ externalPre).all (fun o => detectable.all fun d =>
    o.all (fun c => Nat.blt c 128) && d.all (fun c => Nat.blt c 128) && !(strEq (asciiLower o) (asciiLower d))) = true := by
  decide +kernel

theorem detected_not_failing {E : Env} (hE : E.TextOps) {text S o : PyStr} (ho : o ∈ failingPre ++ externalPre) :
    ¬ Requested E (detectPreoptions text S) o := by
  rintro ⟨d, hd, e⟩
  have := List.all_eq_true.1 (List.all_eq_true.1 detectable_fine o ho) d (mem_detectable hd)
  simp only [Bool.and_eq_true, Bool.not_eq_true', strEq_false, List.all_eq_true, Nat.blt_eq] at this
  rw [hE.lower_ascii _ this.1.1, hE.lower_ascii _ this.1.2] at e
  exact this.2 e.symm

/-- **C55.** If a covered script is detected, `process` with automatic detection returns a string, whatever
options for the output are asked for, but for those of C47. -/
theorem C55_autodetect_no_exception (E : Env) (hE : E.TextOps) (S T text : PyStr) (hdet : autoDetect E text = .ok S)
    (hS : S ∈ sourceScripts ++ [u! "Itrans"] ++ dualScripts ++ semiticScripts ++ standardsRead)
    (hT : T ∈ targetScripts ++ [u! "IPA"] ++ semiticScripts ++ standardsWritten)
    (post pre : List PyStr)
    (hpost : ∀ o ∈ failingPost ++ externalPost, ¬ Requested E post o)
    (hdandas : Requested E post (u! "indicDandas") → S ∈ sourceScripts ++ [u! "Itrans"] ∧ S ∉ dualScripts ∧ T ∉ standardsWritten)
    (hstop : Requested E post (u! "romanFullStop") → T ∈ targetScripts ++ [u! "IPA"] ∧ T ∉ dualScripts ∧ S ∉ standardsRead)
    (hipa : S = u! "Tamil" → T ≠ u! "IPA")
    (nativize : Bool) :
    ∃ result, process E (u! "autodetect") T text nativize post pre (u! "default") = .ok (some result) := by
  have hS' : S ∈ anySrc ∨ S ∈ standardsRead := List.mem_append.1 hS
  obtain ⟨r, hr⟩ := C47_no_exception_with_options E hE S T hS hT post (detectPreoptions text S)
    (fun o ho => detected_not_failing hE ho) hpost hdandas hstop hipa text nativize
  refine ⟨r, ?_⟩
  rw [← hr, process_any hE hS' (List.mem_append.1 hT)]
  show (processDefault E (u! "autodetect") T text nativize post pre).map some = _
  have ha : strEq (u! "autodetect") (u! "autodetect") = true := strEq_refl _
  simp only [processDefault, ha, hdet, resolve_any hE (Or.inr (List.mem_append.1 hT)), convertDefault]

/-- **C55**, scripts the library does not know ("Zyyy" for digits and punctuation, "Hani" for Chinese): the text
is returned as it is, under the conditions of C36. -/
theorem C55_unknown_script_unchanged (E : Env) (hE : E.TextOps) (S T text : PyStr) (hdet : autoDetect E text = .ok S)
    (hS : Unknown E S) (hT : T ∈ directTargets) (hs : Settled text) (nativize : Bool) (pre : List PyStr)
    (hn : nativize = true → T ∉ broadTargets ∧ NoRemovable text ∧ AwayFrom T text) :
    process E (u! "autodetect") T text nativize [] pre (u! "default") = .ok (some text) := by
  have ha : strEq (u! "autodetect") (u! "autodetect") = true := strEq_refl _
  have hne : S ≠ u! "autodetect" := fun e => hS.name (e ▸ strMem_iff.1 (show strMem (u! "autodetect") namesInUse = true by decide +kernel))
  have hp : detectPreoptions text S = [] := by
    refine (C23_detected_preoptions text S).2.2 fun h => hS.name ?_
    have := List.all_eq_true.1 (show us!["Thai", "Lao", "LaoPali", "Urdu"].all (fun x => strMem x namesInUse) = true by decide +kernel) S h
    exact strMem_iff.1 this
  have := C36_unknown_source_partial E hE S T hS hT text hs nativize hn
  rw [process_names hS.resolve (direct_resolve hE hT) hne] at this
  rw [← this]
  show (processDefault E (u! "autodetect") T text nativize [] pre).map some = _
  simp only [processDefault, ha, hdet, direct_resolve hE hT, convertDefault, hp, matchOptions, List.flatMap_nil]

theorem sample_detects : autoDetect sampleEnv (u! "रामः and") = .ok (u! "Devanagari") := by decide +kernel

/-- A Devanagari text to the ISO 259 romanisation of Hebrew. -/
example : ∃ r, process sampleEnv (u! "autodetect") (u! "ISO259") (u! "रामः and") true us!["removediacritics"] [] (u! "default")
    = .ok (some r) := by
  refine C55_autodetect_no_exception _ sampleEnv_textOps _ _ _ sample_detects (strMem_iff.1 (by decide +kernel))
    (strMem_iff.1 (by decide +kernel)) _ _ (not_requested (by decide +kernel)) (fun h => absurd h ?_) (fun h => absurd h ?_)
    (by decide) _
  · exact not_requested (l := us!["indicDandas"]) (by decide +kernel) _ (List.mem_singleton.2 rfl)
  · exact not_requested (l := us!["romanFullStop"]) (by decide +kernel) _ (List.mem_singleton.2 rfl)

/-- The sample environment with names of digits. -/
def digitEnv : Env := { sampleEnv with charName := fun c => match isDig c with
  | true => some (u! "DIGIT ONE")
  | false => sampleName c }

theorem digitEnv_textOps : digitEnv.TextOps := { sampleEnv_textOps with }

theorem digitEnv_detects : autoDetect digitEnv (u! "1960, ABC") = .ok (u! "Zyyy") := by decide +kernel

/-- A text of digits to Tamil. -/
example : process digitEnv (u! "autodetect") (u! "Tamil") (u! "1960, ABC") false [] [] (u! "default") = .ok (some (u! "1960, ABC")) :=
  C55_unknown_script_unchanged _ digitEnv_textOps _ _ _ digitEnv_detects
    (have h : Unknown sampleEnv (u! "Zyyy") := isUnknown_sound (by decide +kernel)
     ⟨h.name, h.case, h.part⟩) (strMem_iff.1 (by decide +kernel))
    (isSettled_sound (by decide +kernel)) false [] (fun h => by cases h)

end Verif
