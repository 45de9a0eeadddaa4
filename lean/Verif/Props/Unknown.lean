import Verif.Lib.UnknownRun
import Verif.Props.Plain

/-!
# C36: scripts the library does not know

The warning says "The text will not be transliterated".
-/

namespace Verif

/-- **C36, unknown source.**  From a name the library does not know to any supported script but
`RomanLoC`, every text is returned as it is, if it has none of the spellings the library always
normalises; with nativisation, if moreover it has no removable diacritic and no letter of the target.

Missing: `RomanLoC` and the Semitic romanisation standards as targets, for which it is false
(`C36_violated`), and with nativisation the targets `broadTargets`. -/
theorem C36_unknown_source_partial (E : Env) (hE : E.TextOps) (S T : PyStr) (hS : Unknown E S) (hT : T ∈ directTargets)
    (text : PyStr) (hs : Settled text) (nativize : Bool)
    (hn : nativize = true → T ∉ broadTargets ∧ NoRemovable text ∧ AwayFrom T text) :
    process E S T text nativize [] [] (u! "default") = .ok (some text) :=
  unknown_source_run hE hS hT hs hn

/-- **C36, unknown target.**  From an Indic or Roman script but those in `loudSources` to a name the
library does not know, every settled text is returned as it is. -/
theorem C36_unknown_target_partial (E : Env) (hE : E.TextOps) (S T : PyStr) (hS : S ∈ quietSources) (hT : Unknown E T)
    (text : PyStr) (hs : Settled text) (nativize : Bool) (hn : nativize = true → NoRemovable text) :
    process E S T text nativize [] [] (u! "default") = .ok (some text) :=
  unknown_target_run hE hS hT hs hn

/-- **C36, both unknown.** -/
theorem C36_both_unknown (E : Env) (hE : E.TextOps) (S T : PyStr) (hS : Unknown E S) (hT : Unknown E T)
    (text : PyStr) (hs : Settled text) (nativize : Bool) (hn : nativize = true → NoRemovable text) :
    process E S T text nativize [] [] (u! "default") = .ok (some text) :=
  unknown_both_run hE hS hT hs hn

/-! ### Examples -/

/-- Checked form of `Unknown` for `sampleEnv`. -/
def isUnknown (n : PyStr) : Bool :=
  !(strMem n namesInUse) && (GM.IndicScripts ++ GM.LatinScripts).all (fun k => !(strEq (asciiLower n) (asciiLower k)))
    && nameParts.all fun w => !(isInfix w n)

theorem isUnknown_sound {n : PyStr} (h : isUnknown n = true) : Unknown sampleEnv n := by
  simp only [isUnknown, Bool.and_eq_true, Bool.not_eq_true', List.all_eq_true] at h
  obtain ⟨⟨h1, h2⟩, h3⟩ := h
  refine ⟨strMem_false.1 h1, fun k hk => strEq_false.1 (h2 k hk), fun w hw hi => ?_⟩
  have := h3 w hw
  rw [isInfix_iff.2 hi] at this
  cases this

/-- Checked form of `Settled`. -/
def isSettled (s : PyStr) : Bool :=
  (svaraWords ++ variantWords ++ markerWords).all (fun w => !(isInfix w s)) && s.all fun c => Nat.blt c 0xEE01 || Nat.blt 0xEE7F c

theorem isSettled_sound {s : PyStr} (h : isSettled s = true) : Settled s := by
  simp only [isSettled, Bool.and_eq_true, Bool.not_eq_true', List.all_eq_true, Bool.or_eq_true, Nat.blt_eq] at h
  refine ⟨fun w hw hi => ?_, h.2⟩
  have := h.1 w hw
  rw [isInfix_iff.2 hi] at this
  cases this

/-- Marathi text from "Marathi" (a language, not a script) to Telugu is returned as it is. -/
example : process sampleEnv (u! "Marathi") (u! "Telugu") (u! "महाराष्ट्र, 1960") true [] [] (u! "default")
    = .ok (some (u! "महाराष्ट्र, 1960")) :=
  C36_unknown_source_partial sampleEnv sampleEnv_textOps _ _ (isUnknown_sound (by decide +kernel)) (strMem_iff.1 (by decide +kernel)) _
    (isSettled_sound (by decide +kernel)) true fun _ =>
    ⟨fun h => by rw [← strMem_iff] at h; revert h; decide +kernel,
     fun w hw hi => by rw [← isInfix_iff] at hi; revert hi; revert w; decide +kernel,
     fun x hx c hc hm => by
      have h : ((letterList (u! "Telugu")).all fun x => x.all fun c => !(natMem c (u! "महाराष्ट्र, 1960"))) = true := by decide +kernel
      have := List.all_eq_true.1 (List.all_eq_true.1 h x hx) c hc
      rw [natMem_iff.2 hm] at this
      cases this⟩

/-- The same from Devanagari to "Elvish". -/
example : process sampleEnv (u! "Devanagari") (u! "Elvish") (u! "महाराष्ट्र, 1960") true [] [] (u! "default")
    = .ok (some (u! "महाराष्ट्र, 1960")) :=
  C36_unknown_target_partial sampleEnv sampleEnv_textOps _ _ (strMem_iff.1 (by decide +kernel)) (isUnknown_sound (by decide +kernel)) _
    (isSettled_sound (by decide +kernel)) true
    fun _ w hw hi => by rw [← isInfix_iff] at hi; revert hi; revert w; decide +kernel

/-- Both unknown, with text of any length. -/
example (n : Nat) (nativize : Bool) : process sampleEnv (u! "Marathi") (u! "Elvish") (List.replicate n 0x915) nativize [] [] (u! "default")
    = .ok (some (List.replicate n 0x915)) := by
  have key : ∀ w : PyStr, (w.all fun c => Nat.beq c 0x915) = false → ¬ w <:+: List.replicate n 0x915 := by
    intro w hw hi
    have : (w.all fun c => Nat.beq c 0x915) = true := by
      rw [List.all_eq_true]
      intro c hc
      rw [Nat.beq_eq]
      exact (List.mem_replicate.1 (hi.subset hc)).2
    rw [this] at hw
    cases hw
  refine C36_both_unknown sampleEnv sampleEnv_textOps _ _ (isUnknown_sound (by decide +kernel)) (isUnknown_sound (by decide +kernel)) _
    ⟨fun w hw => key w ?_, fun c hc => ?_⟩ nativize fun _ w hw => key w ?_
  · revert w; decide +kernel
  · rw [(List.mem_replicate.1 hc).2]; exact .inl (by decide)
  · revert w; decide +kernel

/-! ### Where the promise is broken -/

/-- **C36 is false in general.**
* Arabic text "from Elvish" to ISO 233 is transliterated: the library goes through the Arabic script.
* A name with `Arab` in it is treated as Arabic.
* A Vedic accent is rewritten whatever the scripts are. -/
theorem C36_violated :
    Unknown sampleEnv (u! "Elvish") ∧
    process sampleEnv (u! "Elvish") (u! "ISO233") (u! "بت") false [] [] (u! "default") = .ok (some (u! "bt")) ∧
    process sampleEnv (u! "Arabish") (u! "Elvish") (u! "يَ") false [] [] (u! "default") ≠ .ok (some (u! "يَ")) ∧
    process sampleEnv (u! "Elvish") (u! "Dwarvish") [0x61, 0x30D] false [] [] (u! "default") = .ok (some (u! "a\\'")) := by
  refine ⟨isUnknown_sound (by decide +kernel), by decide +kernel, by decide +kernel, by decide +kernel⟩

end Verif
