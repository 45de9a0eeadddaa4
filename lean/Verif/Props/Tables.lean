import Verif.Lib.Tables

/-!
# C18, C19: letter tables and replacement rules
-/

namespace Verif

/-! ## C19: tables -/

/-- C19: every Indic and Roman script (but the composite `RomanLoC`) has a table. -/
theorem C19_tables_exist {S : PyStr} (h : S ∈ GM.IndicScripts ++ GM.LatinScripts) (hr : S ≠ u! "RomanLoC") :
    ∃ t, executeModule S = some t := by
  have := hasTbl_of_mem h hr
  rw [executeModule_eq]
  unfold hasTbl at this
  cases ht : tblOf S with
  | none => rw [ht] at this; cases this
  | some t => exact ⟨t, rfl⟩

/-- C19: whatever was imported before, importing a script's module gives the lists that executing
the module first would have given. -/
theorem C19_history_irrelevant (history : List PyStr) (S : PyStr) :
    (importModule (importAll [] history) S).2 = executeModule S := by
  have inv : ∀ (l : List PyStr) (m : Modules), (∀ p ∈ m, executeModule p.1 = some p.2) →
      ∀ p ∈ importAll m l, executeModule p.1 = some p.2 := by
    intro l
    induction l with
    | nil => exact fun m hm => hm
    | cons s l ih =>
      intro m hm
      refine ih _ ?_
      unfold importModule
      cases hd : dictGet? m s with
      | some t => exact hm
      | none =>
        cases he : executeModule s with
        | none => exact hm
        | some t =>
          intro p hp
          rcases List.mem_cons.1 hp with rfl | hp
          · exact he
          · exact hm p hp
  have hinv := inv history [] (by simp)
  unfold importModule
  cases hd : dictGet? (importAll [] history) S with
  | some t => exact (hinv _ (dictGet?_some hd)).symm
  | none =>
    cases he : executeModule S <;> rfl

/-- C19: in every history, the section of a script has as many letters as the interchange
alphabet's section. -/
theorem C19_sections_aligned (history : List PyStr) {S : PyStr} {t i : Tbl}
    (h : (importModule (importAll [] history) S).2 = some t)
    (hi : (importModule (importAll [] history) GM.Inter).2 = some i) (s : Sec) :
    (t.get s).length = (i.get s).length := by
  rw [C19_history_irrelevant, executeModule_eq] at h hi
  rw [tbl_aligned h, tbl_aligned hi]

/-- A history in which the module has been imported before, twice, among others. -/
example : ∃ t, (importModule (importAll [] us!["Tamil", "Devanagari", "Nonsense", "Tamil"]) (u! "Tamil")).2 = some t := by
  rw [C19_history_irrelevant]
  exact C19_tables_exist (List.mem_append_left _ (by decide +kernel)) (by decide)

/-- C35: after any sequence of imports a call sees the same letters of a script as the first call.
Missing: state inside the libraries. -/
theorem C35_tables_same_after_any_calls_partial (history : List PyStr) (S : PyStr) (s : Sec) :
    (importModule (importAll [] history) S).2.map (fun t => t.get s) = (importModule [] S).2.map (fun t => t.get s) := by
  rw [C19_history_irrelevant]
  exact congrArg _ (C19_history_irrelevant [] S).symm

/-- The sections are not empty: 53 consonants. -/
example : (Ext.Inter.get .ConsonantMap).length = 53 := by decide +kernel

/-! ## C18: rules -/

/-- Rules in the order of decreasing length never shadow one another: if the letter of a rule
contains the letter of another one, its rule is tried first. -/
theorem C18_longest_first_no_shadow {L : List (PyStr × PyStr)} (h : LongestFirst L) : NoShadow L :=
  h.imp fun hl hi => hi.eq_of_length (Nat.le_antisymm hi.length_le hl)

/-- C18, Indic to Indic: the letters are replaced by one list of rules, one for every letter of every
section, longest letter first. -/
theorem C18_indic_to_indic {S T : PyStr} (hS : S ∈ GM.IndicScripts) (hT : T ∈ GM.IndicScripts) :
    ∃ before after L, convertScript S T = (do before; replaceAll L; after) ∧
      LongestFirst L ∧ L.Perm (rules letterSecs plain plain S T) := by
  have tS := hasTbl_of_mem (List.mem_append_left _ hS) (romanLoC_notIndic hS)
  have tT := hasTbl_of_mem (List.mem_append_left _ hT) (romanLoC_notIndic hT)
  refine ⟨(do
      prefixII S
      indicOm (lettersOf S GM.Signs) (headSec .OmMap S) (headSec .OmMap T)), endII T, pairsOf asIs asIs S T, ?_, pairsOf_sorted _ _ _ _, pairsOf_rules tS tT decOk_asIs decOk_asIs⟩
  · rw [convertScript_pieces tS tT (hasHead_om tS) (hasHead_om tT) (kindOf_mem_II hS hT)]
    simp only [scriptPieces, midII, bind_assoc]

/-- C18, Roman to Indic: two lists of rules, through the interchange alphabet. -/
theorem C18_latin_to_indic {S T : PyStr} (hS : S ∈ GM.LatinScripts) (hr : S ≠ u! "RomanLoC") (hT : T ∈ GM.IndicScripts) :
    ∃ before between after L₁ L₂, convertScript S T = (do before; replaceAll L₁; between; replaceAll L₂; after) ∧
      LongestFirst L₁ ∧ L₁.Perm (rules romanSecs plain plain S GM.Inter) ∧
      LongestFirst L₂ ∧ L₂.Perm (rules letterSecs markSigns plain GM.Inter T) := by
  have tS := hasTbl_of_mem (List.mem_append_right _ hS) hr
  have tT := hasTbl_of_mem (List.mem_append_left _ hT) (romanLoC_notIndic hT)
  refine ⟨(do
      preLI S
      omSubs (omPunc (lettersOf S GM.Signs)) (headSec .OmMap S) (headSec .OmMap T)
      omSubs (u! "(\\s)") (headSec .OmMap S) (headSec .OmMap T)), midInter, (do postLI T; endII T), interPairs S, pairsOf depVowels asIs GM.Inter T, ?_,
    sortByKeyDesc_sorted _ _, interPairs_rules tS, pairsOf_sorted _ _ _ _,
    pairsOf_rules hasTbl_inter tT decOk_depVowels decOk_asIs⟩
  · rw [convertScript_pieces tS tT (hasHead_om tS) (hasHead_om tT) (kindOf_mem_LI hS hT)]
    simp only [scriptPieces, midLI, bind_assoc]

/-- C18, Indic to Roman.  (`RomanSemitic`, the internal bridge to the Semitic scripts, is a source
whose aspirate letters are deliberately treated after the others.) -/
theorem C18_indic_to_latin {S T : PyStr} (hS : S ∈ GM.IndicScripts) (hR : S ≠ u! "RomanSemitic")
    (hT : T ∈ GM.LatinScripts) (hr : T ≠ u! "RomanLoC") :
    ∃ before after L, convertScript S T = (do before; replaceAll L; after) ∧
      LongestFirst L ∧ L.Perm (rules letterSecs plain markSchwa S T) := by
  have tS := hasTbl_of_mem (List.mem_append_left _ hS) (romanLoC_notIndic hS)
  have tT := hasTbl_of_mem (List.mem_append_right _ hT) hr
  refine ⟨(do
      prefixII S
      replace (headSec .OmMap S) (headSec .OmMap T)), (do headIL T; endLL S T), pairsOf asIs schwaDep S T, ?_, pairsOf_sorted _ _ _ _,
    pairsOf_rules tS tT decOk_asIs decOk_schwaDep⟩
  · rw [convertScript_pieces tS tT (hasHead_om tS) (hasHead_om tT) (kindOf_mem_IL hS hT)]
    have e : pyEq S (u! "RomanSemitic") = false := by
      cases h : pyEq S (u! "RomanSemitic") with
      | false => rfl
      | true => exact absurd (strEq_iff.1 h) hR
    simp only [scriptPieces, midIL, lettersIL, e, bind_assoc]
    rfl

/-- C18, Roman to Roman: the first list longest first, the second one in table order, where no letter
of the interchange alphabet is a part of a later one. -/
theorem C18_latin_to_latin {S T : PyStr} (hS : S ∈ GM.LatinScripts) (hr : S ≠ u! "RomanLoC")
    (hT : T ∈ GM.LatinScripts) (hr' : T ≠ u! "RomanLoC") :
    ∃ before after L₁ L₂, convertScript S T = (do before; replaceAll L₁; replaceAll L₂; after) ∧
      LongestFirst L₁ ∧ L₁.Perm (rules romanSecs plain plain S GM.Inter) ∧
      NoShadow L₂ ∧ L₂.Perm (rules romanSecs plain plain GM.Inter T) := by
  have tS := hasTbl_of_mem (List.mem_append_right _ hS) hr
  have tT := hasTbl_of_mem (List.mem_append_right _ hT) hr'
  refine ⟨tryFixReverse S, endLL S T, interPairs S, pyZip (lettersOf GM.Inter interSecs) (lettersOf T interSecs), ?_,
    sortByKeyDesc_sorted _ _, interPairs_rules tS, ?_, ?_⟩
  · rw [convertScript_pieces tS tT (hasHead_om tS) (hasHead_om tT) (kindOf_mem_LL hS hT)]
    simp only [scriptPieces, midLL, bind_assoc]
  · have h := interFree_sound inter_free
    have key : ∀ (a b : List PyStr), a.Pairwise (fun x y => x <:+: y → x = y) → NoShadow (pyZip a b) := by
      intro a
      induction a with
      | nil => intro b _; exact List.Pairwise.nil
      | cons x a ih =>
        intro b hp
        cases b with
        | nil => exact List.Pairwise.nil
        | cons y b =>
          refine List.Pairwise.cons (fun q hq hi => ?_) (ih b hp.tail)
          exact List.rel_of_pairwise_cons hp (List.of_mem_zip (show (q.1, q.2) ∈ a.zip b from hq)).1 hi
    exact key _ _ h
  · unfold pyZip
    rw [zip_lettersOf hasTbl_inter tT, rules_plain]
    exact romanSecs_perm.flatMap_right _

/-- Both scripts are Indic, and there is a letter which begins another one. -/
example : (u! "Tamil") ∈ GM.IndicScripts ∧ (u! "க") ∈ modAttr (u! "Tamil") .ConsonantMap ∧
    (u! "க²") ∈ modAttr (u! "Tamil") .ConsonantMap := by decide +kernel

example : (u! "HK") ∈ GM.LatinScripts ∧ (u! "IAST") ∈ GM.LatinScripts := by decide +kernel

end Verif
