import Verif.Spec.Tables
import Verif.Lib.ImportCheck
import Verif.Lib.PlainSplit

/-!
# Lemmas on letter tables and replacement rules
-/

namespace Verif

theorem inRegistry_tbl : (GM.IndicScripts ++ GM.LatinScripts).all (fun S => strEq S (u! "RomanLoC") || hasTbl S) = true := by
  decide +kernel

theorem hasTbl_of_mem {S : PyStr} (h : S ∈ GM.IndicScripts ++ GM.LatinScripts) (hr : S ≠ u! "RomanLoC") :
    hasTbl S = true := by
  have := List.all_eq_true.1 inRegistry_tbl S h
  simp only [Bool.or_eq_true, strEq_iff] at this
  exact this.resolve_left hr

theorem tbl_aligned {S : PyStr} {t : Tbl} (h : tblOf S = some t) (s : Sec) :
    (t.get s).length = (Ext.Inter.get s).length :=
  (importedOk_sound (List.all_eq_true.1 imported_all _ (dictGet?_some h))).2 s

theorem modAttr_length {S T : PyStr} (hS : hasTbl S = true) (hT : hasTbl T = true) (s : Sec) :
    (modAttr S s).length = (modAttr T s).length := by
  unfold hasTbl at hS hT
  unfold modAttr
  cases hs : tblOf S with
  | none => rw [hs] at hS; cases hS
  | some a =>
    cases ht : tblOf T with
    | none => rw [ht] at hT; cases hT
    | some b => exact (tbl_aligned hs s).trans (tbl_aligned ht s).symm

theorem hasHead_om {S : PyStr} (hS : hasTbl S = true) : hasHead .OmMap S = true := by
  have h := modAttr_length hS hasTbl_inter .OmMap
  have hi : (modAttr GM.Inter .OmMap).length = 1 := by decide +kernel
  unfold hasHead
  cases hm : modAttr S .OmMap with
  | nil => rw [hm, hi] at h; cases h
  | cons _ _ => rfl

theorem lettersOf_cons (S : PyStr) (s : Sec) (l : List Sec) :
    lettersOf S (s :: l) = modAttr S s ++ lettersOf S l := by
  unfold lettersOf modAttr
  cases tblOf S <;> rfl

theorem zip_lettersOf {S T : PyStr} (hS : hasTbl S = true) (hT : hasTbl T = true) (secs : List Sec) :
    (lettersOf S secs).zip (lettersOf T secs) = secs.flatMap fun s => (modAttr S s).zip (modAttr T s) := by
  induction secs with
  | nil =>
    unfold lettersOf
    cases tblOf S <;> cases tblOf T <;> rfl
  | cons s l ih =>
    rw [lettersOf_cons, lettersOf_cons, List.zip_append (modAttr_length hS hT s), ih, List.flatMap_cons]

/-- The decorations of a group are those of its sections. -/
def DecOk (src : PyStr → List PyStr → List PyStr) (f : Sec → PyStr → PyStr) : Prop :=
  ∀ g ∈ scriptAllGroups, ∃ F, (∀ l, src g.1 l = List.map F l) ∧ ∀ s ∈ g.2, f s = F

theorem flatMap_congr_mem {α β : Type} {l : List α} {f g : α → List β} (h : ∀ a ∈ l, f a = g a) :
    l.flatMap f = l.flatMap g := by
  induction l with
  | nil => rfl
  | cons a l ih =>
    rw [List.flatMap_cons, List.flatMap_cons, h a List.mem_cons_self, ih fun b hb => h b (List.mem_cons_of_mem _ hb)]

theorem pairsOf_rules {src tgt : PyStr → List PyStr → List PyStr} {f g : Sec → PyStr → PyStr} {S T : PyStr}
    (hS : hasTbl S = true) (hT : hasTbl T = true) (hf : DecOk src f) (hg : DecOk tgt g) :
    (pairsOf src tgt S T).Perm (rules letterSecs f g S T) := by
  refine (sortByKeyDesc_perm _ _).trans ?_
  have e : letterSecs = scriptAllGroups.flatMap Prod.snd := rfl
  unfold rules
  rw [e]
  have key : ∀ G : List (PyStr × List Sec), (∀ x ∈ G, x ∈ scriptAllGroups) →
      (G.map fun g => sortPairsDesc (pyZip (src g.1 (lettersOf S g.2)) (tgt g.1 (lettersOf T g.2)))).flatten.Perm
        ((G.flatMap Prod.snd).flatMap fun s => ((modAttr S s).zip (modAttr T s)).map fun p => (f s p.1, g s p.2)) := by
    intro G
    induction G with
    | nil => intro _; exact List.Perm.refl _
    | cons a G ih =>
      intro h
      rw [List.map_cons, List.flatten_cons, List.flatMap_cons, List.flatMap_append]
      refine List.Perm.append ?_ (ih fun x hx => h x (List.mem_cons_of_mem _ hx))
      refine (stableSort_perm _ _).trans (List.Perm.of_eq ?_)
      obtain ⟨F, hF, hF'⟩ := hf a (h a List.mem_cons_self)
      obtain ⟨K, hK, hK'⟩ := hg a (h a List.mem_cons_self)
      unfold pyZip
      rw [hF, hK, List.zip_map, zip_lettersOf hS hT, List.map_flatMap]
      refine flatMap_congr_mem fun s hs => ?_
      rw [hF' s hs, hK' s hs]
      rfl
  exact key _ fun _ h => h

theorem pairsOf_sorted (src tgt : PyStr → List PyStr → List PyStr) (S T : PyStr) :
    LongestFirst (pairsOf src tgt S T) := sortByKeyDesc_sorted _ _

theorem decOk_asIs : DecOk asIs plain := by
  intro g _
  refine ⟨id, fun l => (List.map_id l).symm, fun s _ => rfl⟩

theorem decOk_depVowels : DecOk depVowels markSigns := by
  intro g hg
  have : g ∈ [(u! "Aytham", GM.Aytham), (u! "Signs", GM.Signs), (u! "CombiningSigns", GM.CombiningSigns),
    (u! "VowelSigns", GM.VowelSigns), (u! "Vowels", GM.Vowels), (u! "Consonants", GM.Consonants),
    (u! "Numerals", GM.Numerals)] := hg
  cases hv : pyEq g.1 (u! "VowelSigns") with
  | true =>
    refine ⟨fun x => DepV ++ x, fun l => by unfold depVowels; rw [hv], ?_⟩
    simp only [List.mem_cons, List.not_mem_nil, or_false] at this
    rcases this with rfl | rfl | rfl | rfl | rfl | rfl | rfl <;> first
      | (exact absurd hv (by decide))
      | (intro s hs
         simp only [GM.VowelSigns, List.mem_cons, List.not_mem_nil, or_false] at hs
         rcases hs with rfl | rfl | rfl | rfl | rfl <;> rfl)
  | false =>
    refine ⟨id, fun l => by unfold depVowels; rw [hv]; exact (List.map_id l).symm, ?_⟩
    simp only [List.mem_cons, List.not_mem_nil, or_false] at this
    rcases this with rfl | rfl | rfl | rfl | rfl | rfl | rfl <;> first
      | (exact absurd hv (by decide))
      | (intro s hs
         simp only [GM.Aytham, GM.Signs, GM.CombiningSigns, GM.Vowels, GM.Consonants, GM.Numerals, List.mem_cons,
           List.not_mem_nil, or_false] at hs
         rcases hs with rfl | rfl | rfl | rfl <;> rfl)
      | (intro s hs
         simp only [GM.Aytham, GM.Signs, GM.CombiningSigns, GM.Vowels, GM.Consonants, GM.Numerals, List.mem_cons,
           List.not_mem_nil, or_false] at hs
         rcases hs with rfl | rfl <;> rfl)
      | (intro s hs
         simp only [GM.Aytham, GM.Signs, GM.CombiningSigns, GM.Vowels, GM.Consonants, GM.Numerals, List.mem_cons,
           List.not_mem_nil, or_false] at hs
         subst hs; rfl)

theorem decOk_schwaDep : DecOk schwaDep markSchwa := by
  intro g hg
  have : g ∈ [(u! "Aytham", GM.Aytham), (u! "Signs", GM.Signs), (u! "CombiningSigns", GM.CombiningSigns),
    (u! "VowelSigns", GM.VowelSigns), (u! "Vowels", GM.Vowels), (u! "Consonants", GM.Consonants),
    (u! "Numerals", GM.Numerals)] := hg
  have secs : ∀ s ∈ g.2, markSchwa s = (match pyEq g.1 (u! "Consonants"), pyEq g.1 (u! "Vowels") with
      | true, _ => fun x => x ++ Schwa
      | false, true => fun x => DepV ++ x
      | false, false => id) := by
    simp only [List.mem_cons, List.not_mem_nil, or_false] at this
    rcases this with rfl | rfl | rfl | rfl | rfl | rfl | rfl <;> intro s hs <;>
      simp only [GM.Aytham, GM.Signs, GM.CombiningSigns, GM.Vowels, GM.Consonants, GM.Numerals, GM.VowelSigns,
        List.mem_cons, List.not_mem_nil, or_false] at hs <;> first
      | (rcases hs with rfl | rfl | rfl | rfl | rfl <;> rfl)
      | (rcases hs with rfl | rfl | rfl | rfl <;> rfl)
      | (rcases hs with rfl | rfl <;> rfl)
      | (subst hs; rfl)
  refine ⟨_, ?_, secs⟩
  intro l
  unfold schwaDep
  cases pyEq g.1 (u! "Consonants") <;> cases pyEq g.1 (u! "Vowels") <;> simp

theorem rules_plain {S T : PyStr} (secs : List Sec) :
    rules secs plain plain S T = secs.flatMap fun s => (modAttr S s).zip (modAttr T s) := by
  unfold rules
  refine flatMap_congr_mem fun s _ => ?_
  simp [plain]

theorem romanSecs_perm : interSecs.Perm romanSecs := by decide

theorem interPairs_rules {S : PyStr} (hS : hasTbl S = true) :
    (interPairs S).Perm (rules romanSecs plain plain S GM.Inter) := by
  refine (sortByKeyDesc_perm _ _).trans ?_
  unfold pyZip
  rw [zip_lettersOf hS hasTbl_inter, rules_plain]
  exact romanSecs_perm.flatMap_right _

theorem indic_notLatin_all : GM.IndicScripts.all (fun S => !(strMem S GM.LatinScripts)) = true := by decide +kernel

theorem pyIn_of_mem {S : PyStr} {l : List PyStr} (h : S ∈ l) : pyIn S l = true := strMem_iff.2 h

theorem indic_notLatin {S : PyStr} (h : S ∈ GM.IndicScripts) : pyIn S GM.LatinScripts = false := by
  have := List.all_eq_true.1 indic_notLatin_all S h
  exact (Bool.not_eq_true' _) ▸ this

theorem latin_notIndic {S : PyStr} (h : S ∈ GM.LatinScripts) : pyIn S GM.IndicScripts = false := by
  cases hi : pyIn S GM.IndicScripts with
  | false => rfl
  | true =>
    have := indic_notLatin (strMem_iff.1 hi)
    rw [pyIn_of_mem h] at this
    cases this

theorem kindOf_mem_II {S T : PyStr} (hS : S ∈ GM.IndicScripts) (hT : T ∈ GM.IndicScripts) : kindOf S T = some .II := by
  unfold kindOf
  rw [indic_notLatin hS, pyIn_of_mem hS, pyIn_of_mem hT]

theorem kindOf_mem_LI {S T : PyStr} (hS : S ∈ GM.LatinScripts) (hT : T ∈ GM.IndicScripts) : kindOf S T = some .LI := by
  unfold kindOf
  rw [pyIn_of_mem hS, pyIn_of_mem hT]

theorem kindOf_mem_IL {S T : PyStr} (hS : S ∈ GM.IndicScripts) (hT : T ∈ GM.LatinScripts) : kindOf S T = some .IL := by
  unfold kindOf
  rw [indic_notLatin hS, pyIn_of_mem hS, pyIn_of_mem hT, latin_notIndic hT]

theorem kindOf_mem_LL {S T : PyStr} (hS : S ∈ GM.LatinScripts) (hT : T ∈ GM.LatinScripts) : kindOf S T = some .LL := by
  unfold kindOf
  rw [pyIn_of_mem hS, pyIn_of_mem hT, latin_notIndic hT]

theorem romanLoC_notIndic {S : PyStr} (h : S ∈ GM.IndicScripts) : S ≠ u! "RomanLoC" := by
  rintro rfl
  exact absurd (strMem_iff.2 h) (by decide +kernel)

/-- No letter of the interchange alphabet is a part of a later one. -/
def interFree : List PyStr → Bool
  | [] => true
  | x :: l => l.all (fun y => !(isInfix x y) || strEq x y) && interFree l

theorem interFree_sound {l : List PyStr} (h : interFree l = true) :
    l.Pairwise fun x y => x <:+: y → x = y := by
  induction l with
  | nil => exact List.Pairwise.nil
  | cons x l ih =>
    simp only [interFree, Bool.and_eq_true, List.all_eq_true] at h
    refine List.Pairwise.cons (fun y hy hi => ?_) (ih h.2)
    have := h.1 y hy
    rw [isInfix_iff.2 hi] at this
    exact strEq_iff.1 (by simpa using this)

theorem inter_free : interFree (lettersOf GM.Inter interSecs) = true := by decide +kernel

end Verif
