import Verif.Lib.ReadRules
import Verif.Lib.CoreSound

/-!
# Reading romanised text: the letters of a text
-/

namespace Verif

/-- What the check says. -/
structure ReadRules (r : RomanEntry) : Prop where
  tbl : hasTbl r.script = true
  key : ∀ p ∈ interPairs r.script, p.1 ≠ [] ∧ (∀ c ∈ p.1, isNeutral c = false) ∧ p.2 ≠ [] ∧
    ∀ c ∈ p.2, ∀ q ∈ interPairs r.script, c ∉ q.1
  letter : ∀ s ∈ letterSecs, ∀ i, i < (modAttr r.script s).length → readCovered r s (letterAt r.script s i) = true →
    (interPairs r.script).lookup (letterAt r.script s i) = some (letterAt GM.Inter s i) ∧ s ≠ .NuktaMap
  a : (interPairs r.script).lookup (inherentA r.script) = some [interK.A]
  sep : (interPairs r.script).lookup [cSep] = none
  free : ∀ c ∈ r.free, c ∉ r.oneWay → (interPairs r.script).lookup [c] = none ∧ c ∉ interChars

theorem readRules {r : RomanEntry} (hT : hasTbl r.script = true) (h : readRulesOk r = true) : ReadRules r := by
  unfold readRulesOk at h
  rw [withNat_eq, withNat_eq] at h
  unfold readRulesAt at h
  simp only [Bool.and_eq_true, List.all_eq_true, Bool.not_eq_true', Bool.or_eq_true, natMem_iff] at h
  obtain ⟨⟨⟨⟨h1, h2⟩, h3⟩, h4⟩, h5⟩ := h
  refine ⟨hT, fun p hp => ?_, fun s hs i hi hc => ?_, keyIs_iff h3, noKey_iff h4, fun c hc ho => ?_⟩
  · obtain ⟨⟨⟨a1, a2⟩, a3⟩, a4⟩ := h1 p hp
    refine ⟨?_, a2, ?_, fun c hc q hq hm => ?_⟩
    · intro h0; rw [h0] at a1; cases a1
    · intro h0; rw [h0] at a3; cases a3
    · have := a4 c hc
      rw [maskMem_eq, maskOf_mem (List.mem_flatMap.2 ⟨q, hq, hm⟩)] at this
      cases this
  · have := h2 s hs _ (zip_mem hT hasTbl_inter hi)
    rw [hc] at this
    simp only [Bool.and_eq_true, Bool.not_eq_true'] at this
    refine ⟨keyIs_iff this.1, ?_⟩
    rintro rfl
    cases this.2
  · rcases h5 c hc with h | h
    · exact absurd h ho
    · refine ⟨noKey_iff h.1, fun hm => ?_⟩
      have h := h.2
      rw [maskMem_eq, maskOf_mem hm] at h
      cases h

theorem soundOf_cases (s : Sec) (y : PyStr) : soundOf s y = .cons y ∨ soundOf s y = .vowel y ∨ soundOf s y = .sign y ∨
    (soundOf s y = .virama ∧ s = .ViramaMap) ∨ soundOf s y = .mark y := by
  cases s <;> simp [soundOf, Sec.consonant, Sec.vowel, Sec.sign]

theorem interChars_fresh : (interChars.all fun c => !(isNeutral c)) = true := by decide +kernel

theorem neutral_notInter {c : Nat} (h : isNeutral c = true) : c ∉ interChars := by
  intro hm
  have := List.all_eq_true.1 interChars_fresh c hm
  rw [h] at this
  cases this

theorem interItem_other {c : Nat} (h : c ∉ interChars) : interK.Item (.other c) c := by
  simp only [interChars, List.mem_cons, List.mem_append, not_or] at h
  obtain ⟨h1, h2, h3, h4, h5, h6, h7, h8⟩ := h
  exact ⟨h4, h1, h2, fun _ => h3, h6, h7, h5⟩

/-- The spellings are pieces of the romanised text. -/
theorem spelling_mem {R : PyStr} {t : List Sound} {x : Sound} (hx : x ∈ t) {y : PyStr} (hy : x.spelling = some y) :
    y ∈ romanPieces R t := by
  induction t with
  | nil => cases hx
  | cons z t ih =>
    rcases List.mem_cons.1 hx with rfl | hx
    · cases x <;> cases hy <;> exact List.mem_cons_self
    · have ih := ih hx
      cases z with
      | cons w => exact List.mem_cons_of_mem _ (List.mem_append_right _ ih)
      | vowel w => exact List.mem_cons_of_mem _ (List.mem_append_right _ ih)
      | virama => exact ih
      | _ => exact List.mem_cons_of_mem _ ih

/-- The pieces of romanised text. -/
theorem pieces_mem {R : PyStr} {t : List Sound} {p : PyStr} (h : p ∈ romanPieces R t) :
    p = inherentA R ∨ p = [cSep] ∨ ∃ x ∈ t, x.spelling = some p := by
  have sep : ∀ T, p ∈ separator R T → p = [cSep] := by
    intro T hp
    rcases separator_pieces R T with h | h
    · rw [h] at hp; cases hp
    · rw [h] at hp; exact List.mem_singleton.1 hp
  induction t with
  | nil => cases h
  | cons z t ih =>
    have ih : p ∈ romanPieces R t → p = inherentA R ∨ p = [cSep] ∨ ∃ x ∈ z :: t, x.spelling = some p := by
      intro h
      rcases ih h with h | h | ⟨x, hx, h⟩
      · exact .inl h
      · exact .inr (.inl h)
      · exact .inr (.inr ⟨x, List.mem_cons_of_mem _ hx, h⟩)
    have me : z.spelling = some p → p = inherentA R ∨ p = [cSep] ∨ ∃ x ∈ z :: t, x.spelling = some p :=
      fun h => .inr (.inr ⟨z, List.mem_cons_self, h⟩)
    cases z with
    | cons w =>
      simp only [romanPieces, List.mem_cons, List.mem_append] at h
      rcases h with rfl | h | h
      · exact me rfl
      · split at h
        · cases h
        · rcases List.mem_cons.1 h with h | h
          · exact .inl h
          · exact .inr (.inl (sep _ h))
      · exact ih h
    | vowel w =>
      simp only [romanPieces, List.mem_cons, List.mem_append] at h
      rcases h with rfl | h | h
      · exact me rfl
      · split at h
        · exact .inr (.inl (sep _ h))
        · cases h
      · exact ih h
    | virama => exact ih h
    | _ =>
      rcases List.mem_cons.1 h with rfl | h
      · exact me rfl
      · exact ih h

/-- The letter of the intermediate alphabet for a character. -/
def zOf (S : PyStr) (c : Nat) : Nat :=
  match place S c with
  | some p => (letterAt GM.Inter p.1 p.2).headD 0
  | none => c

/-- What is known of a character of a readable text. -/
structure CharRead (S : PyStr) (r : RomanEntry) (c : Nat) : Prop where
  item : interK.Item (sound S r.script c) (zOf S c)
  image : ∀ y ∈ (sound S r.script c).spelling, pieceImage (interPairs r.script) y = [zOf S c] ∧
    ((∃ o, (y, o) ∈ interPairs r.script) ∨ ∃ d, y = [d] ∧ (interPairs r.script).lookup y = none)
  letter : ∀ p, place S c = some p → p.1 ∈ letterSecs ∧ p.2 < (modAttr GM.Inter p.1).length ∧
    pieceOf (sound S r.script) (zOf S) c = markSigns p.1 (letterAt GM.Inter p.1 p.2) ∧
    letterAt GM.Inter p.1 p.2 = [zOf S c]
  fresh : place S c = none → c ∉ interChars ∧ sound S r.script c = .other c ∧ zOf S c = c

theorem charRead {e : CoreEntry} {r : RomanEntry} (fS : LetterFacts e) (F : ReadRules r) {s : PyStr} (h : Readable e r s) {c : Nat}
    (hc : c ∈ s) : CharRead e.script r c := by
  have hx : sound e.script r.script c ∈ sounds e.script r.script s := List.mem_map_of_mem hc
  have hcov := h.covered _ hx
  cases hp : place e.script c with
  | none =>
    have hσ : sound e.script r.script c = .other c := by rw [sound_place fS.tbl F.tbl, hp]
    have hz : zOf e.script c = c := by unfold zOf; rw [hp]
    have hfr : c ∉ interChars ∧ (interPairs r.script).lookup [c] = none := by
      rw [hσ] at hcov
      rcases hcov with hf | hn
      · have hpl : c ∈ romanise e.script r.script s := by
          refine List.mem_flatten.2 ⟨[c], spelling_mem hx (by rw [hσ]; rfl), by simp⟩
        exact (F.free c hf (h.plain c hpl)).symm
      · refine ⟨neutral_notInter hn, lookup_none.2 fun p hp he => ?_⟩
        have := (F.key p hp).2.1 c (by rw [he]; simp)
        rw [hn] at this; cases this
    refine ⟨?_, ?_, ?_, fun _ => ⟨hfr.1, hσ, hz⟩⟩
    · rw [hσ, hz]; exact interItem_other hfr.1
    · rw [hσ, hz]
      intro y hy
      cases hy
      exact ⟨by unfold pieceImage; rw [hfr.2], .inr ⟨c, rfl, hfr.2⟩⟩
    · intro p hp'; rw [hp] at hp'; cases hp'
  | some p =>
    obtain ⟨sec, i⟩ := p
    obtain ⟨hs, hi, -⟩ := place_some hp
    have hσ : sound e.script r.script c = soundOf sec (letterAt r.script sec i) := by rw [sound_place fS.tbl F.tbl, hp]
    have hz : zOf e.script c = (letterAt GM.Inter sec i).headD 0 := by unfold zOf; rw [hp]
    have hi' : i < (modAttr GM.Inter sec).length := by rw [modAttr_length hasTbl_inter fS.tbl]; exact hi
    have hiR : i < (modAttr r.script sec).length := by rw [modAttr_length F.tbl fS.tbl]; exact hi
    have hrc : soundOf sec (letterAt r.script sec i) = .virama ∧ sec = .ViramaMap ∨ readCovered r sec (letterAt r.script sec i) = true := by
      unfold readCovered
      rw [hσ] at hcov hx
      rcases soundOf_cases sec (letterAt r.script sec i) with hy | hy | hy | hy | hy
      · rw [hy] at hcov ⊢; exact .inr (strMem_iff.2 hcov)
      · rw [hy] at hcov ⊢; exact .inr (strMem_iff.2 hcov)
      · rw [hy] at hcov ⊢; exact .inr (strMem_iff.2 hcov)
      · exact .inl hy
      · rw [hy] at hcov hx ⊢
        right
        simp only [Bool.and_eq_true, Bool.not_eq_true']
        exact ⟨strMem_iff.2 hcov, strMem_false.2 (h.marks _ hx)⟩
    have hn : sec ≠ .NuktaMap := by
      rcases hrc with h | h
      · rw [h.2]; simp
      · exact (F.letter sec hs i hiR h).2
    obtain ⟨z, hz1, hz2, hz3, hz4⟩ := inter_letter hs hi' hn (letterAt r.script sec i)
    have hz : zOf e.script c = z := by rw [hz, hz1]; rfl
    refine ⟨?_, ?_, ?_, fun h => by rw [hp] at h; cases h⟩
    · rw [hσ, hz]; exact hz2
    · rw [hσ, hz]
      intro y hy
      rcases hrc with hv | hv
      · rw [hv.1] at hy; cases hy
      · have hl := (F.letter sec hs i hiR hv).1
        have : y = letterAt r.script sec i := by
          rcases soundOf_cases sec (letterAt r.script sec i) with he | he | he | he | he
          · rw [he] at hy; cases hy; rfl
          · rw [he] at hy; cases hy; rfl
          · rw [he] at hy; cases hy; rfl
          · rw [he.1] at hy; cases hy
          · rw [he] at hy; cases hy; rfl
        rw [this]
        refine ⟨by unfold pieceImage; rw [hl, hz1], .inl ⟨_, lookup_mem hl⟩⟩
    · intro p hp'
      rw [hp] at hp'
      cases hp'
      refine ⟨hs, hi', ?_, by rw [hz1, hz]⟩
      unfold pieceOf
      rw [hσ, hz, hz1]
      unfold letterSecs at hs
      simp only [List.mem_cons, List.not_mem_nil, or_false] at hs
      have hz4 := hz4
      rcases hs with rfl | rfl | rfl | rfl | rfl | rfl | rfl | rfl | rfl | rfl | rfl | rfl | rfl | rfl | rfl | rfl | rfl | rfl <;>
        first
        | rfl
        | (rw [hz4 rfl]; rfl)

theorem infix_singleton {x : PyStr} {d : Nat} (h : x <:+: [d]) : x = [] ∨ x = [d] := by
  obtain ⟨a, b, h⟩ := h
  cases a with
  | nil => cases x with
    | nil => exact .inl rfl
    | cons y x =>
      cases x with
      | nil => simp at h; exact .inr (by rw [h.1])
      | cons w x => simp at h
  | cons y a => cases x with
    | nil => exact .inl rfl
    | cons w x => simp at h

theorem apart_mono {K K' P : List PyStr} (h : Apart K P) (hk : ∀ k ∈ K', k ∈ K) : Apart K' P :=
  fun p q hpq x hx y hy k hm => h p q hpq x hx y hy k (hk k hm)

theorem interPairs_letters {R : PyStr} (hR : hasTbl R = true) {k : PyStr} (h : k ∈ (interPairs R).map Prod.fst) : k ∈ romanLetters R := by
  obtain ⟨p, hp, rfl⟩ := List.mem_map.1 h
  have := List.mem_map_of_mem (f := Prod.fst) ((interPairs_rules hR).mem_iff.1 hp)
  rw [rules_fst hR hasTbl_inter] at this
  simpa [romanLetters, plain] using this

/-- The romanised text in the intermediate alphabet. -/
theorem read_inter {e : CoreEntry} {r : RomanEntry} (fS : LetterFacts e) (F : ReadRules r) {s : PyStr} (h : Readable e r s) :
    applyRules (interPairs r.script) (romanise e.script r.script s) =
      renT r.script (sound e.script r.script) (zOf e.script) [interK.A] [] [] s := by
  have H : ∀ c ∈ s, CharRead e.script r c := fun c hc => charRead fS F h hc
  have hne : ∀ {y o : PyStr}, (y, o) ∈ interPairs r.script → y ≠ [] := fun hm => (F.key _ hm).1
  have key : ∀ p ∈ romanPieces r.script (sounds e.script r.script s),
      (∃ o, (p, o) ∈ interPairs r.script) ∨ ∃ d, p = [d] ∧ (interPairs r.script).lookup p = none := by
    intro p hp
    rcases pieces_mem hp with rfl | rfl | ⟨x, hx, hy⟩
    · exact .inl ⟨_, lookup_mem F.a⟩
    · exact .inr ⟨_, rfl, F.sep⟩
    · obtain ⟨c, hc, rfl⟩ := List.mem_map.1 hx
      exact ((H c hc).image p hy).2
  unfold romanise
  have hsort : LongestFirst (interPairs r.script) := sortByKeyDesc_sorted _ _
  rw [applyRules_pieces hsort (fun q hq => (F.key q hq).1)]
  · refine stageA ?_ ?_ s fun c hc y hy => ((H c hc).image y hy).1
    · unfold pieceImage; rw [F.a]
    · unfold pieceImage; rw [F.sep]
  · intro p hp
    rcases key p hp with ⟨o, ho⟩ | ⟨d, rfl, -⟩
    · exact hne ho
    · simp
  · intro p hp
    rcases key p hp with ho | ⟨d, rfl, hl⟩
    · exact .inl ho
    · right
      intro q hq hi
      have : q.1 = [d] := by
        rcases infix_singleton hi with h | h
        · exact absurd h (F.key q hq).1
        · exact h
      exact lookup_none.1 hl q hq this
  · exact apart_mono h.apart fun k hk => interPairs_letters F.tbl hk
  · intro p _ o ho
    exact (F.key _ ho).2.2

/-! ## The target script -/

theorem interKeys_fine : (interKeys.all fun k => !(natMem cSep k) && (match k with
    | [_] => true
    | [x, _] => Nat.beq x cDep
    | _ => false)) = true := by decide +kernel

theorem interKey_cases {k : PyStr} (h : k ∈ interKeys) : cSep ∉ k ∧ ((∃ z, k = [z]) ∨ ∃ z, k = [cDep, z]) := by
  have := List.all_eq_true.1 interKeys_fine k h
  simp only [Bool.and_eq_true, Bool.not_eq_true'] at this
  refine ⟨natMem_false this.1, ?_⟩
  have h2 := this.2
  split at h2
  · exact .inl ⟨_, rfl⟩
  · rw [Nat.eq_of_beq_eq_true h2]; exact .inr ⟨_, rfl⟩
  · cases h2

theorem interPair_key {T : PyStr} (hT : hasTbl T = true) {p : PyStr × PyStr} (h : p ∈ pairsOf depVowels asIs GM.Inter T) :
    p.1 ∈ interKeys := by
  have := List.mem_map_of_mem (f := Prod.fst) ((pairsOf_rules hasTbl_inter hT decOk_depVowels decOk_asIs).mem_iff.1 h)
  rwa [rules_fst hasTbl_inter hT] at this

/-- The letters of the target script are not letters of the intermediate alphabet. -/
def clearOfInter (e : CoreEntry) : Bool := withNat (maskOf interChars) fun m => e.letters.all fun c => !(maskMem m c)

theorem clearOfInter_sound {e : CoreEntry} (h : clearOfInter e = true) {c : Nat} (hc : c ∈ e.letters) : c ∉ interChars := by
  unfold clearOfInter at h
  rw [withNat_eq] at h
  intro hm
  have := List.all_eq_true.1 h c hc
  rw [maskMem_eq, maskOf_mem hm] at this
  cases this

/-- The letters of the target text. -/
theorem image_single {e e' : CoreEntry} (fS : LetterFacts e) (fT : LetterFacts e') {s : PyStr} (hc' : CoreText e' (respell e.script e'.script s))
    {c : Nat} (hc : c ∈ s) {p : Sec × Nat} (hp : place e.script c = some p) :
    ∃ d ∈ e'.letters, image e.script e'.script c = [d] ∧ letterAt e'.script p.1 p.2 = [d] := by
  have hi : image e.script e'.script c = letterAt e'.script p.1 p.2 := by rw [image_place fS.tbl fT.tbl, hp]
  obtain ⟨hs, hl, -⟩ := place_some hp
  have hl' : p.2 < (modAttr e'.script p.1).length := by rw [modAttr_length fT.tbl fS.tbl]; exact hl
  have hm : letterAt e'.script p.1 p.2 ∈ letterList e'.script := List.mem_flatMap.2 ⟨p.1, hs, letterAt_mem hl'⟩
  obtain ⟨d, hd, he⟩ := fT.letter_in_core hc' hm (hi ▸ image_infix hc)
  exact ⟨d, hd, by rw [hi, he], he⟩

/-- The text of the intermediate alphabet in the target script, with separators. -/
theorem inter_target {e e' : CoreEntry} {r : RomanEntry} (fS : LetterFacts e) (fT : LetterFacts e') (hcl : clearOfInter e' = true)
    (F : ReadRules r) {s : PyStr} (h : Readable e r s) (hc' : CoreText e' (respell e.script e'.script s)) :
    applyRules (pairsOf depVowels asIs GM.Inter e'.script)
      (renT r.script (sound e.script r.script) (zOf e.script) [] [cDep, cVir] [cDep] s) =
      (glue r.script (sound e.script r.script) (image e.script e'.script) false s).flatten := by
  have H : ∀ c ∈ s, CharRead e.script r c := fun c hc => charRead fS F h hc
  have hkey : ∀ q ∈ pairsOf depVowels asIs GM.Inter e'.script, q.1 ≠ [] := by
    intro q hq
    rcases (interKey_cases (interPair_key fT.tbl hq)).2 with ⟨z, hz⟩ | ⟨z, hz⟩ <;> rw [hz] <;> simp
  have hsep : ∀ q ∈ pairsOf depVowels asIs GM.Inter e'.script, ¬ q.1 <:+: [cSep] := by
    intro q hq hi
    rcases infix_singleton hi with h | h
    · exact hkey q hq h
    · exact (interKey_cases (interPair_key fT.tbl hq)).1 (by rw [h]; simp)
  have hnone : ∀ c ∈ s, place e.script c = none → ∀ q ∈ pairsOf depVowels asIs GM.Inter e'.script,
      ¬ q.1 <:+: pieceOf (sound e.script r.script) (zOf e.script) c := by
    intro c hc hp q hq hi
    obtain ⟨hf, hσ, hz⟩ := (H c hc).fresh hp
    unfold pieceOf at hi
    rw [hσ, hz] at hi
    rcases infix_singleton hi with h | h
    · exact hkey q hq h
    · refine hf ?_
      simp only [interChars, List.mem_cons, List.mem_append]
      refine .inr (.inr (.inr (.inr (.inr (.inr (.inr ?_))))))
      exact List.mem_flatten.2 ⟨q.1, interPair_key fT.tbl hq, by rw [h]; simp⟩
  have hsome : ∀ c ∈ s, ∀ p, place e.script c = some p →
      (pieceOf (sound e.script r.script) (zOf e.script) c, image e.script e'.script c) ∈ pairsOf depVowels asIs GM.Inter e'.script ∧
      ∀ o, (pieceOf (sound e.script r.script) (zOf e.script) c, o) ∈ pairsOf depVowels asIs GM.Inter e'.script →
        o = image e.script e'.script c := by
    intro c hc p hp
    obtain ⟨hs, hi, hpc, -⟩ := (H c hc).letter p hp
    have him : image e.script e'.script c = letterAt e'.script p.1 p.2 := by rw [image_place fS.tbl fT.tbl, hp]
    rw [hpc, him]
    refine ⟨?_, fun o ho => inter_unique fT.tbl hs hi ho⟩
    exact (pairsOf_rules hasTbl_inter fT.tbl decOk_depVowels decOk_asIs).mem_iff.2
      (rules_mem hasTbl_inter fT.tbl markSigns plain hs hi)
  rw [← renP_wellFormed h.formed, applyRules_pieces (pairsOf_sorted _ _ _ _) hkey]
  · rw [← stageC (f := pieceImage (pairsOf depVowels asIs GM.Inter e'.script))]
    · rfl
    · unfold pieceImage
      have : (pairsOf depVowels asIs GM.Inter e'.script).lookup [cSep] = none :=
        lookup_none.2 fun q hq he => hsep q hq (he ▸ List.infix_refl _)
      rw [this]
    · intro c hc
      unfold pieceImage
      cases hp : place e.script c with
      | none =>
        have : (pairsOf depVowels asIs GM.Inter e'.script).lookup (pieceOf (sound e.script r.script) (zOf e.script) c) = none :=
          lookup_none.2 fun q hq he => hnone c hc hp q hq (he ▸ List.infix_refl _)
        rw [this]
        obtain ⟨-, hσ, hz⟩ := (H c hc).fresh hp
        rw [image_place fS.tbl fT.tbl, hp]
        unfold pieceOf
        rw [hσ, hz]
      | some p =>
        obtain ⟨hm, hu⟩ := hsome c hc p hp
        cases hl : (pairsOf depVowels asIs GM.Inter e'.script).lookup (pieceOf (sound e.script r.script) (zOf e.script) c) with
        | none => exact absurd rfl (lookup_none.1 hl _ hm)
        | some o => exact hu o (lookup_mem hl)
  · intro p hp
    rcases renP_mem hp with rfl | ⟨c, hc, rfl⟩
    · simp
    · unfold pieceOf; split <;> simp
  · intro p hp
    rcases renP_mem hp with rfl | ⟨c, hc, rfl⟩
    · exact .inr hsep
    · cases hpl : place e.script c with
      | none => exact .inr (hnone c hc hpl)
      | some p => exact .inl ⟨_, (hsome c hc p hpl).1⟩
  · intro p q hpq x hx y hy k hk hi
    obtain ⟨q', hq', rfl⟩ := List.mem_map.1 hk
    have hxd : x = cDep := by
      rcases (interKey_cases (interPair_key fT.tbl hq')).2 with ⟨z, hz⟩ | ⟨z, hz⟩
      · rw [hz] at hi; have := hi.length_le; simp at this
      · rw [hz] at hi
        have := hi.eq_of_length rfl
        simp at this
        exact this.1
    have hpm : p ∈ renP r.script (sound e.script r.script) (zOf e.script) s := hpq.subset (by simp)
    rcases renP_mem hpm with rfl | ⟨c, hc, rfl⟩
    · simp at hx; rw [← hx] at hxd; exact absurd hxd cSep_ne_dep
    · have hz := (H c hc).item.2.1
      unfold pieceOf at hx
      split at hx
      · simp at hx; rw [← hx] at hxd; exact absurd hxd (by decide)
      · simp at hx; rw [← hx] at hxd; exact absurd hxd hz
      · simp at hx; rw [← hx] at hxd; exact absurd hxd hz
  · intro p hp o ho
    rcases renP_mem hp with rfl | ⟨c, hc, rfl⟩
    · exact absurd (List.infix_refl _) (hsep _ ho)
    · cases hpl : place e.script c with
      | none => exact absurd (List.infix_refl _) (hnone c hc hpl _ ho)
      | some p =>
        rw [(hsome c hc p hpl).2 o ho]
        obtain ⟨d, hd, hi, -⟩ := image_single fS fT hc' hc hpl
        rw [hi]
        refine ⟨by simp, fun c' hc' q hq hm => ?_⟩
        rw [List.mem_singleton] at hc'
        subst hc'
        refine clearOfInter_sound hcl hd ?_
        simp only [interChars, List.mem_cons, List.mem_append]
        refine .inr (.inr (.inr (.inr (.inr (.inr (.inr ?_))))))
        exact List.mem_flatten.2 ⟨q.1, interPair_key fT.tbl hq, hm⟩

end Verif
