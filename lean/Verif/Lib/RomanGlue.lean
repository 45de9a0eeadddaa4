import Verif.Lib.RomanBack
import Verif.Lib.PlainUse

/-!
# Reading romanised text: separators are taken out
-/

namespace Verif

theorem respell_self {S : PyStr} (hS : hasTbl S = true) (s : PyStr) : respell S S s = s := by
  unfold respell
  induction s with
  | nil => rfl
  | cons c s ih =>
    rw [List.flatMap_cons, ih]
    have : image S S c = [c] := by
      rw [image_place hS hS]
      cases hp : place S c with
      | none => rfl
      | some p => exact (place_some hp).2.2
    rw [this]
    rfl

/-- The vowels i and u are both written with one character, or neither is. -/
def shortAlike (e : CoreEntry) : Bool :=
  match Nat.beq (letterAt e.script .VowelMap 2).length 1 with
  | true => Nat.beq (letterAt e.script .VowelMap 4).length 1
  | false => !(Nat.beq (letterAt e.script .VowelMap 4).length 1)

theorem shortAlike_iff {e : CoreEntry} (h : shortAlike e = true) :
    (letterAt e.script .VowelMap 2).length = 1 ↔ (letterAt e.script .VowelMap 4).length = 1 := by
  unfold shortAlike at h
  split at h
  · rename_i h1
    exact ⟨fun _ => Nat.eq_of_beq_eq_true h, fun _ => Nat.eq_of_beq_eq_true h1⟩
  · rename_i h1
    rw [Bool.not_eq_true'] at h
    exact ⟨fun h2 => absurd h2 (natBeq_false h1), fun h2 => absurd h2 (natBeq_false h)⟩

/-- A piece with the separator taken out. -/
def unsep (k : Nat) (i p : PyStr) : PyStr := if p = k :: i then i else p

theorem unsep_hit {k : Nat} {i p : PyStr} (h : p = k :: i) : unsep k i p = i := if_pos h
theorem unsep_pass {k : Nat} {i p : PyStr} (h : p ≠ k :: i) : unsep k i p = p := if_neg h

/-- One replacement of a separated vowel, on pieces of at most two characters. -/
theorem glue_replace {P : List PyStr} {k : Nat} {i : PyStr} (hi : i ≠ [])
    (hP : ∀ p ∈ P, (∃ d, p = [d] ∧ d ≠ k) ∨ ∃ d, p = [k, d] ∧ d ≠ k ∧ i.length = 1) :
    pyReplace P.flatten (k :: i) i = (P.map (unsep k i)).flatten := by
  by_cases hk : k ∈ P.flatten
  · obtain ⟨p, hp, hkp⟩ := List.mem_flatten.1 hk
    have h1 : i.length = 1 := by
      rcases hP p hp with ⟨d, rfl, hd⟩ | ⟨d, rfl, hd, h⟩
      · simp at hkp; exact absurd hkp.symm hd
      · exact h
    match i, h1 with
    | [d], _ =>
      refine pyReplace_pieces (by simp) ?_ ?_ ?_
      · intro p hp
        rcases hP p hp with ⟨d, rfl, -⟩ | ⟨d, rfl, -⟩ <;> simp
      · intro p hp hi
        rcases hP p hp with ⟨d', rfl, -⟩ | ⟨d', rfl, -⟩
        · have := hi.length_le; simp at this
        · exact (hi.eq_of_length rfl).symm
      · intro p q hpq x hx y hy k' hk' hi
        rw [List.mem_singleton] at hk'
        subst hk'
        have := hi.eq_of_length rfl
        simp at this
        have hp : p ∈ P := hpq.subset (by simp)
        rcases hP p hp with ⟨d', rfl, hd'⟩ | ⟨d', rfl, hd', -⟩
        · simp at hx; exact hd' (hx.trans this.1)
        · simp at hx; exact hd' (hx.trans this.1)
  · rw [pyReplace_of_not_infix (by simp) fun h => hk (h.subset (by simp))]
    congr 1
    have : ∀ p ∈ P, unsep k i p = p := by
      intro p hp
      refine unsep_pass ?_
      rintro rfl
      exact hk (List.mem_flatten.2 ⟨_, hp, by simp⟩)
    rw [List.map_congr_left this, List.map_id']

/-- The separated vowels of the target text. -/
theorem glue_vowel {e e' : CoreEntry} {r : RomanEntry} (fS : LetterFacts e) (fT : LetterFacts e') (F : ReadRules r) {s : PyStr}
    (h : Readable e r s) {c : Nat} (hc : c ∈ s) {y : PyStr} (hy : sound e.script r.script c = .vowel y) {j : Nat}
    (hj : j < (modAttr GM.Inter .VowelMap).length) (he : y = letterAt r.script .VowelMap j) :
    image e.script e'.script c = letterAt e'.script .VowelMap j := by
  have H := charRead fS F h hc
  cases hp : place e.script c with
  | none =>
    have := (H.fresh hp).2.1
    rw [hy] at this; cases this
  | some p =>
    obtain ⟨hs, hi, hpc, hz⟩ := H.letter p hp
    have hiR : j < (modAttr r.script .VowelMap).length := by rw [modAttr_length F.tbl hasTbl_inter]; exact hj
    have hcov : readCovered r .VowelMap (letterAt r.script .VowelMap j) = true := by
      have := h.covered _ (List.mem_map_of_mem hc)
      rw [hy, he] at this
      exact strMem_iff.2 this
    have hl := (F.letter .VowelMap (by decide) j hiR hcov).1
    have him := (H.image y (by rw [hy]; rfl)).1
    unfold pieceImage at him
    rw [he, hl] at him
    have hpz : pieceOf (sound e.script r.script) (zOf e.script) c = [zOf e.script c] := by
      unfold pieceOf
      rw [hy]
    have h2 : (markSigns .VowelMap (letterAt GM.Inter .VowelMap j), letterAt e'.script p.1 p.2) ∈
        pairsOf depVowels asIs GM.Inter e'.script := by
      have h3 : markSigns .VowelMap (letterAt GM.Inter .VowelMap j) = markSigns p.1 (letterAt GM.Inter p.1 p.2) := by
        rw [← hpc, hpz]
        show letterAt GM.Inter .VowelMap j = _
        exact him
      rw [h3]
      exact (pairsOf_rules hasTbl_inter fT.tbl decOk_depVowels decOk_asIs).mem_iff.2
        (rules_mem hasTbl_inter fT.tbl markSigns plain hs hi)
    rw [image_place fS.tbl fT.tbl, hp]
    exact inter_unique fT.tbl (by decide) hj h2

/-- Every character of the text becomes one character, which is no letter of the intermediate alphabet. -/
theorem image_fresh {e e' : CoreEntry} {r : RomanEntry} (fS : LetterFacts e) (fT : LetterFacts e') (hcl : clearOfInter e' = true)
    (F : ReadRules r) {s : PyStr} (h : Readable e r s) (hc' : CoreText e' (respell e.script e'.script s)) {c : Nat} (hc : c ∈ s) :
    ∃ d, image e.script e'.script c = [d] ∧ d ∉ interChars ∧ (d ∈ e'.letters ∨ (d = c ∧ sound e.script r.script c = .other c)) := by
  cases hp : place e.script c with
  | none =>
    have H := (charRead fS F h hc).fresh hp
    exact ⟨c, by rw [image_place fS.tbl fT.tbl, hp], H.1, .inr ⟨rfl, H.2.1⟩⟩
  | some p =>
    obtain ⟨d, hd, hi, -⟩ := image_single fS fT hc' hc hp
    exact ⟨d, hi, clearOfInter_sound hcl hd, .inl hd⟩

theorem vowels_inter : 4 < (modAttr GM.Inter .VowelMap).length := by decide +kernel

/-- The two replacements after the letters take out the separators. -/
theorem glue_done {e e' : CoreEntry} {r : RomanEntry} (fS : LetterFacts e) (fT : LetterFacts e') (hcl : clearOfInter e' = true)
    (hsh : shortAlike e' = true) (F : ReadRules r) {s : PyStr} (h : Readable e r s)
    (hc' : CoreText e' (respell e.script e'.script s)) :
    pyReplace (pyReplace (glue r.script (sound e.script r.script) (image e.script e'.script) false s).flatten
      (cSep :: letterAt e'.script .VowelMap 2) (letterAt e'.script .VowelMap 2))
      (cSep :: letterAt e'.script .VowelMap 4) (letterAt e'.script .VowelMap 4) = respell e.script e'.script s := by
  have H : ∀ c ∈ s, ∃ d, image e.script e'.script c = [d] ∧ d ≠ cSep := by
    intro c hc
    obtain ⟨d, hd, hf, -⟩ := image_fresh fS fT hcl F h hc' hc
    exact ⟨d, hd, fun h => hf (by rw [h]; simp [interChars])⟩
  have G : ∀ g ∈ glue r.script (sound e.script r.script) (image e.script e'.script) false s, ∃ c ∈ s,
      g = image e.script e'.script c ∨ (g = cSep :: image e.script e'.script c ∧
        (image e.script e'.script c = letterAt e'.script .VowelMap 2 ∨ image e.script e'.script c = letterAt e'.script .VowelMap 4)) := by
    intro g hg
    obtain ⟨c, hc, hm⟩ := glue_mem (Q := fun y => y = letterAt r.script .VowelMap 2 ∨ y = letterAt r.script .VowelMap 4)
      s false (fun y hy => h.short y hy) g hg
    refine ⟨c, hc, hm.imp id ?_⟩
    rintro ⟨h1, y, h2, h3⟩
    refine ⟨h1, h3.imp (fun h3 => ?_) fun h3 => ?_⟩
    · exact glue_vowel fS fT F h hc h2 (Nat.lt_trans (by decide) vowels_inter) h3
    · exact glue_vowel fS fT F h hc h2 vowels_inter h3
  have hne : ∀ j, j < (modAttr GM.Inter .VowelMap).length → letterAt e'.script .VowelMap j ≠ [] := by
    intro j hj
    refine fT.letter_ne_nil (List.mem_flatMap.2 ⟨.VowelMap, by decide, letterAt_mem ?_⟩)
    rw [modAttr_length fT.tbl hasTbl_inter]; exact hj
  have hiu := shortAlike_iff hsh
  have one : ∀ c ∈ s, (image e.script e'.script c = letterAt e'.script .VowelMap 2 ∨
      image e.script e'.script c = letterAt e'.script .VowelMap 4) →
      (letterAt e'.script .VowelMap 2).length = 1 ∧ (letterAt e'.script .VowelMap 4).length = 1 := by
    intro c hc hi
    obtain ⟨d, hd, -⟩ := H c hc
    rcases hi with hi | hi
    · have : (letterAt e'.script .VowelMap 2).length = 1 := by rw [← hi, hd]; rfl
      exact ⟨this, hiu.1 this⟩
    · have : (letterAt e'.script .VowelMap 4).length = 1 := by rw [← hi, hd]; rfl
      exact ⟨hiu.2 this, this⟩
  rw [glue_replace (hne 2 (Nat.lt_trans (by decide) vowels_inter)) ?h1, glue_replace (hne 4 vowels_inter) ?h2, List.map_map, glue_strip]
  · rfl
  · intro c hc
    obtain ⟨d, hd, hs⟩ := H c hc
    have : ∀ x : PyStr, image e.script e'.script c ≠ cSep :: x := by
      intro x hx; rw [hd] at hx; cases hx; exact hs rfl
    show unsep _ _ (unsep _ _ _) = _
    rw [unsep_pass (this _), unsep_pass (this _)]
  · intro c hc hg
    obtain ⟨c', hc', hm⟩ := G _ hg
    have hm : image e.script e'.script c = letterAt e'.script .VowelMap 2 ∨ image e.script e'.script c = letterAt e'.script .VowelMap 4 := by
      rcases hm with hm | hm
      · obtain ⟨d, hd, hs⟩ := H c' hc'
        rw [hd] at hm
        simp only [List.cons.injEq] at hm
        exact absurd hm.1.symm hs
      · obtain ⟨h1, h2⟩ := hm
        simp only [List.cons.injEq, true_and] at h1
        rw [h1]
        exact h2
    have hl := one c hc hm
    show unsep _ _ (unsep _ _ _) = _
    by_cases h2 : image e.script e'.script c = letterAt e'.script .VowelMap 2
    · rw [unsep_hit (i := letterAt e'.script .VowelMap 2) (by rw [h2]), unsep_pass, h2]
      intro he
      have := congrArg List.length he
      simp only [List.length_cons] at this
      omega
    · have h4 := hm.resolve_left h2
      rw [unsep_pass (i := letterAt e'.script .VowelMap 2) (by simpa using h2), unsep_hit (by rw [h4]), h4]
  case h1 =>
    intro p hp
    obtain ⟨c, hc, hm⟩ := G p hp
    obtain ⟨d, hd, hs⟩ := H c hc
    rcases hm with rfl | ⟨rfl, hm⟩
    · exact .inl ⟨d, hd, hs⟩
    · exact .inr ⟨d, by rw [hd], hs, (one c hc hm).1⟩
  case h2 =>
    intro p hp
    obtain ⟨q, hq, rfl⟩ := List.mem_map.1 hp
    obtain ⟨c, hc, hm⟩ := G q hq
    obtain ⟨d, hd, hs⟩ := H c hc
    rcases hm with rfl | ⟨rfl, hm⟩
    · refine .inl ⟨d, ?_, hs⟩
      rw [unsep_pass, hd]
      rw [hd]; intro h
      simp only [List.cons.injEq] at h
      exact hs h.1
    · by_cases h2 : image e.script e'.script c = letterAt e'.script .VowelMap 2
      · refine .inl ⟨d, ?_, hs⟩
        rw [unsep_hit (by rw [h2]), ← h2, hd]
      · refine .inr ⟨d, ?_, hs, (one c hc hm).2⟩
        rw [unsep_pass (by simpa using h2), hd]

/-! ## The end -/

theorem other_adjacent {R : PyStr} {σ : Nat → Sound} {a b : Nat} (ha : σ a = .other a) (hb : σ b = .other b) {s : PyStr}
    (h : [a, b] <:+: s) : [[a], [b]] <:+: romanPieces R (s.map σ) := by
  induction s with
  | nil => simp at h
  | cons c s ih =>
    rcases List.infix_cons_iff.1 h with h | h
    · cases h with
      | intro t ht =>
        simp at ht
        obtain ⟨rfl, rfl⟩ := ht
        refine ⟨[], romanPieces R (t.map σ), ?_⟩
        simp [ha, hb, romanPieces]
    · have ih := ih h
      rw [List.map_cons]
      refine ih.trans ?_
      cases σ c with
      | cons y => exact ((List.suffix_append _ _).trans (List.suffix_cons _ _)).isInfix
      | vowel y => exact ((List.suffix_append _ _).trans (List.suffix_cons _ _)).isInfix
      | virama => exact List.infix_refl _
      | _ => exact (List.suffix_cons _ _).isInfix

/-- Brackets do not come together. -/
theorem no_joiner {e e' : CoreEntry} {r : RomanEntry} (fS : LetterFacts e) (fT : CoreFacts e') (hcl : clearOfInter e' = true)
    (F : ReadRules r) {s : PyStr} (h : Readable e r s) (hc' : CoreText e' (respell e.script e'.script s)) :
    ¬ u! "[]" <:+: respell e.script e'.script s := by
  intro hi
  have H := fun c hc => image_fresh fS fT.toLetterFacts hcl F h hc' (c := c) hc
  have hb : ∀ d, d ∈ plainChars → ∀ c ∈ s, image e.script e'.script c = [d] → c = d ∧ sound e.script r.script c = .other c := by
    intro d hd c hc he
    obtain ⟨d', h1, -, h2⟩ := H c hc
    rw [he] at h1
    cases h1
    rcases h2 with h2 | h2
    · exact absurd hd (fT.apart d h2).2
    · exact ⟨h2.1.symm, h2.2⟩
  have key : ∀ t, (∀ c ∈ t, c ∈ s) → u! "[]" <:+: respell e.script e'.script t → ∃ a b, [a, b] <:+: t ∧
      (a = 91 ∧ sound e.script r.script a = .other a) ∧ b = 93 ∧ sound e.script r.script b = .other b := by
    intro t
    induction t with
    | nil => intro _ hi; simp [respell] at hi
    | cons c t ih =>
      intro ht hi
      obtain ⟨d, hd, -⟩ := H c (ht c (by simp))
      have he : respell e.script e'.script (c :: t) = d :: respell e.script e'.script t := by
        unfold respell; rw [List.flatMap_cons, hd]; rfl
      rw [he] at hi
      rcases List.infix_cons_iff.1 hi with hi | hi
      · obtain ⟨w, hw⟩ := hi
        cases t with
        | nil => simp [respell] at hw
        | cons c2 t =>
          obtain ⟨d2, hd2, -⟩ := H c2 (ht c2 (by simp))
          have he2 : respell e.script e'.script (c2 :: t) = d2 :: respell e.script e'.script t := by
            unfold respell; rw [List.flatMap_cons, hd2]; rfl
          rw [he2] at hw
          simp at hw
          refine ⟨c, c2, ⟨[], t, rfl⟩, ?_, ?_⟩
          · have := hb 91 (by decide) c (ht c (by simp)) (by rw [hd, ← hw.1])
            exact this
          · have := hb 93 (by decide) c2 (ht c2 (by simp)) (by rw [hd2, ← hw.2.1])
            exact this
      · obtain ⟨a, b, h1, h2⟩ := ih (fun c hc => ht c (List.mem_cons_of_mem _ hc)) hi
        exact ⟨a, b, h1.trans (List.suffix_cons _ _).isInfix, h2⟩
  obtain ⟨a, b, hab, ⟨rfl, ha⟩, rfl, hb⟩ := key s (fun _ h => h) hi
  refine h.codes (u! "[]") (List.mem_cons_of_mem _ (List.mem_cons_of_mem _ List.mem_cons_self)) ?_
  obtain ⟨x, y, hxy⟩ := other_adjacent (R := r.script) ha hb hab
  refine ⟨x.flatten, y.flatten, ?_⟩
  unfold romanise sounds
  rw [← hxy]
  simp

theorem index_vowel {T : PyStr} (hT : hasTbl T = true) {j : Nat} (hj : j < (modAttr GM.Inter .VowelMap).length) :
    index (lettersOf T GM.Vowels) (Int.ofNat j) = pure (letterAt T .VowelMap j) := by
  have hj : j < (modAttr T .VowelMap).length := by rw [modAttr_length hT hasTbl_inter]; exact hj
  have : pyIndex? (lettersOf T GM.Vowels) (Int.ofNat j) = some (letterAt T .VowelMap j) := by
    unfold pyIndex?
    rw [if_pos (show 0 ≤ Int.ofNat j from Int.natCast_nonneg j)]
    show (lettersOf T (.VowelMap :: _))[j]? = _
    rw [lettersOf_cons, List.getElem?_append_left hj]
    unfold letterAt
    rw [List.getD_eq_getElem?_getD, List.getElem?_eq_getElem hj]
    rfl
  unfold index
  rw [this]
  rfl

theorem hasHead_virama {S : PyStr} (hS : hasTbl S = true) : hasHead .ViramaMap S = true := by
  have h := modAttr_length hS hasTbl_inter .ViramaMap
  have hi : (modAttr GM.Inter .ViramaMap).length = 1 := by decide +kernel
  unfold hasHead
  cases hm : modAttr S .ViramaMap with
  | nil => rw [hm, hi] at h; cases h
  | cons _ _ => rfl

theorem postLI_eq {T : PyStr} (hT : hasTbl T = true) :
    postLI T = (do
      replace (cSep :: letterAt T .VowelMap 2) (letterAt T .VowelMap 2)
      replace (cSep :: letterAt T .VowelMap 4) (letterAt T .VowelMap 4)
      replace (headSec .ViramaMap T ++ (u! "[]")) ((u! "‍") ++ headSec .ViramaMap T)
      replace (u! "×") (headSec .ViramaMap T)) := by
  unfold postLI
  have h2 := index_vowel hT (Nat.lt_trans (show 2 < 4 by decide) vowels_inter)
  have h4 := index_vowel hT vowels_inter
  simp only [crunchSymbols_eq hT, crunchList_eq, pure_bind, index_head (hasHead_virama hT)]
  rw [show (2 : Int) = Int.ofNat 2 from rfl, h2, pure_bind]
  rw [show (4 : Int) = Int.ofNat 4 from rfl, h4]
  rfl

/-- From the intermediate alphabet to the text of the target script. -/
theorem postLI_run {E : Env} {e e' : CoreEntry} {r : RomanEntry} (fS : LetterFacts e) (fT : CoreFacts e') (hcl : clearOfInter e' = true)
    (hsh : shortAlike e' = true) (F : ReadRules r) {s : PyStr} (h : Readable e r s)
    (hc' : CoreText e' (respell e.script e'.script s)) :
    (postLI e'.script).prog.run E (glue r.script (sound e.script r.script) (image e.script e'.script) false s).flatten =
      .ok (respell e.script e'.script s) := by
  rw [postLI_eq fT.tbl]
  show Except.ok (pyReplace (pyReplace (pyReplace (pyReplace _ _ _) _ _) _ _) _ _) = _
  rw [glue_done fS fT.toLetterFacts hcl hsh F h hc']
  have h1 : ¬ headSec .ViramaMap e'.script ++ (u! "[]") <:+: respell e.script e'.script s := fun hi =>
    no_joiner fS fT hcl F h hc' ((List.suffix_append _ _).isInfix.trans hi)
  rw [pyReplace_of_not_infix (by simp [List.append_eq_nil_iff]) h1]
  have h2 : ¬ u! "×" <:+: respell e.script e'.script s := by
    intro hi
    have hm : cVir ∈ respell e.script e'.script s := hi.subset (by decide)
    unfold respell at hm
    obtain ⟨c, hc, hm⟩ := List.mem_flatMap.1 hm
    obtain ⟨d, hd, hf, -⟩ := image_fresh fS fT.toLetterFacts hcl F h hc' hc
    rw [hd, List.mem_singleton] at hm
    exact hf (by rw [← hm]; simp [interChars])
  rw [pyReplace_of_not_infix (by decide) h2]

end Verif
