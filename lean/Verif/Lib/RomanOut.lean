import Verif.Lib.Compat
import Verif.Lib.RomanLetters
import Verif.Spec.RomanTable

/-!
# Conversion to a romanisation
-/

namespace Verif

/-- The replacements of a program that may do something on texts over `A` without the factors `F`;
`none` if something else than a replacement may happen. -/
def Prog.effect (A : CharSet) (F : List PyStr) : Prog → Option (List (PyStr × PyStr))
  | .done => some []
  | .rep x y k => match (Prog.rep x y .done).idle A F with
    | true => k.effect A F
    | false => match x, F, y.all A.mem with
      | _ :: _, [], true => (k.effect A F).map ((x, y) :: ·)
      | _, _, _ => none
  | .sub p t k => match (Prog.sub p t .done).idle A F with | true => k.effect A F | false => none
  | .ite c t e k => match (Prog.ite c t e .done).idle A F with | true => k.effect A F | false => none
  | .attempt p k => match (Prog.attempt p .done).idle A F with | true => k.effect A F | false => none
  | .evens sep p k => match (Prog.evens sep p .done).idle A F with | true => k.effect A F | false => none
  | .nat f k => match (Prog.nat f .done).idle A F with | true => k.effect A F | false => none
  | _ => none

theorem pyReplace_over {A : CharSet} {s x y : PyStr} (hs : Over A s) (hy : y.all A.mem = true) : Over A (pyReplace s x y) := by
  intro c hc
  rcases pyReplace_mem hc with h | h
  · exact hs c h
  · exact List.all_eq_true.1 hy c h

theorem Prog.effect_sound {E : Env} {A : CharSet} {F : List PyStr} {p : Prog} {L : List (PyStr × PyStr)}
    (h : p.effect A F = some L) {s s' : PyStr} (hs : InCore A F s) (hr : p.run E s = .ok s') : s' = applyRules L s := by
  induction p generalizing s s' L with
  | done => cases h; cases hr; rfl
  | rep x y k ih =>
    simp only [Prog.effect] at h
    split at h
    · rename_i hi
      have h1 : (Prog.rep x y .done).run E s = .ok (pyReplace s x y) := rfl
      have := Prog.idle_sound hi hs h1
      simp only [Prog.run, this] at hr
      exact ih h hs hr
    · split at h
      · rename_i a x' hy hi
        rw [Option.map_eq_some_iff] at h
        obtain ⟨L', h', rfl⟩ := h
        simp only [Prog.run] at hr
        exact ih h' ⟨pyReplace_over hs.1 hy, by simp⟩ hr
      · cases h
  | sub p t k ih =>
    simp only [Prog.effect] at h
    split at h
    · rename_i hi
      simp only [Prog.run] at hr
      split at hr
      · cases hr
      · rename_i r tm hc
        have h1 : (Prog.sub p t .done).run E s = .ok (reSubC E.uni r tm s) := by simp only [Prog.run, hc]
        rw [Prog.idle_sound hi hs h1] at hr
        exact ih h hs hr
    · cases h
  | ite c t e k iht ihe ih =>
    simp only [Prog.effect] at h
    split at h
    · rename_i hi
      simp only [Prog.run] at hr
      split at hr
      · rename_i s1 hs1
        have h1 : (Prog.ite c t e .done).run E s = .ok s1 := by simp only [Prog.run]; rw [hs1]
        have := Prog.idle_sound hi hs h1
        subst this
        exact ih h hs hr
      · cases hr
    · cases h
  | attempt p k ihp ih =>
    simp only [Prog.effect] at h
    split at h
    · rename_i hi
      simp only [Prog.run] at hr
      split at hr
      · rename_i s1 hs1
        have h1 : (Prog.attempt p .done).run E s = .ok s1 := by simp only [Prog.run, hs1]
        have := Prog.idle_sound hi hs h1
        subst this
        exact ih h hs hr
      · exact ih h hs hr
      · cases hr
    · cases h
  | evens sep p k ihp ih =>
    simp only [Prog.effect] at h
    split at h
    · rename_i hi
      simp only [Prog.run] at hr
      split at hr
      · rename_i s1 hs1
        have h1 : (Prog.evens sep p .done).run E s = .ok s1 := by simp only [Prog.run, hs1]
        have := Prog.idle_sound hi hs h1
        subst this
        exact ih h hs hr
      · cases hr
    · cases h
  | nat f k ih =>
    simp only [Prog.effect] at h
    split at h
    · rename_i hi
      have h1 : (Prog.nat f .done).run E s = .ok (f.sem E.uni s) := rfl
      simp only [Prog.run, Prog.idle_sound hi hs h1] at hr
      exact ih h hs hr
    · cases h
  | _ => simp [Prog.effect] at h

/-! ## The checks of a romanisation -/

/-- The characters of a romanised text. -/
def RomanEntry.chars (r : RomanEntry) : PyStr :=
  r.conss.flatten ++ (r.vowels.flatten ++ (r.marks.flatten ++ (r.free ++ (cSep :: (inherentA r.script ++
    r.hiatus.flatMap fun p => p.2)))))

/-- Equal lists of rules. -/
def sameRules : List (PyStr × PyStr) → List (PyStr × PyStr) → Bool
  | [], [] => true
  | p :: l, q :: m => match strEq p.1 q.1, strEq p.2 q.2 with
    | true, true => sameRules l m
    | _, _ => false
  | _, _ => false

theorem sameRules_eq {l m : List (PyStr × PyStr)} (h : sameRules l m = true) : l = m := by
  induction l generalizing m with
  | nil => cases m with | nil => rfl | cons q m => cases h
  | cons p l ih =>
    cases m with
    | nil => cases h
    | cons q m =>
      simp only [sameRules] at h
      split at h
      · rename_i h1 h2
        rw [ih h]
        congr 1
        exact Prod.ext (strEq_iff.1 h1) (strEq_iff.1 h2)
      · cases h

/-- The replacements of the program are those of the list. -/
def effectIs (A : CharSet) (F : List PyStr) (p : Prog) (L : List (PyStr × PyStr)) : Bool :=
  match p.effect A F with
  | some L' => sameRules L' L
  | none => false

theorem effectIs_sound {E : Env} {A : CharSet} {F : List PyStr} {p : Prog} {L : List (PyStr × PyStr)}
    (h : effectIs A F p L = true) {s s' : PyStr} (hs : InCore A F s) (hr : p.run E s = .ok s') : s' = applyRules L s := by
  unfold effectIs at h
  split at h
  · rename_i L' hL
    rw [← sameRules_eq h]
    exact Prog.effect_sound hL hs hr
  · cases h

/-- What happens to romanised text after `FixRomanOutput`. -/
def romanOkAt (m : Nat) (r : RomanEntry) : Bool :=
  strMem r.script targetScripts && strMem r.script GM.LatinScripts &&
  (sameForPre r.script (u! "HK") || sameForPre r.script (u! "WX") || sameForPre r.script (u! "SLP1")) &&
  r.chars.all (fun c => maskMem m c) &&
  (modAttr r.script .ViramaMap).all (fun y => strEq y [cVir]) &&
  (r.hiatus.isEmpty || r.avoid.isEmpty) &&
  ConvertFix.VedicSvarsIndicLatin.prog.idle (mixSet m) r.avoid &&
  effectIs (mixSet m) r.avoid (endLL (u! "Devanagari") r.script).prog r.hiatus &&
  (finishT r.script false).prog.idle (mixSet m) r.avoid &&
  (finishT r.script true).prog.idle (mixSet m) r.avoid &&
  !(strEq r.script (u! "Malayalam")) && !(strMem r.script us!["RomanReadable", "RomanColloquial", "IPA"]) && hasTbl r.script

/-- The checks of a romanisation. -/
def romanOk (r : RomanEntry) : Bool := fixOk r && withNat (maskOf r.chars) fun m => romanOkAt m r

/-- What the checks say. -/
structure RomanFacts (r : RomanEntry) where
  m : Nat
  fix : fixOk r = true
  tgt : r.script ∈ targetScripts
  latin : r.script ∈ GM.LatinScripts
  pre : (sameForPre r.script (u! "HK") = true ∨ sameForPre r.script (u! "WX") = true) ∨ sameForPre r.script (u! "SLP1") = true
  mask : ∀ c ∈ r.chars, maskMem m c = true
  vir : ∀ y ∈ modAttr r.script .ViramaMap, y = [cVir]
  nothing : r.hiatus = [] ∨ r.avoid = []
  vedic : ConvertFix.VedicSvarsIndicLatin.prog.idle (mixSet m) r.avoid = true
  post : effectIs (mixSet m) r.avoid (endLL (u! "Devanagari") r.script).prog r.hiatus = true
  finF : (finishT r.script false).prog.idle (mixSet m) r.avoid = true
  finT : (finishT r.script true).prog.idle (mixSet m) r.avoid = true
  mal : pyEq r.script (u! "Malayalam") = false
  own : pyIn r.script us!["RomanReadable", "RomanColloquial", "IPA"] = false
  tbl : hasTbl r.script = true

theorem romanFacts {r : RomanEntry} (h : romanOk r = true) : Nonempty (RomanFacts r) := by
  unfold romanOk at h
  rw [withNat_eq] at h
  simp only [romanOkAt, Bool.and_eq_true, Bool.or_eq_true, List.all_eq_true, strMem_iff, strEq_iff, Bool.not_eq_true',
    List.isEmpty_iff] at h
  obtain ⟨h0, ⟨⟨⟨⟨⟨⟨⟨⟨⟨⟨⟨h1, h2⟩, h3⟩, h4⟩, h5⟩, h6⟩, h7⟩, h8⟩, h9⟩, h10⟩, h11⟩, h12⟩, h13⟩ := h
  exact ⟨⟨_, h0, h1, h2, h3, h4, h5, h6, h7, h8, h9, h10, h11, h12, h13⟩⟩

/-- Romanised text is made of the characters of the romanisation. -/
theorem romanPieces_chars {r : RomanEntry} {T : List Sound} (hT : ∀ x ∈ T, SoundOk r x) :
    ∀ p ∈ romanPieces r.script T, ∀ c ∈ p, c ∈ r.chars ∨ isNeutral c = true := by
  have sep : ∀ (t : List Sound), ∀ p ∈ separator r.script t, ∀ c ∈ p, c ∈ r.chars ∨ isNeutral c = true := by
    intro t p hp c hc
    unfold separator at hp
    split at hp
    · split at hp
      · rw [List.mem_singleton.1 hp] at hc
        rw [List.mem_singleton.1 hc]
        left; simp [RomanEntry.chars, cSep]
      · cases hp
    · cases hp
  have inC : ∀ y ∈ r.conss, ∀ c ∈ y, c ∈ r.chars := fun y hy c hc => by
    simp only [RomanEntry.chars, List.mem_append, List.mem_flatten]; exact .inl ⟨y, hy, hc⟩
  have inV : ∀ y ∈ r.vowels, ∀ c ∈ y, c ∈ r.chars := fun y hy c hc => by
    simp only [RomanEntry.chars, List.mem_append, List.mem_flatten]; exact .inr (.inl ⟨y, hy, hc⟩)
  have inM : ∀ y ∈ r.marks, ∀ c ∈ y, c ∈ r.chars := fun y hy c hc => by
    simp only [RomanEntry.chars, List.mem_append, List.mem_flatten]; exact .inr (.inr (.inl ⟨y, hy, hc⟩))
  induction T with
  | nil => intro p hp; cases hp
  | cons x t ih =>
    have hx := hT x List.mem_cons_self
    have ih := ih fun x hx => hT x (List.mem_cons_of_mem _ hx)
    intro p hp c hc
    cases x with
    | cons y =>
      simp only [romanPieces, List.mem_cons, List.mem_append] at hp
      rcases hp with rfl | hp | hp
      · exact .inl (inC p hx c hc)
      · split at hp
        · cases hp
        · rcases List.mem_cons.1 hp with rfl | hp
          · left; simp only [RomanEntry.chars, List.mem_append, List.mem_cons]; simp [hc]
          · exact sep t p hp c hc
      · exact ih p hp c hc
    | vowel y =>
      simp only [romanPieces, List.mem_cons, List.mem_append] at hp
      rcases hp with rfl | hp | hp
      · exact .inl (inV p hx c hc)
      · split at hp
        · exact sep t p hp c hc
        · cases hp
      · exact ih p hp c hc
    | sign y =>
      simp only [romanPieces, List.mem_cons] at hp
      rcases hp with rfl | hp
      · exact .inl (inV p hx.1 c hc)
      · exact ih p hp c hc
    | mark y =>
      simp only [romanPieces, List.mem_cons] at hp
      rcases hp with rfl | hp
      · exact .inl (inM p hx c hc)
      · exact ih p hp c hc
    | virama => exact ih p hp c hc
    | other d =>
      simp only [romanPieces, List.mem_cons] at hp
      rcases hp with rfl | hp
      · rw [List.mem_singleton.1 hc]
        rcases hx with hx | hx
        · left; simp [RomanEntry.chars, hx]
        · exact .inr hx
      · exact ih p hp c hc

/-! ## The checks of a script before it is romanised -/

/-- `PreProcess` leaves core text alone if the target is a romanisation. -/
def preRomanOk (e : CoreEntry) : Bool :=
  withNat (maskOf (without (e.letters ++ plainChars) e.notPlain)) fun m =>
    e.letters.all (fun c => maskMem m c) && plainChars.all (fun c => natMem c e.notPlain || maskMem m c) &&
    (PreProcess.PreProcess e.script (u! "HK") [] []).prog.idle (mixSet m) e.forbid &&
    (PreProcess.PreProcess e.script (u! "WX") [] []).prog.idle (mixSet m) e.forbid &&
    (PreProcess.PreProcess e.script (u! "SLP1") [] []).prog.idle (mixSet m) e.forbid &&
    !(strEq e.script (u! "RomanSemitic")) && !(strMem [] (modAttr e.script .OmMap))

theorem preRomanOk_run {E : Env} {e : CoreEntry} (h : preRomanOk e = true) {R : PyStr}
    (hR : (sameForPre R (u! "HK") = true ∨ sameForPre R (u! "WX") = true) ∨ sameForPre R (u! "SLP1") = true) {s s' : PyStr} (hs : CoreText e s)
    (hr : (PreProcess.PreProcess e.script R [] []).prog.run E s = .ok s') : s' = s := by
  unfold preRomanOk at h
  rw [withNat_eq] at h
  simp only [Bool.and_eq_true, Bool.or_eq_true, List.all_eq_true, natMem_iff] at h
  obtain ⟨⟨⟨⟨⟨⟨h1, h2⟩, h3⟩, h4⟩, h5⟩, -⟩, -⟩ := h
  have hi : InCore (mixSet (maskOf (without (e.letters ++ plainChars) e.notPlain))) e.forbid s := by
    refine ⟨fun c hc => ?_, hs.free⟩
    show (match maskMem _ c with | true => true | false => neuMem c) = true
    rcases hs.chars c hc with h | h | h
    · rw [h1 c h]
    · rcases h2 c h.1 with h' | h'
      · exact absurd h' h.2
      · rw [h']
    · rw [neuMem_eq, h]; split <;> rfl
  rcases hR with (hR | hR) | hR
  · rw [preProcess_tgt hR] at hr
    exact Prog.idle_sound h3 hi hr
  · rw [preProcess_tgt hR] at hr
    exact Prog.idle_sound h4 hi hr
  · rw [preProcess_tgt hR] at hr
    exact Prog.idle_sound h5 hi hr

/-- The conversion of an Indic text to a romanisation. -/
theorem roman_convert {E : Env} {e : CoreEntry} {r : RomanEntry} (fS : CoreFacts e) (hP : preRomanOk e = true) (fR : RomanFacts r)
    (hA : Fits e r) {s : PyStr} (h : RomanText e r s) {nat : Bool} {t : PyStr}
    (hr : (convert e.script r.script nat [] []).prog.run E s = .ok t) :
    t = r.write (romanise e.script r.script s) := by
  have hT : ∀ x ∈ sounds e.script r.script s, SoundOk r x := by
    intro x hx
    obtain ⟨c, hc, rfl⟩ := List.mem_map.1 hx
    exact soundOk_of (h.covered _ hx)
  have hne : e.script ≠ r.script := by
    intro he
    have := indic_notLatin fS.indic
    rw [he, pyIn_of_mem fR.latin] at this
    cases this
  have htT := tgtFull_all (tgt_plain fR.tgt)
  unfold tgtFull at htT
  have hoS := hasHead_om fS.tbl
  have hoT := hasHead_om fR.tbl
  have hL : pyEq r.script (u! "Latn") = false := by
    simp only [Bool.and_eq_true] at htT
    exact (tgtOk_tbl (by first | exact htT.1 | exact htT.1.1 | exact htT.1.1.1 | exact htT.1.1.1.1)).2.2.1
  rw [convert_plain (src_plain fS.src) (tgt_plain fR.tgt) hne,
    plainConvert_pieces fS.tbl fR.tbl hoS hoT hL (kindOf_mem_IL fS.indic fR.latin)] at hr
  obtain ⟨s1, r1, q1⟩ := run_seq (lin_preProcess _ _ _ _) hr
  have e1 := preRomanOk_run hP fR.pre h.core r1
  subst e1
  obtain ⟨s2, r2, q2⟩ := run_seq (lin_script _) q1
  obtain ⟨s3, r3, q3⟩ := run_seq (lin_prefixII _) r2
  have e3 := Prog.idle_sound fS.pfx (fS.inCore h.core) r3
  subst e3
  obtain ⟨s4, r4, q4⟩ := run_seq (lin_midIL _ _) q3
  have e4 : s4 = rawS r.script (fun _ => false) false (sounds e.script r.script s3) := by
    have hom : headSec .OmMap e.script = letterAt e.script .OmMap 0 := by
      unfold headSec letterAt
      cases modAttr e.script .OmMap <;> rfl
    have hom0 : letterAt e.script .OmMap 0 ≠ [] := by
      intro h0
      exact h.om (by rw [h0]; exact List.nil_infix)
    have hsem : pyEq e.script (u! "RomanSemitic") = false := by
      have hP := hP
      unfold preRomanOk at hP
      rw [withNat_eq] at hP
      simp only [Bool.and_eq_true, Bool.not_eq_true'] at hP
      exact hP.1.2
    have r4' : (replaceAll (pairsOf asIs schwaDep e.script r.script)).prog.run E
        (pyReplace s3 (headSec .OmMap e.script) (headSec .OmMap r.script)) = .ok s4 := by
      have : midIL e.script r.script = (do
          replace (headSec .OmMap e.script) (headSec .OmMap r.script)
          replaceAll (pairsOf asIs schwaDep e.script r.script)) := by
        unfold midIL lettersIL
        rw [hsem, branch_false]
      rw [this] at r4
      obtain ⟨s5, r5, q5⟩ := run_seq (by lin) r4
      cases r5
      exact q5
    rw [hom, pyReplace_of_not_infix hom0 h.om, run_replaceAll, roman_rules fS.toLetterFacts fR.tbl fR.vir hA h.core h.covered] at r4'
    cases r4'; rfl
  subst e4
  obtain ⟨s5, r5, q5⟩ := run_seq (lin_headIL _) q4
  obtain ⟨s6, r6, q6⟩ := run_seq (lin_ConvertFix_FixRomanOutput _) r5
  rw [fixOk_run fR.fix hT h.formed h.breath] at r6
  cases r6
  have hin : InCore (mixSet fR.m) r.avoid (romanise e.script r.script s3) := by
    refine ⟨fun c hc => ?_, h.avoid⟩
    obtain ⟨p, hp, hcp⟩ := List.mem_flatten.1 hc
    show (match maskMem fR.m c with | true => true | false => neuMem c) = true
    rcases romanPieces_chars hT p hp c hcp with h | h
    · rw [fR.mask c h]
    · rw [neuMem_eq, h]; split <;> rfl
  have e6 := Prog.idle_sound fR.vedic hin q6
  subst e6
  have hE : endLL e.script r.script = endLL (u! "Devanagari") r.script := by
    unfold endLL
    rw [postFix_class fR.mal, srcClass, fR.own]
  rw [hE] at q5
  have e7 := effectIs_sound fR.post hin q5
  have hin2 : InCore (mixSet fR.m) r.avoid s2 := by
    subst e7
    rcases fR.nothing with h0 | h0
    · rw [h0]; exact hin
    · refine ⟨?_, by rw [h0]; simp⟩
      have : ∀ (L : List (PyStr × PyStr)) (t : PyStr), (∀ p ∈ L, ∀ c ∈ p.2, maskMem fR.m c = true) → Over (mixSet fR.m) t →
          Over (mixSet fR.m) (applyRules L t) := by
        intro L
        induction L with
        | nil => intro t _ ht; exact ht
        | cons p L ih =>
          intro t hL ht
          refine ih _ (fun q hq => hL q (List.mem_cons_of_mem _ hq)) (pyReplace_over ht ?_)
          refine List.all_eq_true.2 fun c hc => ?_
          show (match maskMem fR.m c with | true => true | false => neuMem c) = true
          rw [hL p List.mem_cons_self c hc]
      refine this _ _ (fun p hp c hc => fR.mask c ?_) hin.1
      simp only [RomanEntry.chars, List.mem_append, List.mem_cons, List.mem_flatMap]
      exact .inr (.inr (.inr (.inr (.inr (.inr ⟨p, hp, hc⟩)))))
  have e8 : t = s2 := by
    cases nat with
    | true => exact Prog.idle_sound fR.finT hin2 q2
    | false => exact Prog.idle_sound fR.finF hin2 q2
  rw [e8, e7]
  rfl

/-! ## Letters and spellings fit together -/

/-- Checked form of `Fits`. -/
def fitsOk (e : CoreEntry) (r : RomanEntry) : Bool :=
  withNat (maskOf e.letters) fun l =>
  withNat (maskOf ((soundTable e.script r.script).flatMap fun p =>
      match p.1 with
      | [c] => match maskMem l c with | true => enc p.2 | false => []
      | _ => [])) fun m =>
    (soundTable e.script r.script).all fun p =>
      match p.1 with
      | [d] => match maskMem m d with | true => strEq (enc p.2) [d] | false => true
      | _ => true

theorem fitsOk_sound {e : CoreEntry} {r : RomanEntry} (h : fitsOk e r = true) : Fits e r := by
  unfold fitsOk at h
  rw [withNat_eq, withNat_eq, List.all_eq_true] at h
  rintro ⟨p1, p2⟩ hp d hd ⟨q1, q2⟩ hq c hc hqc - hdm
  dsimp only at hd hqc hdm ⊢
  subst hd hqc
  have h1 := h _ hp
  dsimp only at h1
  have h2 : maskMem (maskOf ((soundTable e.script r.script).flatMap fun p =>
      match p.1 with
      | [c] => match maskMem (maskOf e.letters) c with | true => enc p.2 | false => []
      | _ => [])) d = true := by
    rw [maskMem_eq]
    refine maskOf_mem (List.mem_flatMap.2 ⟨_, hq, ?_⟩)
    dsimp only
    rw [maskMem_eq, maskOf_mem hc]
    exact hdm
  rw [h2] at h1
  exact strEq_iff.1 h1

/-- All characters of covered spellings. -/
def spellChars (r : RomanEntry) : PyStr :=
  cSchwa :: cDep :: cVir :: (r.conss.flatten ++ (r.vowels.flatten ++ r.marks.flatten))

theorem enc_spellChars {r : RomanEntry} {x : Sound} (h : Covered r x) (hn : ∀ c, x ≠ .other c) {d : Nat}
    (hd : d ∈ enc x) : d ∈ spellChars r := by
  unfold spellChars
  simp only [List.mem_cons, List.mem_append, List.mem_flatten]
  cases x with
  | cons y =>
    rcases List.mem_append.1 hd with hd | hd
    · exact .inr (.inr (.inr (.inl ⟨y, h, hd⟩)))
    · exact .inl (List.mem_singleton.1 hd)
  | vowel y =>
    rcases List.mem_cons.1 hd with hd | hd
    · exact .inr (.inl hd)
    · exact .inr (.inr (.inr (.inr (.inl ⟨y, h, hd⟩))))
  | sign y => exact .inr (.inr (.inr (.inr (.inl ⟨y, h, hd⟩))))
  | virama => exact .inr (.inr (.inl (List.mem_singleton.1 hd)))
  | mark y => exact .inr (.inr (.inr (.inr (.inr ⟨y, h, hd⟩))))
  | other c => exact absurd rfl (hn c)

theorem soundTable_not_other {S R : PyStr} {p : PyStr × Sound} (h : p ∈ soundTable S R) (c : Nat) : p.2 ≠ .other c := by
  unfold soundTable at h
  obtain ⟨s, -, h⟩ := List.mem_flatMap.1 h
  obtain ⟨q, -, rfl⟩ := List.mem_map.1 h
  dsimp only
  unfold soundOf
  repeat' split
  all_goals simp

/-- The letters that are characters of spellings stand for themselves. -/
def fitsFast (m : Nat) (S R : PyStr) : Bool :=
  (soundTable S R).all fun p =>
    match p.1 with
    | [d] => match maskMem m d with | true => strEq (enc p.2) [d] | false => true
    | _ => true

theorem fitsFast_sound {e : CoreEntry} {r : RomanEntry}
    (h : fitsFast (Nat.land (maskOf (singles (letterList e.script))) (maskOf (spellChars r))) e.script r.script = true) :
    Fits e r := by
  unfold fitsFast at h
  rw [List.all_eq_true] at h
  rintro ⟨p1, p2⟩ hp d hd ⟨q1, q2⟩ hq c hc hqc hcov hdm
  dsimp only at hd hqc hcov hdm ⊢
  subst hd hqc
  have h1 := h _ hp
  dsimp only at h1
  have h2 := maskOf_mem (enc_spellChars hcov (soundTable_not_other hq) hdm)
  have h3 : [d] ∈ letterList e.script := by
    unfold soundTable at hp
    obtain ⟨s, hs, hp⟩ := List.mem_flatMap.1 hp
    obtain ⟨q, hq, he⟩ := List.mem_map.1 hp
    have : q.1 = [d] := congrArg Prod.fst he
    exact List.mem_flatMap.2 ⟨s, hs, this ▸ (List.of_mem_zip (a := q.1) (b := q.2) hq).1⟩
  have h3 := maskOf_mem (mem_singles h3)
  have : maskMem (Nat.land (maskOf (singles (letterList e.script))) (maskOf (spellChars r))) d = true := by
    rw [maskMem_eq]
    show Nat.testBit (_ &&& _) d = true
    rw [Nat.testBit_and, h2, h3]; rfl
  rw [this] at h1
  exact strEq_iff.1 h1

theorem fitsFast_zero (S R : PyStr) : fitsFast 0 S R = true := by
  unfold fitsFast
  rw [List.all_eq_true]
  rintro ⟨p1, p2⟩ -
  dsimp only
  split
  · rw [maskMem_eq, Nat.zero_testBit]
  · rfl

/-- The pair clashes. -/
def clashOk (S R : PyStr) : Bool := romanClashes.any fun p => strEq p.1 R && strMem S p.2

theorem clashOk_iff {S R : PyStr} : clashOk S R = false ↔ Apt S R := by
  unfold clashOk Apt
  rw [List.any_eq_false]
  constructor
  · intro h p hp he hm
    exact h p hp (by rw [Bool.and_eq_true]; exact ⟨strEq_iff.2 he, strMem_iff.2 hm⟩)
  · intro h p hp hb
    rw [Bool.and_eq_true] at hb
    exact h p hp (strEq_iff.1 hb.1) (strMem_iff.1 hb.2)

end Verif
