import Verif.Lib.RomanGlue
import Verif.Lib.RomanOut
import Verif.Lib.Undo

/-!
# Reading romanised text: the conversion
-/

namespace Verif

/-- Sequences that come with the other way of writing separated vowels cannot be read as letters. -/
def hiatusOk (r : RomanEntry) : Bool :=
  undoOk r.hiatus && r.hiatus.all fun p => p.2.any fun c => !(natMem c r.readChars) && !(isNeutral c)

/-- What is checked of a romanisation that is read. -/
structure ReadFacts (r : RomanEntry) : Prop where
  rules : ReadRules r
  src : r.script ∈ sourceScripts
  latin : r.script ∈ GM.LatinScripts
  prog : readPreOk r = true
  macrons : macronsOk r = true
  hiatus : hiatusOk r = true

def readOk (r : RomanEntry) : Bool :=
  strMem r.script sourceScripts && strMem r.script GM.LatinScripts && hasTbl r.script && macronsOk r && hiatusOk r

theorem readFacts {r : RomanEntry} (h : readOk r = true) (h1 : readRulesOk r = true) (h2 : readPreOk r = true) : ReadFacts r := by
  simp only [readOk, Bool.and_eq_true, strMem_iff] at h
  obtain ⟨⟨⟨⟨a1, a2⟩, a3⟩, a4⟩, a5⟩ := h
  exact ⟨readRules a3 h1, a1, a2, h2, a4, a5⟩

/-! ## The pieces of readable text -/

theorem read_piece {e : CoreEntry} {r : RomanEntry} {s : PyStr} (h : RomanText e r s) {p : PyStr}
    (hp : p ∈ romanPieces r.script (sounds e.script r.script s)) :
    p ∈ r.conss ∨ p ∈ r.vowels ∨ p ∈ r.marks ∨ p = u! "_" ∨ p = inherentA r.script ∨
      ∃ c, p = [c] ∧ (c ∈ r.free ∨ isNeutral c = true) := by
  rcases pieces_mem hp with rfl | rfl | ⟨x, hx, hy⟩
  · exact .inr (.inr (.inr (.inr (.inl rfl))))
  · exact .inr (.inr (.inr (.inl rfl)))
  · have hc := h.covered x hx
    cases x with
    | virama => cases hy
    | cons y => cases hy; exact .inl hc
    | vowel y => cases hy; exact .inr (.inl hc)
    | sign y => cases hy; exact .inr (.inl hc)
    | mark y => cases hy; exact .inr (.inr (.inl hc))
    | other c => cases hy; exact .inr (.inr (.inr (.inr (.inr ⟨c, rfl, hc⟩))))

theorem read_char {e : CoreEntry} {r : RomanEntry} {s : PyStr} (h : Readable e r s) {c : Nat}
    (hc : c ∈ romanise e.script r.script s) : c ∈ r.readChars ∨ isNeutral c = true := by
  obtain ⟨p, hp, hcp⟩ := List.mem_flatten.1 hc
  have ho := h.plain c hc
  have hf : ∀ {l : PyStr}, c ∈ l → c ∈ l.filter fun c => !(natMem c r.oneWay) := by
    intro l hl
    refine List.mem_filter.2 ⟨hl, ?_⟩
    cases hm : natMem c r.oneWay with
    | true => exact absurd (natMem_iff.1 hm) ho
    | false => rfl
  rcases read_piece h.toRomanText hp with h1 | h1 | h1 | rfl | rfl | ⟨d, rfl, h1⟩
  · exact .inl (hf (List.mem_append_left _ (List.mem_flatten.2 ⟨p, h1, hcp⟩)))
  · exact .inl (hf (List.mem_append_right _ (List.mem_append_left _ (List.mem_flatten.2 ⟨p, h1, hcp⟩))))
  · exact .inl (hf (List.mem_append_right _ (List.mem_append_right _ (List.mem_append_left _ (List.mem_flatten.2 ⟨p, h1, hcp⟩)))))
  · refine .inl (hf (List.mem_append_right _ (List.mem_append_right _ (List.mem_append_right _ (List.mem_append_right _ ?_)))))
    have : c = cSep := List.mem_singleton.1 hcp
    rw [this]; exact List.mem_cons_self
  · exact .inl (hf (List.mem_append_right _ (List.mem_append_right _ (List.mem_append_right _ (List.mem_append_right _
      (List.mem_cons_of_mem _ hcp))))))
  · rw [List.mem_singleton] at hcp
    subst hcp
    rcases h1 with h1 | h1
    · exact .inl (hf (List.mem_append_right _ (List.mem_append_right _ (List.mem_append_right _ (List.mem_append_left _ h1)))))
    · exact .inr h1

theorem read_spelt {e : CoreEntry} {r : RomanEntry} {s : PyStr} (h : Readable e r s) : Spelt r (romanise e.script r.script s) :=
  ⟨_, rfl, fun p hp => ⟨fun c hc => h.plain c (List.mem_flatten.2 ⟨p, hp, hc⟩), read_piece h.toRomanText hp⟩⟩

theorem pair_flatten {x y : Nat} {P : List PyStr} (h : [x, y] <:+: P.flatten) :
    (∃ p ∈ P, [x, y] <:+: p) ∨ ∃ p ∈ P, p.head? = some y := by
  have head : ∀ (Q : List PyStr) (w : PyStr), [y] ++ w = Q.flatten → ∃ p ∈ Q, p.head? = some y := by
    intro Q
    induction Q with
    | nil => intro w h; cases h
    | cons q Q ih =>
      intro w h
      cases q with
      | nil => obtain ⟨p, hp, hh⟩ := ih w h; exact ⟨p, List.mem_cons_of_mem _ hp, hh⟩
      | cons a q =>
        rw [List.flatten_cons, List.cons_append, List.cons_append] at h
        cases h
        exact ⟨_, List.mem_cons_self, rfl⟩
  induction P with
  | nil => simp at h
  | cons q P ih =>
    have rest : [x, y] <:+: P.flatten → (∃ p ∈ q :: P, [x, y] <:+: p) ∨ ∃ p ∈ q :: P, p.head? = some y := by
      intro h
      rcases ih h with ⟨p, hp, h⟩ | ⟨p, hp, h⟩
      · exact .inl ⟨p, List.mem_cons_of_mem _ hp, h⟩
      · exact .inr ⟨p, List.mem_cons_of_mem _ hp, h⟩
    have inq : ∀ t, [x, y] <:+: t ++ P.flatten → t <:+ q → (∃ p ∈ q :: P, [x, y] <:+: p) ∨ ∃ p ∈ q :: P, p.head? = some y := by
      intro t
      induction t with
      | nil => intro h _; exact rest h
      | cons c t iht =>
        intro h hs
        rw [List.cons_append] at h
        rcases List.infix_cons_iff.1 h with h | h
        · obtain ⟨w, hw⟩ := h
          cases t with
          | nil =>
            simp only [List.cons_append, List.nil_append, List.cons.injEq] at hw
            obtain ⟨p, hp, hh⟩ := head P w hw.2
            exact .inr ⟨p, List.mem_cons_of_mem _ hp, hh⟩
          | cons d t =>
            simp only [List.cons_append, List.nil_append, List.cons.injEq] at hw
            obtain ⟨rfl, rfl, -⟩ := hw
            exact .inl ⟨q, List.mem_cons_self, (List.prefix_append [x, y] t).isInfix.trans hs.isInfix⟩
        · exact iht h ((List.suffix_cons c t).trans hs)
    exact inq q h (List.suffix_refl _)

theorem read_macrons {e : CoreEntry} {r : RomanEntry} (hm : macronsOk r = true) {s : PyStr} (h : RomanText e r s) :
    ∀ f ∈ looseMacrons, ¬ f <:+: romanise e.script r.script s := by
  intro f hf hi
  have := List.all_eq_true.1 hm f hf
  split at this
  · rename_i x y
    simp only [Bool.and_eq_true, List.all_eq_true, Bool.not_eq_true'] at this
    obtain ⟨hn, hp⟩ := this
    have inP : ∀ p ∈ romanPieces r.script (sounds e.script r.script s), p ∈ r.pieces ∨ ∃ c, p = [c] ∧ isNeutral c = true := by
      intro p hp
      unfold RomanEntry.pieces
      rcases read_piece h hp with h1 | h1 | h1 | rfl | rfl | ⟨c, rfl, h1 | h1⟩
      · left; simp [h1]
      · left; simp [h1]
      · left; simp [h1]
      · left; simp
      · left; simp
      · left; simp [h1]
      · exact .inr ⟨c, rfl, h1⟩
    rcases pair_flatten hi with ⟨p, hpm, hpi⟩ | ⟨p, hpm, hph⟩
    · rcases inP p hpm with h1 | ⟨c, rfl, -⟩
      · have := (hp p h1).1
        rw [isInfix_iff.2 hpi] at this; cases this
      · have := hpi.length_le; simp at this
    · rcases inP p hpm with h1 | ⟨c, rfl, hc⟩
      · have := (hp p h1).2
        cases p with
        | nil => cases hph
        | cons d p =>
          cases hph
          simp only [Bool.not_eq_true'] at this
          exact natBeq_false this rfl
      · cases hph
        rw [hc] at hn; cases hn
  · cases this

theorem read_inCore {e : CoreEntry} {r : RomanEntry} (hm : macronsOk r = true) {s : PyStr} (h : Readable e r s) :
    InCore (mixSet (maskOf r.readChars)) (readAvoid r) (romanise e.script r.script s) := by
  refine ⟨fun c hc => ?_, fun f hf => ?_⟩
  · show (match maskMem (maskOf r.readChars) c with | true => true | false => neuMem c) = true
    rcases read_char h hc with h1 | h1
    · rw [maskMem_eq, maskOf_mem h1]
    · rw [neuMem_eq, h1]; split <;> rfl
  · rcases List.mem_append.1 hf with hf | hf
    · exact h.codes f hf
    · exact read_macrons hm h.toRomanText f hf

theorem write_mem {H : List (PyStr × PyStr)} {t : PyStr} {c : Nat} (h : c ∈ H.foldl (fun t p => pyReplace t p.1 p.2) t) :
    c ∈ t ∨ c ∈ H.flatMap Prod.snd := by
  induction H generalizing t with
  | nil => exact .inl h
  | cons p H ih =>
    rw [List.flatMap_cons]
    rcases ih h with h | h
    · rcases pyReplace_mem h with h | h
      · exact .inl h
      · exact .inr (List.mem_append_left _ h)
    · exact .inr (List.mem_append_right _ h)

theorem write_inCore {e : CoreEntry} {r : RomanEntry} {s : PyStr} (h : Readable e r s) :
    InCore (mixSet (maskOf (r.readChars ++ r.hiatus.flatMap Prod.snd))) [] (r.write (romanise e.script r.script s)) := by
  refine ⟨fun c hc => ?_, fun f hf => by cases hf⟩
  show (match maskMem _ c with | true => true | false => neuMem c) = true
  have : c ∈ r.readChars ++ r.hiatus.flatMap Prod.snd ∨ isNeutral c = true := by
    rcases write_mem hc with h1 | h1
    · exact (read_char h h1).imp (List.mem_append_left _) id
    · exact .inl (List.mem_append_right _ h1)
  rcases this with h1 | h1
  · rw [maskMem_eq, maskOf_mem h1]
  · rw [neuMem_eq, h1]; split <;> rfl

theorem write_undo {e : CoreEntry} {r : RomanEntry} (F : ReadFacts r) {s : PyStr} (h : Readable e r s) :
    applyRules (r.hiatus.map fun p => (p.2, p.1)) (r.write (romanise e.script r.script s)) = romanise e.script r.script s := by
  have H := F.hiatus
  simp only [hiatusOk, Bool.and_eq_true, List.all_eq_true, List.any_eq_true, Bool.not_eq_true'] at H
  refine undoOk_sound H.1 fun p hp hi => ?_
  obtain ⟨c, hc, h1, h2⟩ := H.2 p hp
  rcases read_char h (hi.subset hc) with h3 | h3
  · rw [natMem_iff.2 h3] at h1; cases h1
  · rw [h3] at h2; cases h2

/-! ## The conversion -/

theorem omPats_run {E : Env} {A : CharSet} {F : List PyStr} {punc om tOm : PyStr} (h : omPatsOk A F punc om = true)
    {s s' : PyStr} (hs : InCore A F s) (hr : (omSubs punc om tOm).prog.run E s = .ok s') : s' = s := by
  simp only [omPatsOk, Bool.and_eq_true] at h
  obtain ⟨⟨⟨h1, h2⟩, h3⟩, h4⟩ := h
  have hr : (Prog.sub (punc ++ om ++ punc) _ (Prog.sub _ _ (Prog.sub _ _ (Prog.sub _ _ .done)))).run E s = .ok s' := hr
  have := patIdle_run h4 hs (patIdle_run h3 hs (patIdle_run h2 hs (patIdle_run h1 hs hr)))
  cases this; rfl

theorem read_pre {E : Env} {e : CoreEntry} {r : RomanEntry} (F : ReadFacts r) (hK : E.KeepsSpelt r) {s : PyStr} (h : Readable e r s)
    {T t : PyStr} (hT : readProgAt (maskOf r.readChars) (maskOf (r.readChars ++ r.hiatus.flatMap Prod.snd)) r T = true)
    (hr : (PreProcess.PreProcess r.script T [] []).prog.run E (r.write (romanise e.script r.script s)) = .ok t) :
    t = romanise e.script r.script s := by
  have k1 := kept_of hK (read_spelt h) (x := r.write (romanise e.script r.script s)) (by simp)
  have k2 := kept_of hK (read_spelt h) (x := romanise e.script r.script s) (by simp)
  unfold readProgAt at hT
  have hu := write_undo F h
  split at hT
  · rename_i he
    have hw : r.write (romanise e.script r.script s) = romanise e.script r.script s := by unfold RomanEntry.write; rw [he]; rfl
    rw [hw] at hr
    exact Prog.still_sound hT (read_inCore F.macrons h) k2 hr
  · have := Prog.applies_sound hT (write_inCore h) (by rw [hu]; exact read_inCore F.macrons h) k1 (by rw [hu]; exact k2) hr
    rw [this, hu]

/-- The replacement of Om leaves the text alone. -/
def OmStill (E : Env) (r : RomanEntry) (t : PyStr) : Prop :=
  ∀ punc, punc = omPunc (lettersOf r.script GM.Signs) ∨ punc = u! "(\\s)" → ∀ tOm s',
    (omSubs punc (headSec .OmMap r.script) tOm).prog.run E t = .ok s' → s' = t

theorem omStill_of {E : Env} {e : CoreEntry} {r : RomanEntry} (ho : readOmOk r = true) (hm : macronsOk r = true) {s : PyStr}
    (h : Readable e r s) : OmStill E r (romanise e.script r.script s) := by
  unfold readOmOk at ho
  rw [withNat_eq, Bool.and_eq_true] at ho
  rintro punc (rfl | rfl) tOm s' hr
  · exact omPats_run ho.1 (read_inCore hm h) hr
  · exact omPats_run ho.2 (read_inCore hm h) hr

/-- The conversion proper. -/
theorem read_script {E : Env} {e e' : CoreEntry} {r : RomanEntry} (fS : LetterFacts e) (fT : CoreFacts e') (hcl : clearOfInter e' = true)
    (hsh : shortAlike e' = true) (R : ReadRules r) (hm : macronsOk r = true) 
    (p3 : (preLI r.script).prog.still (mixSet (maskOf r.readChars)) (readAvoid r) (keptHosts r) = true)
    (hK : E.KeepsSpelt r) {s : PyStr} (h : Readable e r s) (hO : OmStill E r (romanise e.script r.script s))
    (hc' : CoreText e' (respell e.script e'.script s)) {t : PyStr}
    (hr : (scriptPieces r.script e'.script .LI).prog.run E (romanise e.script r.script s) = .ok t) :
    t = respell e.script e'.script s := by
  have hin := read_inCore hm h
  obtain ⟨s3, r3, q3⟩ := run_seq (lin_preLI _) hr
  have e3 : s3 = romanise e.script r.script s := by
    exact Prog.still_sound p3 hin (kept_of hK (read_spelt h) (by simp)) r3
  subst e3
  obtain ⟨s4, r4, q4⟩ := run_seq (lin_midLI _ _) q3
  obtain ⟨s5, r5, q5⟩ := run_seq (Lin.omSubs _ _ _) r4
  have e5 := hO _ (.inl rfl) _ _ r5
  subst e5
  obtain ⟨s6, r6, q6⟩ := run_seq (Lin.omSubs _ _ _) q5
  have e6 := hO _ (.inr rfl) _ _ r6
  subst e6
  obtain ⟨s7, r7, q7⟩ := run_seq (Lin.replaceAll _) q6
  rw [run_replaceAll, read_inter fS R h] at r7
  cases r7
  obtain ⟨s8, r8, q8⟩ := run_seq lin_midInter q7
  rw [midInter_run (fun c hc => (charRead fS R h hc).item) h.formed] at r8
  cases r8
  rw [run_replaceAll, inter_target fS fT.toLetterFacts hcl R h hc'] at q8
  cases q8
  obtain ⟨s9, r9, q9⟩ := run_seq (lin_postLI _) q4
  rw [postLI_run fS fT hcl hsh R h hc'] at r9
  cases r9
  exact Prog.idle_sound fT.fin (fT.inCore hc') q9

/-- The conversion of a romanised text. -/
theorem read_convert {E : Env} {e e' : CoreEntry} {r : RomanEntry} (fS : LetterFacts e) (fT : CoreFacts e') (hcl : clearOfInter e' = true)
    (hsh : shortAlike e' = true) (F : ReadFacts r) (hK : E.KeepsSpelt r) {s : PyStr} (h : Readable e r s)
    (hO : OmStill E r (romanise e.script r.script s))
    (hc' : CoreText e' (respell e.script e'.script s)) {nat : Bool} (hn : nat = true → NativeText e' (respell e.script e'.script s))
    {t : PyStr} (hr : (convert r.script e'.script nat [] []).prog.run E (r.write (romanise e.script r.script s)) = .ok t) :
    t = respell e.script e'.script s := by
  have hne : r.script ≠ e'.script := by
    intro he
    have := indic_notLatin fT.indic
    rw [← he, pyIn_of_mem F.latin] at this
    cases this
  have htT := tgtFull_all (tgt_plain fT.tgt)
  unfold tgtFull at htT
  have hoS := hasHead_om F.rules.tbl
  have hoT := hasHead_om fT.tbl
  have hL : pyEq e'.script (u! "Latn") = false := by
    simp only [Bool.and_eq_true] at htT
    exact (tgtOk_tbl (by first | exact htT.1 | exact htT.1.1 | exact htT.1.1.1 | exact htT.1.1.1.1)).2.2.1
  rw [convert_plain (src_plain F.src) (tgt_plain fT.tgt) hne,
    plainConvert_pieces F.rules.tbl fT.tbl hoS hoT hL (kindOf_mem_LI F.latin fT.indic)] at hr
  have hP := F.prog
  unfold readPreOk at hP
  rw [withNat_eq, withNat_eq] at hP
  simp only [Bool.and_eq_true] at hP
  obtain ⟨⟨p1, p2⟩, p3⟩ := hP
  obtain ⟨s1, r1, q1⟩ := run_seq (lin_preProcess _ _ _ _) hr
  have e1 : s1 = romanise e.script r.script s := by
    rcases fT.pre with hp | hp
    · rw [preProcess_tgt hp] at r1
      exact read_pre F hK h p1 r1
    · rw [preProcess_tgt hp] at r1
      exact read_pre F hK h p2 r1
  subst e1
  obtain ⟨s2, r2, q2⟩ := run_seq (lin_script _) q1
  have e2 := read_script fS fT hcl hsh F.rules F.macrons p3 hK h hO hc' r2
  subst e2
  cases nat with
  | false => exact Prog.idle_sound fT.finF (fT.inCore hc') q2
  | true =>
    rcases fT.finT with hf | hf
    · exact absurd (List.nil_infix) ((hn rfl).free [] hf)
    · exact Prog.idle_sound hf (fT.inCoreN hc' (hn rfl)) q2

end Verif
