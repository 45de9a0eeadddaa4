import Verif.Lib.SemConv
import Verif.Lib.UnknownRun

/-!
# Conversion between Semitic scripts goes letter by letter
-/

namespace Verif

theorem run_step {g h : Gen Unit} (hl : Lin g) {E : Env} {s t : PyStr} (hg : g.prog.run E s = .ok t) :
    (g >>= fun _ => h).prog.run E s = h.prog.run E t := by
  rw [hl.prog_seq, Prog.run_append, hg]

theorem lin_semRead (S T : PyStr) : Lin (semRead S T) := by
  unfold semRead tryFixSemiticReverse Gim.preprocess Gim.toLatin
  lin
  split
  · exact Lin.tryAttr _
  · exact Lin.pure _

theorem lin_fixSemitic (T : PyStr) : Lin (fixSemiticOutput T T) := by
  unfold fixSemiticOutput
  refine Lin.bind (by lin) fun _ => ?_
  split
  · rename_i f hf
    have : (T, f) ∈ fixSemiticFns := dictGet?_some hf
    simp only [fixSemiticFns, List.mem_cons, Prod.mk.injEq, List.not_mem_nil, or_false] at this
    rcases this with ⟨-, rfl⟩ | ⟨-, rfl⟩ | ⟨-, rfl⟩ | ⟨-, rfl⟩ | ⟨-, rfl⟩ | ⟨-, rfl⟩ | ⟨-, rfl⟩ | ⟨-, rfl⟩ <;>
      simp only [ConvertFix.FixThaa, ConvertFix.FixArab_Ur, ConvertFix.FixArab_Fa, ConvertFix.FixLatn, ConvertFix.FixArab,
        ConvertFix.FixHebr, ConvertFix.FixSogd, ConvertFix.FixUgar, ConvertFix.PersoArabicPuntuation] <;> lin
  · exact Lin.pure _

theorem lin_semWrite (T : PyStr) : Lin (semWrite T) := by
  unfold semWrite
  refine Lin.bind ?_ fun _ => Lin.bind ?_ fun _ => Lin.bind ?_ fun _ => ?_
  · unfold Gim.fromLatin; lin
  · unfold Gim.postprocess; lin
  · exact lin_fixSemitic T
  · unfold PostProcess.default; lin

/-! ## Tables -/

theorem flatMap_single (s : PyStr) : s.flatMap (fun c => [c]) = s := by
  induction s with
  | nil => rfl
  | cons c s ih => simp [ih]

theorem mem_oneEach {l : PyStr} {t : PyStr} : t ∈ oneEach l ↔ ∃ c ∈ l, t = [c] := by
  simp [oneEach, eq_comm]

theorem single_oneEach {l : PyStr} {c : Nat} : [c] ∈ oneEach l ↔ c ∈ l := by
  simp [oneEach]

theorem dictGet_lookup (K : List (PyStr × PyStr)) (t : PyStr) : dictGet? K t = K.lookup t := by
  induction K with
  | nil => rfl
  | cons p K ih =>
    obtain ⟨a, b⟩ := p
    simp only [dictGet?, List.lookup]
    by_cases e : t = a
    · subst e
      rw [strEq_iff.2 rfl]
      simp
    · rw [strEq_false.2 fun h => e h.symm]
      have : (t == a) = false := by simpa using e
      simp only [this]
      exact ih

theorem tokIs_image {K : List (PyStr × PyStr)} {t y z : PyStr} (h : tokIs K t y = true) (hz : K.lookup t = some z) : z = y := by
  unfold tokIs at h
  rw [dictGet_lookup, hz] at h
  exact strEq_iff.1 h

theorem keysOff_none {m : Nat} {d : List (PyStr × PyStr)} (h : keysOff m d = true) {c : Nat} (hc : Inert m c) :
    dictGet? d [c] = none := by
  rw [dictGet?_none]
  induction d with
  | nil => simp
  | cons p d ih =>
    unfold keysOff at h
    intro q hq
    split at h
    · rename_i e he
      split at h
      · cases h
      · rename_i h1
        split at h
        · cases h
        · rename_i h2
          rcases List.mem_cons.1 hq with rfl | hq
          · rw [he]
            intro hce
            cases hce
            rw [maskMem_eq] at h1
            rw [neuMem_eq] at h2
            rcases hc with hc | hc
            · rw [h1] at hc; cases hc
            · rw [h2] at hc; cases hc
          · exact ih h q hq
    · rename_i he
      rcases List.mem_cons.1 hq with rfl | hq
      · intro hce
        exact he c hce
      · exact ih h q hq

theorem keysApart_get {m : Nat} {d : List (PyStr × PyStr)} (h : keysApart m d = true) {c : Nat} {y : PyStr}
    (hm : ([c], y) ∈ d) : m.testBit c = false ∧ dictGet? d [c] = some y := by
  induction d generalizing m with
  | nil => cases hm
  | cons p d ih =>
    obtain ⟨a, b⟩ := p
    unfold keysApart at h
    split at h
    · rename_i e he
      replace he : a = [e] := he
      subst he
      split at h
      · cases h
      · rename_i h1
        rw [withNat_eq] at h
        rw [maskMem_eq] at h1
        rcases List.mem_cons.1 hm with h2 | h2
        · cases h2
          refine ⟨h1, ?_⟩
          simp only [dictGet?]
          rw [strEq_iff.2 rfl, cond_true]
        · obtain ⟨i1, i2⟩ := ih h h2
          have i1 : (m ||| 1 <<< e).testBit c = false := i1
          rw [Nat.testBit_or, Bool.or_eq_false_iff] at i1
          refine ⟨i1.1, ?_⟩
          have : e ≠ c := by
            rintro rfl
            have := i1.2
            simp [Nat.testBit_shiftLeft] at this
          simp only [dictGet?]
          rw [strEq_false.2 (by simpa using this)]
          exact i2
    · rename_i he
      rcases List.mem_cons.1 hm with h2 | h2
      · cases h2
        exact absurd rfl (he c)
      · obtain ⟨i1, i2⟩ := ih h h2
        refine ⟨i1, ?_⟩
        simp only [dictGet?]
        rw [strEq_false.2 (he c)]
        exact i2

theorem semiticLetters_mem {S : PyStr} {c : Nat} (h : c ∈ semiticLetters S) :
    ∃ l, ([c], l) ∈ toLatinTable S ∧ l ∈ latinSigns := by
  obtain ⟨⟨a, b⟩, hp, hc⟩ := List.mem_flatMap.1 h
  simp only at hc
  split at hc
  · split at hc
    · rename_i d _ hs
      rcases List.mem_singleton.1 hc with rfl
      exact ⟨b, hp, strMem_iff.1 hs⟩
    · cases hc
  · cases hc

theorem letter_plain {c : Nat} (h : isAsciiLetter c = true) : c ∈ romanPlain := by
  refine List.mem_filter.2 ⟨?_, h⟩
  have hk : ∀ c < 128, isAsciiLetter c = true → natMem c plainChars = true := by decide +kernel
  refine natMem_iff.1 (hk c ?_ h)
  simp [isAsciiLetter] at h
  omega

theorem other_mem {c : Nat} : c ∈ otherPlain ↔ c ∈ plainChars ∧ isAsciiLetter c = false := by
  simp [otherPlain, List.mem_filter]

/-- A plain character is a Roman letter, a digit or punctuation. -/
theorem plain_cases {c : Nat} (h : c ∈ plainChars) (hl : isAsciiLetter c = false) :
    c ∈ (u! "0123456789") ∨ c ∈ puncts := by
  have hk : plainChars.all (fun c => isAsciiLetter c || natMem c (u! "0123456789") || natMem c puncts) = true := by decide +kernel
  have := List.all_eq_true.1 hk c h
  rw [hl, Bool.false_or, Bool.or_eq_true, natMem_iff, natMem_iff] at this
  exact this

/-- Signs, shields and punctuation have nothing in common. -/
theorem shields_apart : shields.all (fun d => !(strMem [d] latinSigns) && !(natMem d puncts) && !(neuMem d)) = true := by
  decide +kernel

theorem puncts_apart : puncts.all (fun d => !(strMem [d] latinSigns)) = true := by decide +kernel

theorem digits_signs : (u! "0123456789").all (fun d => strMem [d] latinSigns) = true := by decide +kernel

theorem signs_notNeutral : keysOff 0 (latinSigns.map fun l => (l, l)) = true := by decide +kernel

theorem own_notNeutral : semiticNames.all (fun T => keysOff 0 (ownSigns T true)) = true := by decide +kernel

theorem own_notShield : (withNat (maskOf shields) fun H => semiticNames.all fun T => keysOff H (ownSigns T true)) = true := by
  decide +kernel

theorem out_noShield : (withNat (maskOf (semiticNames.flatMap outChars)) fun m => shields.all fun d => !(maskMem m d)) = true := by
  decide +kernel

theorem shield_inj : romanPlain.all (fun c => romanPlain.all fun d => Nat.beq c d || !(strEq (shieldOf c) (shieldOf d))) = true := by
  decide +kernel

theorem shield_one : romanPlain.all (fun c => shieldOk.isOne (shieldOf c)) = true := by decide +kernel

theorem shield_spec {c : Nat} (h : isAsciiLetter c = true) : ∃ d, shieldOf c = [d] ∧ d ∈ shields := by
  have := List.all_eq_true.1 shield_one c (letter_plain h)
  unfold shieldOk.isOne at this
  split at this
  · rename_i d hd
    exact ⟨d, hd, List.mem_flatMap.2 ⟨c, letter_plain h, by rw [hd]; simp⟩⟩
  · cases this


theorem bit_or {a b c : Nat} : (Nat.lor a b).testBit c = true ↔ a.testBit c = true ∨ b.testBit c = true := by
  show (a ||| b).testBit c = true ↔ _
  rw [Nat.testBit_or, Bool.or_eq_true]

theorem bit_maskOf {l : PyStr} {c : Nat} : (maskOf l).testBit c = true ↔ c ∈ l := ⟨mem_of_mask, maskOf_mem⟩

theorem steady_chars {E : Env} (hE : E.SemiticOps) : E.Steady (maskOf semiticChars) :=
  ⟨fun s hs => hE.nfd s fun c hc => (hs c hc).imp_left bit_maskOf.1, fun c hc => hE.mark c (hc.imp_left bit_maskOf.1)⟩

theorem steady_none {E : Env} (hE : E.SemiticOps) : E.Steady 0 :=
  ⟨fun s hs => hE.nfd s fun c hc => .inr ((hs c hc).resolve_left (by simp)),
   fun c hc => hE.mark c (.inr (hc.resolve_left (by simp)))⟩

/-- A checked piece of program that leaves texts alone. -/
theorem runsOk_idle {E : Env} {I M : Nat} (hE : E.Steady M) {p : Prog} {chk : List (PyStr × PyStr) → Bool}
    (h : runsOk I M p [] chk = true) {s : PyStr} (hs : ∀ c ∈ s, Inert I c) : p.run E s = .ok s := by
  have := runsOk_stage hE h (s := s) (f := fun c => [c]) (g := fun c => [c])
    (fun c hc => .inr ⟨by simp, c, rfl, hs c hc⟩) (by simp) (by simp)
  rwa [flatMap_single] at this

/-- Characters of a text before a conversion from `S`. -/
def SemChar (S : PyStr) (c : Nat) : Prop := c ∈ semiticLetters S ∨ c ∈ plainChars ∨ isNeutral c = true

theorem neutral_notLetter {c : Nat} (h : isNeutral c = true) : isAsciiLetter c = false := by
  cases hl : isAsciiLetter c with
  | false => rfl
  | true =>
    have hk : romanPlain.all (fun c => !(neuMem c)) = true := by decide +kernel
    have := List.all_eq_true.1 hk c (letter_plain hl)
    rw [neuMem_eq, h] at this
    cases this

theorem sameForPre_reps : semiticNames.all (fun T => sameForPre T (u! "Armi") || sameForPre T (u! "Syre")) = true := by
  decide +kernel

theorem run_before {E : Env} (hE : E.SemiticOps) {S T : PyStr} (hS : S ∈ semiticNames) (hT : T ∈ semiticNames) {s : PyStr}
    (hs : ∀ c ∈ s, SemChar S c) : (semBefore S T).prog.run E s = .ok s := by
  have key : ∀ T', semBeforeOk S T' = true → (semBefore S T').prog.run E s = .ok s := by
    intro T' h
    unfold semBeforeOk at h
    rw [withNat_eq] at h
    refine runsOk_idle (steady_none hE) h fun c hc => ?_
    rcases hs c hc with h | h | h
    · exact .inl (bit_maskOf.2 (List.mem_append_left _ h))
    · exact .inl (bit_maskOf.2 (List.mem_append_right _ h))
    · exact .inr h
  have h1 := List.all_eq_true.1 semBefore_all S hS
  rw [Bool.and_eq_true] at h1
  have h2 := List.all_eq_true.1 sameForPre_reps T hT
  rw [Bool.or_eq_true] at h2
  unfold semBefore
  rcases h2 with h2 | h2
  · rw [preProcess_tgt h2]; exact key _ h1.1
  · rw [preProcess_tgt h2]; exact key _ h1.2

/-- After the Roman letters have been shielded. -/
def stage1 (c : Nat) : PyStr := match isAsciiLetter c with | true => shieldOf c | false => [c]

/-- After the letters have been turned into Latin signs. -/
def stage2 (S : PyStr) (c : Nat) : PyStr := match isAsciiLetter c with | true => shieldOf c | false => latinSign S c

/-- After the signs have been turned into letters. -/
def stage3 (S T : PyStr) (nat : Bool) (c : Nat) : PyStr :=
  match isAsciiLetter c with | true => shieldOf c | false => signImage T nat (latinSign S c)

theorem run_shield {E : Env} (hE : E.SemiticOps) {S : PyStr} (hS : S ∈ semiticNames) {s : PyStr}
    (hs : ∀ c ∈ s, SemChar S c) : (PreProcess.retainLatin false).prog.run E s = .ok (s.flatMap stage1) := by
  have h := shieldOk_true
  unfold shieldOk at h
  rw [withNat_eq] at h
  have := runsOk_stage (steady_none hE) h (s := s) (f := fun c => [c]) (g := stage1) ?_ ?_ ?_
  · rwa [flatMap_single] at this
  · intro c hc
    cases hl : isAsciiLetter c with
    | true => exact .inl (single_oneEach.2 (letter_plain hl))
    | false =>
      refine .inr ⟨fun hm => ?_, c, rfl, ?_⟩
      · have := (List.mem_filter.1 (single_oneEach.1 hm)).2
        rw [hl] at this; cases this
      · rcases hs c hc with h | h | h
        · exact .inl (bit_maskOf.2 (List.mem_append_left _ (List.mem_flatMap.2 ⟨S, hS, h⟩)))
        · exact .inl (bit_maskOf.2 (List.mem_append_right _ (other_mem.2 ⟨h, hl⟩)))
        · exact .inr h
  · intro K hK c hc hm y hy
    have hr := single_oneEach.1 hm
    have h1 := List.all_eq_true.1 hK c hr
    rw [Bool.and_eq_true] at h1
    rw [tokIs_image h1.1 hy]
    unfold stage1
    rw [(List.mem_filter.1 hr).2]
  · intro c hc hm
    unfold stage1
    cases hl : isAsciiLetter c with
    | true => exact absurd (single_oneEach.2 (letter_plain hl)) hm
    | false => rfl

theorem letter_notKey {S : PyStr} {I c : Nat} (h : keysOff I (toLatinTable S) = true) (hc : Inert I c) :
    c ∉ semiticLetters S := by
  intro hm
  obtain ⟨l, hl, -⟩ := semiticLetters_mem hm
  exact dictGet?_none.1 (keysOff_none h hc) _ hl rfl

theorem stage2_neutral {S : PyStr} {I c : Nat} (h : keysOff I (toLatinTable S) = true) (hc : Inert I c) :
    latinSign S c = [c] := by
  unfold latinSign
  rw [keysOff_none h hc]

/-- What the check of the first half gives. -/
structure SignFacts (S : PyStr) : Prop where
  inert : ∀ c, SemChar S c → isAsciiLetter c = false → c ∉ semiticLetters S → latinSign S c = [c]
  sign : ∀ c ∈ semiticLetters S, latinSign S c ∈ latinSigns

theorem readOk_parts {M P : Nat} {S T : PyStr} (h : semReadOk M P S T = true) :
    keysOff (Nat.lor P (maskOf (plainDigits S))) (toLatinTable S) = true ∧ keysApart 0 (toLatinTable S) = true ∧
    runsOk (Nat.lor P (maskOf (plainDigits S))) M (semRead S T).prog (oneEach (semiticLetters S)) (fun K =>
      (semiticLetters S).all (fun c => tokIs K [c] (latinSign S c))) = true := by
  unfold semReadOk at h
  rw [withNat_eq, Bool.and_eq_true, Bool.and_eq_true] at h
  exact ⟨h.1.1, h.1.2, h.2⟩

theorem plain_inert {S : PyStr} {c : Nat} (hc : SemChar S c) (hl : isAsciiLetter c = false) (hm : c ∉ semiticLetters S) :
    Inert (Nat.lor (maskOf (shields ++ puncts)) (maskOf (plainDigits S))) c := by
  rcases hc with h | h | h
  · exact absurd h hm
  · left
    rw [bit_or, bit_maskOf, bit_maskOf]
    rcases plain_cases h hl with h | h
    · refine .inr (List.mem_filter.2 ⟨h, ?_⟩)
      rw [Bool.not_eq_true', Bool.eq_false_iff]
      intro hn
      exact hm (natMem_iff.1 hn)
    · exact .inl (List.mem_append_right _ h)
  · exact .inr h

theorem run_readRep {E : Env} (hE : E.SemiticOps) {S T : PyStr}
    (h : semReadOk (maskOf semiticChars) (maskOf (shields ++ puncts)) S T = true) {s : PyStr}
    (hs : ∀ c ∈ s, SemChar S c) : (semRead S T).prog.run E (s.flatMap stage1) = .ok (s.flatMap (stage2 S)) := by
  obtain ⟨h1, h2, h3⟩ := readOk_parts h
  have hshield : ∀ c, isAsciiLetter c = true → ∃ d, shieldOf c = [d] ∧
      Inert (Nat.lor (maskOf (shields ++ puncts)) (maskOf (plainDigits S))) d := by
    intro c hl
    obtain ⟨d, e, hd⟩ := shield_spec hl
    exact ⟨d, e, .inl (bit_or.2 (.inl (bit_maskOf.2 (List.mem_append_left _ hd))))⟩
  refine runsOk_stage (steady_chars hE) h3 ?_ ?_ ?_
  · intro c hc
    unfold stage1
    cases hl : isAsciiLetter c with
    | true =>
      obtain ⟨d, e, hd⟩ := hshield c hl
      simp only
      rw [e]
      exact .inr ⟨fun hm => letter_notKey h1 hd (single_oneEach.1 hm), d, rfl, hd⟩
    | false =>
      by_cases hm : c ∈ semiticLetters S
      · exact .inl (single_oneEach.2 hm)
      · exact .inr ⟨fun h => hm (single_oneEach.1 h), c, rfl, plain_inert (hs c hc) hl hm⟩
  · intro K hK c hc hm y hy
    unfold stage1 at hm hy
    unfold stage2
    cases hl : isAsciiLetter c with
    | true =>
      obtain ⟨d, e, hd⟩ := hshield c hl
      rw [hl] at hm
      simp only at hm
      rw [e] at hm
      exact absurd (single_oneEach.1 hm) (letter_notKey h1 hd)
    | false =>
      rw [hl] at hm hy
      exact tokIs_image (List.all_eq_true.1 hK c (single_oneEach.1 hm)) hy
  · intro c hc hm
    unfold stage1 at hm ⊢
    unfold stage2
    cases hl : isAsciiLetter c with
    | true => rfl
    | false =>
      rw [hl] at hm
      have hm : c ∉ semiticLetters S := fun h => hm (single_oneEach.2 h)
      exact (stage2_neutral h1 (plain_inert (hs c hc) hl hm)).symm

theorem semRead_voc {S T T' : PyStr} (h : pyIn S Gim.vocalized = false ∨ pyIn T Gim.vocalized = pyIn T' Gim.vocalized) :
    semRead S T = semRead S T' := by
  unfold semRead Gim.preprocess
  rcases h with h | h
  · rw [h]; rfl
  · rw [h]

theorem semRead_get {S : PyStr} (hS : S ∈ semiticNames) :
    ∀ T ∈ readReps S, semReadOk (maskOf semiticChars) (maskOf (shields ++ puncts)) S T = true := by
  have h := semRead_all
  rw [withNat_eq, withNat_eq] at h
  exact fun T hT => List.all_eq_true.1 (List.all_eq_true.1 h S hS) T hT

theorem armi_rep (S : PyStr) : (u! "Armi") ∈ readReps S := by
  unfold readReps
  split <;> simp

theorem signFacts {S : PyStr} (hS : S ∈ semiticNames) : SignFacts S := by
  obtain ⟨h1, h2, -⟩ := readOk_parts (semRead_get hS _ (armi_rep S))
  refine ⟨fun c hc hl hm => stage2_neutral h1 (plain_inert hc hl hm), fun c hc => ?_⟩
  obtain ⟨l, hl, hs⟩ := semiticLetters_mem hc
  unfold latinSign
  rw [(keysApart_get h2 hl).2]
  exact hs

theorem run_read {E : Env} (hE : E.SemiticOps) {S : PyStr} (T : PyStr) (hS : S ∈ semiticNames) {s : PyStr}
    (hs : ∀ c ∈ s, SemChar S c) : (semRead S T).prog.run E (s.flatMap stage1) = .ok (s.flatMap (stage2 S)) := by
  have hA : pyIn (u! "Armi") Gim.vocalized = false := by decide +kernel
  have hB : pyIn (u! "Arab") Gim.vocalized = true := by decide +kernel
  cases hv : pyIn S Gim.vocalized with
  | false =>
    rw [semRead_voc (T' := (u! "Armi")) (.inl hv)]
    exact run_readRep hE (semRead_get hS _ (armi_rep S)) hs
  | true =>
    cases ht : pyIn T Gim.vocalized with
    | false =>
      rw [semRead_voc (T' := (u! "Armi")) (.inr (ht.trans hA.symm))]
      exact run_readRep hE (semRead_get hS _ (armi_rep S)) hs
    | true =>
      rw [semRead_voc (T' := (u! "Arab")) (.inr (ht.trans hB.symm))]
      exact run_readRep hE (semRead_get hS _ (by unfold readReps; rw [hv]; simp)) hs

/-! ## Writing -/

theorem noFinal_iff {T t : PyStr} : noFinal T t = true ↔ ∀ d ∈ t, d ∉ finalLetters T := by
  unfold noFinal
  rw [List.all_eq_true]
  constructor
  · intro h d hd hm
    have := h d hd
    rw [natMem_iff.2 hm] at this
    cases this
  · intro h d hd
    rw [Bool.not_eq_true', Bool.eq_false_iff]
    intro hm
    exact h d hd (natMem_iff.1 hm)

theorem signsFor_mem {T t : PyStr} {nat : Bool} (h : t ∈ latinSigns ∨ t ∈ oneEach (ownPuncts T))
    (hf : noFinal T (signImage T nat t) = true) : t ∈ signsFor T nat := by
  unfold signsFor
  split
  · exact List.mem_append.2 h
  · exact List.mem_filter.2 ⟨List.mem_append.2 h, hf⟩

theorem signsFor_sub {T t : PyStr} {nat : Bool} (h : t ∈ signsFor T nat) : t ∈ latinSigns ∨ t ∈ oneEach (ownPuncts T) := by
  unfold signsFor at h
  split at h
  · exact List.mem_append.1 h
  · exact List.mem_append.1 (List.mem_filter.1 h).1

theorem ownSigns_sub {T : PyStr} {nat : Bool} {p : PyStr × PyStr} (h : p ∈ ownSigns T nat) : p ∈ ownSigns T true := by
  cases nat with
  | true => exact h
  | false =>
    unfold ownSigns at h ⊢
    rw [Bool.and_false] at h
    simp only [List.append_nil] at h
    exact List.mem_append_left _ h

theorem own_none {T : PyStr} (hT : T ∈ semiticNames) {nat : Bool} {c : Nat}
    (hc : (c ∈ puncts ∧ c ∉ ownPuncts T) ∨ isNeutral c = true) : dictGet? (ownSigns T nat) [c] = none := by
  rw [dictGet?_none]
  intro p hp
  have hp := ownSigns_sub hp
  rcases hc with ⟨h1, h2⟩ | h
  · intro e
    refine h2 (List.mem_filter.2 ⟨h1, strMem_iff.2 (List.mem_map.2 ⟨p, hp, e⟩)⟩)
  · exact dictGet?_none.1 (keysOff_none (List.all_eq_true.1 own_notNeutral T hT) (.inr h)) p hp

theorem bare_mem {T : PyStr} {c : Nat} (h1 : c ∈ puncts) (h2 : c ∉ ownPuncts T) : c ∈ barePuncts T := by
  unfold barePuncts
  split
  · exact h1
  · refine List.mem_filter.2 ⟨h1, ?_⟩
    rw [Bool.not_eq_true', Bool.eq_false_iff]
    intro h
    exact h2 (List.mem_filter.2 ⟨h1, h⟩)

theorem letterFor_same {T : PyStr} {c n : Nat} (h1 : dictGet? (fromLatinTable T) [c] = none)
    (h2 : dictGet? Gim.simplify [c] = none) : letterFor T n [c] = [c] := by
  cases n with
  | zero => rfl
  | succ n =>
    unfold letterFor
    rw [h1, h2]

/-- What becomes of a character of the text, other than a Roman letter, in the first half. -/
theorem sign_cases {S : PyStr} (hS : S ∈ semiticNames) {c : Nat} (hc : SemChar S c) (hl : isAsciiLetter c = false) :
    latinSign S c ∈ latinSigns ∨ latinSign S c = [c] ∧ (c ∈ puncts ∨ isNeutral c = true) := by
  by_cases hm : c ∈ semiticLetters S
  · exact .inl ((signFacts hS).sign c hm)
  · have e := (signFacts hS).inert c hc hl hm
    rcases hc with h | h | h
    · exact absurd h hm
    · rcases plain_cases h hl with h | h
      · left
        rw [e]
        exact strMem_iff.1 (List.all_eq_true.1 digits_signs c h)
      · exact .inr ⟨e, .inl h⟩
    · exact .inr ⟨e, .inr h⟩

theorem notSign {c : Nat} (h : c ∈ puncts ∨ isNeutral c = true) : [c] ∉ latinSigns := by
  rcases h with h | h
  · have := List.all_eq_true.1 puncts_apart c h
    intro hm
    rw [strMem_iff.2 hm] at this
    cases this
  · intro hm
    exact dictGet?_none.1 (keysOff_none signs_notNeutral (.inr h)) ([c], [c]) (List.mem_map.2 ⟨[c], hm, rfl⟩) rfl

theorem shield_notSign {T : PyStr} {d : Nat} (h : d ∈ shields) {nat : Bool} : [d] ∉ signsFor T nat := by
  have hsa := List.all_eq_true.1 shields_apart d h
  simp only [Bool.and_eq_true, Bool.not_eq_true'] at hsa
  intro hm
  rcases signsFor_sub hm with hm | hm
  · rw [strMem_iff.2 hm] at hsa
    cases hsa.1.1
  · have := (List.mem_filter.1 (single_oneEach.1 hm)).1
    rw [natMem_iff.2 this] at hsa
    cases hsa.1.2

theorem sign_notShield {S : PyStr} (hS : S ∈ semiticNames) {c : Nat} (hc : SemChar S c) (hl : isAsciiLetter c = false)
    {d : Nat} (hd : d ∈ shields) : latinSign S c ≠ [d] := by
  intro e1
  have := List.all_eq_true.1 shields_apart d hd
  simp only [Bool.and_eq_true, Bool.not_eq_true'] at this
  rcases sign_cases hS hc hl with h | ⟨e, h⟩
  · rw [e1] at h
    rw [strMem_iff.2 h] at this
    cases this.1.1
  · rw [e] at e1
    cases e1
    rcases h with h | h
    · rw [natMem_iff.2 h] at this; cases this.1.2
    · rw [neuMem_eq, h] at this; cases this.2

/-- A token before writing: a shield, or a Latin sign, punctuation or neutral character. -/
def PreSign (T : PyStr) (nat : Bool) (f g : PyStr) : Prop :=
  (∃ d ∈ shields, f = [d] ∧ g = [d]) ∨
  (f ∈ latinSigns ∨ ∃ c, f = [c] ∧ (c ∈ puncts ∨ isNeutral c = true)) ∧ g = signImage T nat f ∧ noFinal T g = true

theorem run_writeRep {E : Env} (hE : E.SemiticOps) {T : PyStr} (hT : T ∈ semiticNames)
    {nat : Bool} {p : Prog} (h : semWriteOk (maskOf shields) T nat p = true) {α : Type} {s : List α} {f g : α → PyStr}
    (hs : ∀ a ∈ s, PreSign T nat (f a) (g a)) :
    p.run E (s.flatMap f) = .ok (s.flatMap g) ∧
      ∀ a ∈ s, (∃ d ∈ shields, f a = [d] ∧ g a = [d]) ∨ ∀ d ∈ g a, d ∈ outChars T ∨ isNeutral d = true := by
  unfold semWriteOk at h
  rw [withNat_eq, withNat_eq, withNat_eq, Bool.and_eq_true, Bool.and_eq_true] at h
  obtain ⟨⟨h1, h2⟩, h3⟩ := h
  -- a sign with a rule, or inert
  have key : ∀ a ∈ s, (f a ∈ signsFor T nat ∧ g a = signImage T nat (f a)) ∨
      f a ∉ signsFor T nat ∧ g a = f a ∧ (∃ c, f a = [c] ∧ Inert (Nat.lor (maskOf shields) (maskOf (barePuncts T))) c ∧
        (c ∈ shields ∨ c ∈ outChars T ∨ isNeutral c = true)) := by
    intro a ha
    rcases hs a ha with ⟨d, hd, e1, e2⟩ | ⟨hc, e, hnf⟩
    · exact .inr ⟨e1 ▸ shield_notSign hd, e2.trans e1.symm, d, e1, .inl (bit_or.2 (.inl (bit_maskOf.2 hd))), .inl hd⟩
    · rw [e] at hnf
      rcases hc with h | ⟨c, e2, h⟩
      · exact .inl ⟨signsFor_mem (.inl h) hnf, e⟩
      · by_cases ho : c ∈ ownPuncts T
        · left
          refine ⟨signsFor_mem (.inr ?_) hnf, e⟩
          rw [e2]
          exact single_oneEach.2 ho
        · right
          have hi : Inert (maskOf (barePuncts T)) c := h.imp (fun h => bit_maskOf.2 (bare_mem h ho)) id
          refine ⟨?_, ?_, c, e2, hi.imp_left fun h => bit_or.2 (.inr h), .inr ?_⟩
          · rw [e2]
            intro hm
            rcases signsFor_sub hm with hm | hm
            · exact notSign h hm
            · exact ho (single_oneEach.1 hm)
          · rw [e, e2]
            unfold signImage
            rw [own_none hT (h.imp_left fun h => ⟨h, ho⟩)]
            exact letterFor_same (keysOff_none h1 hi) (keysOff_none h2 hi)
          · exact h.imp_left fun h => List.mem_append_right _ (List.mem_filter.1 h).1
  refine ⟨runsOk_stage (steady_none hE) h3 ?_ ?_ ?_, ?_⟩
  · intro a ha
    rcases key a ha with ⟨h, -⟩ | ⟨h, -, c, e, hi, -⟩
    · exact .inl h
    · exact .inr ⟨h, c, e, hi⟩
  · intro K hK a ha hm y hy
    rw [Bool.and_eq_true] at hK
    rcases key a ha with ⟨-, e⟩ | ⟨h, -⟩
    · rw [← dictGet_lookup] at hy
      rw [e]
      exact strEq_iff.1 (List.all_eq_true.1 hK.2 _ (dictGet?_some hy))
    · exact absurd hm h
  · intro a ha hm
    rcases key a ha with ⟨h, -⟩ | ⟨-, e, -⟩
    · exact absurd h hm
    · exact e.symm
  · intro a ha
    rcases key a ha with ⟨h, e⟩ | ⟨h, e, c, e2, hi, ho⟩
    · -- the table after the run
      right
      intro d hd
      left
      unfold runsOk at h3
      rw [withNat_eq] at h3
      split at h3
      · rename_i m' K hK
        rw [Bool.and_eq_true] at h3
        have hk := Prog.tokens_keys hK (f a)
        rw [idTok_lookup.1 h] at hk
        cases hy : K.lookup (f a) with
        | none => rw [hy] at hk; cases hk
        | some y =>
          rw [← dictGet_lookup] at hy
          have hm := dictGet?_some hy
          have e3 : y = signImage T nat (f a) := strEq_iff.1 (List.all_eq_true.1 h3.2 _ hm)
          rw [e, ← e3] at hd
          exact bit_maskOf.1 (tokInMask_spec h3.1 _ hm d hd)
      · cases h3
    · rcases ho with ho | ho
      · exact .inl ⟨c, ho, e2, e.trans e2⟩
      · right
        intro d hd
        rw [e, e2] at hd
        rw [List.mem_singleton.1 hd]
        exact ho

theorem semWrite_get {T : PyStr} (hT : T ∈ semiticNames) : semWriteOk (maskOf shields) T false (semWrite T).prog = true := by
  have h := semWrite_all
  rw [withNat_eq] at h
  exact List.all_eq_true.1 h T hT

theorem native_arab : semWriteOk (maskOf shields) (u! "Arab") true (do semWrite (u! "Arab"); semNative (u! "Arab")).prog = true := by
  have h := semNative_all
  rw [withNat_eq, Bool.and_eq_true] at h
  exact h.1

theorem native_get {T : PyStr} (hT : T ∈ semiticNames) (hA : T ≠ (u! "Arab")) : semNativeOk (maskOf shields) T = true := by
  have h := semNative_all
  rw [withNat_eq, Bool.and_eq_true] at h
  have := List.all_eq_true.1 h.2 T hT
  rwa [strEq_false.2 hA] at this

theorem ownSigns_nat {T : PyStr} (hA : T ≠ (u! "Arab")) (nat : Bool) : ownSigns T nat = ownSigns T false := by
  unfold ownSigns
  rw [strEq_false.2 hA]
  rfl

/-- Writing and nativisation. -/
theorem run_write {E : Env} (hE : E.SemiticOps) {T : PyStr} (hT : T ∈ semiticNames)
    {nat : Bool} {α : Type} {s : List α} {f g : α → PyStr} (hs : ∀ a ∈ s, PreSign T nat (f a) (g a)) :
    (do semWrite T; branch nat (semNative T) (pure ())).prog.run E (s.flatMap f) = .ok (s.flatMap g) ∧
      ∀ a ∈ s, (∃ d ∈ shields, f a = [d] ∧ g a = [d]) ∨ ∀ d ∈ g a, d ∈ outChars T ∨ isNeutral d = true := by
  cases nat with
  | false =>
    obtain ⟨h1, h2⟩ := run_writeRep hE hT (semWrite_get hT) hs
    refine ⟨?_, h2⟩
    rw [run_step (lin_semWrite T) h1]
    rfl
  | true =>
    by_cases hA : T = (u! "Arab")
    · subst hA
      exact run_writeRep hE hT native_arab hs
    · have e : ∀ l, signImage T true l = signImage T false l := by
        intro l
        unfold signImage
        rw [ownSigns_nat hA true]
      obtain ⟨h1, h2⟩ := run_writeRep hE hT (semWrite_get hT) (s := s) (f := f) (g := g) fun a ha => by
        have := hs a ha
        unfold PreSign at this ⊢
        rwa [e] at this
      refine ⟨?_, h2⟩
      rw [run_step (lin_semWrite T) h1, branch_true]
      have h3 := native_get hT hA
      unfold semNativeOk at h3
      rw [withNat_eq] at h3
      refine runsOk_idle (steady_none hE) h3 fun d hd => ?_
      obtain ⟨a, ha, hd⟩ := List.mem_flatMap.1 hd
      rcases h2 a ha with ⟨x, h, -, e⟩ | h
      · rw [e] at hd
        rw [List.mem_singleton.1 hd]
        exact .inl (bit_or.2 (.inl (bit_maskOf.2 h)))
      · exact (h d hd).imp_left fun h => bit_or.2 (.inr (bit_maskOf.2 h))

/-! ## The end -/

/-- The Roman letter behind a shield. -/
def unshield (d : Nat) : PyStr :=
  match romanPlain.find? fun c => strEq (shieldOf c) [d] with
  | some c => [c]
  | none => [d]

theorem unshield_shield {c d : Nat} (hc : c ∈ romanPlain) (h : shieldOf c = [d]) : unshield d = [c] := by
  unfold unshield
  cases hf : romanPlain.find? fun c => strEq (shieldOf c) [d] with
  | none =>
    have := List.find?_eq_none.1 hf c hc
    rw [strEq_iff.2 h] at this
    exact absurd rfl this
  | some x =>
    have h1 : strEq (shieldOf x) [d] = true := List.find?_some (p := fun c => strEq (shieldOf c) [d]) hf
    have h2 := List.all_eq_true.1 (List.all_eq_true.1 shield_inj x (List.mem_of_find?_eq_some hf)) c hc
    rw [strEq_iff.2 ((strEq_iff.1 h1).trans h.symm)] at h2
    simp only [Bool.not_true, Bool.or_false, Nat.beq_eq] at h2
    rw [h2]

theorem unshield_other {d : Nat} (h : d ∉ shields) : unshield d = [d] := by
  unfold unshield
  split
  · rename_i c hc
    have h1 : strEq (shieldOf c) [d] = true := List.find?_some (p := fun c => strEq (shieldOf c) [d]) hc
    exact absurd (List.mem_flatMap.2 ⟨c, List.mem_of_find?_eq_some hc, by rw [strEq_iff.1 h1]; simp⟩) h
  · rfl

theorem shields_roman {d : Nat} (h : d ∈ shields) : ∃ c ∈ romanPlain, shieldOf c = [d] := by
  obtain ⟨c, hc, hd⟩ := List.mem_flatMap.1 h
  obtain ⟨x, e, -⟩ := shield_spec (List.mem_filter.1 hc).2
  rw [e] at hd
  rw [← List.mem_singleton.1 hd] at e
  exact ⟨c, hc, e⟩

theorem out_notShield {T : PyStr} (hT : T ∈ semiticNames) {d : Nat} (h : d ∈ outChars T ∨ isNeutral d = true) : d ∉ shields := by
  intro hd
  rcases h with h | h
  · have h1 := out_noShield
    rw [withNat_eq] at h1
    have := List.all_eq_true.1 h1 d hd
    rw [maskMem_eq, bit_maskOf.2 (List.mem_flatMap.2 ⟨T, hT, h⟩)] at this
    cases this
  · have := List.all_eq_true.1 shields_apart d hd
    rw [neuMem_eq, h] at this
    simp at this

theorem run_unshield {E : Env} (hE : E.SemiticOps) {T : PyStr} (hT : T ∈ semiticNames) {t : PyStr}
    (ht : ∀ d ∈ t, d ∈ shields ∨ d ∈ outChars T ∨ isNeutral d = true) :
    (PreProcess.retainLatin true).prog.run E t = .ok (t.flatMap unshield) := by
  have h := unshieldOk_true
  unfold unshieldOk at h
  rw [withNat_eq] at h
  have := runsOk_stage (steady_none hE) h (s := t) (f := fun c => [c]) (g := unshield) ?_ ?_ ?_
  · rwa [flatMap_single] at this
  · intro d hd
    rcases ht d hd with h | h
    · exact .inl (single_oneEach.2 h)
    · refine .inr ⟨fun hm => out_notShield hT h (single_oneEach.1 hm), d, rfl, ?_⟩
      exact h.imp_left fun h => bit_maskOf.2 (List.mem_flatMap.2 ⟨T, hT, h⟩)
  · intro K hK d hd hm y hy
    obtain ⟨c, hc, e⟩ := shields_roman (single_oneEach.1 hm)
    rw [unshield_shield hc e]
    have := List.all_eq_true.1 hK c hc
    rw [e] at this
    exact tokIs_image this hy
  · intro d hd hm
    exact (unshield_other fun h => hm (single_oneEach.2 h)).symm

theorem lin_part1 (T : PyStr) (nat : Bool) : Lin (do semWrite T; branch nat (semNative T) (pure ())) :=
  Lin.bind (lin_semWrite T) fun _ => Lin.branch (lin_nativization T T []) (Lin.pure ())

/-- The second half. -/
theorem run_second {E : Env} (hE : E.SemiticOps) {T : PyStr} (hT : T ∈ semiticNames)
    {nat : Bool} {α : Type} {s : List α} {f g : α → PyStr} (hs : ∀ a ∈ s, PreSign T nat (f a) (g a)) :
    (semSecond T T nat).prog.run E (s.flatMap f) = .ok (s.flatMap fun a => (g a).flatMap unshield) ∧
      ∀ a ∈ s, (∃ d ∈ shields, f a = [d]) ∨ (g a).flatMap unshield = g a := by
  have e : semSecond T T nat = (do
      (do semWrite T; branch nat (semNative T) (pure ()))
      PreProcess.retainLatin true
      semAfter T nat) := by
    simp only [semSecond, semWrite, semNative, semAfter, finishT, bind_assoc]
  obtain ⟨h1, h2⟩ := run_write hE hT hs
  have h3 : ∀ d ∈ s.flatMap g, d ∈ shields ∨ d ∈ outChars T ∨ isNeutral d = true := by
    intro d hd
    obtain ⟨a, ha, hd⟩ := List.mem_flatMap.1 hd
    rcases h2 a ha with ⟨x, h, -, e⟩ | h
    · rw [e] at hd
      rw [List.mem_singleton.1 hd]
      exact .inl h
    · exact .inr (h d hd)
  have h4 : ∀ a ∈ s, (∃ d ∈ shields, f a = [d]) ∨ (g a).flatMap unshield = g a := by
    intro a ha
    refine (h2 a ha).imp (fun ⟨d, hd, e, _⟩ => ⟨d, hd, e⟩) fun h => ?_
    rw [flatMap_congr_mem (g := fun d => [d]) fun d hd => unshield_other (out_notShield hT (h d hd)), flatMap_single]
  refine ⟨?_, h4⟩
  rw [e, run_step (lin_part1 T nat) h1, run_step (lin_PreProcess_retainLatin true) (run_unshield hE hT h3), List.flatMap_assoc]
  have h5 := List.all_eq_true.1 semAfter_all T hT
  rw [Bool.and_eq_true] at h5
  have h6 : semAfterOk T nat = true := by cases nat; exact h5.1; exact h5.2
  unfold semAfterOk at h6
  rw [withNat_eq] at h6
  refine runsOk_idle (steady_none hE) h6 fun x hx => ?_
  obtain ⟨a, ha, hx⟩ := List.mem_flatMap.1 hx
  obtain ⟨d, hd, hx⟩ := List.mem_flatMap.1 hx
  rcases h3 d (List.mem_flatMap.2 ⟨a, ha, hd⟩) with h | h
  · obtain ⟨c, hc, e⟩ := shields_roman h
    rw [unshield_shield hc e] at hx
    rw [List.mem_singleton.1 hx]
    exact .inl (bit_maskOf.2 (List.mem_append_right _ (List.mem_filter.1 hc).1))
  · rw [unshield_other (out_notShield hT h)] at hx
    rw [List.mem_singleton.1 hx]
    exact h.imp_left fun h => bit_maskOf.2 (List.mem_append_left _ h)

/-- **Letter by letter.** -/
theorem semitic_run {E : Env} (hE : E.SemiticOps) {S T : PyStr} (hS : S ∈ semiticNames) (hT : T ∈ semiticNames) (hne : S ≠ T)
    {nat : Bool} {s : PyStr} (hs : SemiticText S T nat s) :
    (convert S T nat [] []).prog.run E s = .ok (s.flatMap (semiticImage S T nat)) := by
  have hc : ∀ c ∈ s, SemChar S c := fun c hc => (hs c hc).1
  rw [convert_semitic (List.all_eq_true.1 semName_all S hS) (List.all_eq_true.1 semName_all T hT) hne, semSecond_src S T]
  have e : (do semFirst S T; semSecond T T nat) = (do
      semBefore S T
      PreProcess.retainLatin false
      semRead S T
      semSecond T T nat) := by
    simp only [semFirst, semBefore, semRead, bind_assoc]
  rw [e, run_step (g := semBefore S T) (lin_preProcess _ _ _ _) (run_before hE hS hT hc),
    run_step (lin_PreProcess_retainLatin false) (run_shield hE hS hc), run_step (lin_semRead S T) (run_read hE T hS hc)]
  have hp : ∀ c ∈ s, PreSign T nat (stage2 S c) (stage3 S T nat c) := by
    intro c hcs
    unfold stage2 stage3
    cases hl : isAsciiLetter c with
    | true =>
      obtain ⟨d, e, hd⟩ := shield_spec hl
      exact .inl ⟨d, hd, e, e⟩
    | false =>
      refine .inr ⟨?_, rfl, ?_⟩
      · rcases sign_cases hS (hc c hcs) hl with h | ⟨e, h⟩
        · exact .inl h
        · exact .inr ⟨c, e, h⟩
      · rw [noFinal_iff]
        have := (hs c hcs).2
        unfold semiticImage at this
        rwa [hl] at this
  obtain ⟨h1, h2⟩ := run_second hE hT hp
  rw [h1]
  congr 1
  refine flatMap_congr_mem fun c hcs => ?_
  unfold semiticImage
  cases hl : isAsciiLetter c with
  | true =>
    obtain ⟨x, e, hx⟩ := shield_spec hl
    unfold stage3
    rw [hl]
    simp only
    rw [e]
    simp [unshield_shield (letter_plain hl) e]
  | false =>
    have h := h2 c hcs
    unfold stage2 stage3 at h
    unfold stage3
    rw [hl] at h ⊢
    rcases h with ⟨d, hd, e1⟩ | h
    · exact absurd e1 (sign_notShield hS (hc c hcs) hl hd)
    · exact h

/-- The name of a Semitic script is taken as it is. -/
theorem resolveName_semitic {E : Env} (hE : E.TextOps) {S : PyStr} (hS : S ∈ semiticNames) : resolveName E S = S := by
  have hn := List.all_eq_true.1 semName_all S hS
  simp only [semName, Bool.and_eq_true] at hn
  have hl : ∀ s ∈ GM.IndicScripts ++ GM.LatinScripts, E.lower s = asciiLower s := by
    intro s hs
    refine hE.lower_ascii s fun c hc => ?_
    have := List.all_eq_true.1 (List.all_eq_true.1 names_ascii s hs) c hc
    rwa [Nat.blt_eq] at this
  have hlS : E.lower S = asciiLower S := by
    refine hE.lower_ascii S fun c hc => ?_
    have := List.all_eq_true.1 hn.1.2 c hc
    rwa [Nat.blt_eq] at this
  unfold resolveName
  have : (GM.IndicScripts ++ GM.LatinScripts).find? (fun s => strEq (E.lower S) (E.lower s)) = none := by
    rw [List.find?_eq_none]
    intro s hs
    rw [hl s hs, hlS]
    have := List.all_eq_true.1 hn.2 s hs
    simpa using this
  rw [this]

theorem process_semitic {E : Env} (hE : E.TextOps) {S T : PyStr} (hS : S ∈ semiticNames) (hT : T ∈ semiticNames)
    (text : PyStr) (nat : Bool) :
    process E S T text nat [] [] (u! "default") = ((convert S T nat [] []).prog.run E text).map some := by
  have hn := List.all_eq_true.1 semName_all S hS
  simp only [semName, Bool.and_eq_true, Bool.not_eq_true'] at hn
  have ha : strEq S (u! "autodetect") = false := by rw [← pyEq_eq]; exact hn.1.1.2
  show (processDefault E S T text nat [] []).map some = _
  simp only [processDefault, ha, resolveName_semitic hE hS, resolveName_semitic hE hT, convertDefault,
    matchOptions, List.flatMap_nil]

end Verif
