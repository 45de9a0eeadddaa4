import Verif.Lib.ItransConv
import Verif.Lib.SemUse
import Verif.Lib.OptionOrder
import Verif.Lib.NoFailPre
import Verif.Lib.NoFailPost

/-!
# Conversions that raise no exception, with options
-/

namespace Verif

set_option maxRecDepth 1000000

/-! ## Generators whose programs are accepted -/

variable {kp : Bool}

/-- The program is accepted if the continuation is, on all values that meet `P`. -/
def GSafe (kp : Bool) {α : Type} (P : α → Prop) (g : Gen α) : Prop :=
  ∀ k : α → Prog, (∀ a, P a → (optAna kp).ok (k a) = true) → (optAna kp).ok (g k) = true

/-- For generators without a value. -/
abbrev USafe (kp : Bool) (g : Gen Unit) : Prop := GSafe kp (fun _ => True) g

theorem GSafe.pure {α : Type} {P : α → Prop} {a : α} (h : P a) : GSafe kp P (Pure.pure a : Gen α) := fun _ hk => hk a h

theorem GSafe.bind {α β : Type} {P : α → Prop} {Q : β → Prop} {x : Gen α} {f : α → Gen β} (hx : GSafe kp P x)
    (hf : ∀ a, P a → GSafe kp Q (f a)) : GSafe kp Q (x >>= f) := fun k hk => hx _ fun a ha => hf a ha k hk

theorem GSafe.branch {α : Type} {P : α → Prop} {c : Bool} {t e : Gen α} (ht : c = true → GSafe kp P t)
    (he : c = false → GSafe kp P e) : GSafe kp P (branch c t e) := by
  cases c
  · exact he rfl
  · exact ht rfl

theorem GSafe.mono {α : Type} {P Q : α → Prop} {g : Gen α} (h : GSafe kp P g) (hPQ : ∀ a, P a → Q a) : GSafe kp Q g :=
  fun k hk => h k fun a ha => hk a (hPQ a ha)

theorem USafe.skip : USafe kp (Pure.pure ()) := GSafe.pure trivial

theorem USafe.of_lin {g : Gen Unit} (hl : Lin g) (h : (optAna kp).ok g.prog = true) : USafe kp g := by
  intro k hk
  rw [hl.split]
  exact (optAna kp).append h (hk () trivial)

/-- A piece that depends on nothing. -/
theorem USafe.lit {g : Gen Unit} (hl : Lin g) (h : (optAna true).ok g.prog = true) : USafe kp g :=
  USafe.of_lin hl (optOk_of h)

theorem USafe.prog {g : Gen Unit} (h : USafe kp g) : (optAna kp).ok g.prog = true := h _ fun _ _ => (optAna kp).done

theorem USafe.replace {x y : PyStr} (h : (optAna true).ok (.rep x y .done) = true) : USafe kp (replace x y) :=
  USafe.lit (Lin.replace x y) h
theorem USafe.append {y : PyStr} (h : (optAna true).ok (.app y .done) = true) : USafe kp (append y) :=
  USafe.lit (Lin.append y) h
theorem USafe.prepend {y : PyStr} (h : (optAna true).ok (.pre y .done) = true) : USafe kp (prepend y) :=
  USafe.lit (Lin.prepend y) h

theorem optOk_ite {c : Cond} {t e k : Prog} (ht : (optAna kp).ok t = true) (he : (optAna kp).ok e = true)
    (hk : (optAna kp).ok k = true) : (optAna kp).ok (.ite c t e k) = true := by
  rw [optOk_iff] at *
  refine ⟨by simp only [Prog.safe, ht.1, he.1, hk.1], fun h => ?_, ?_⟩
  · simp only [Prog.keeps, ht.2.1 h, he.2.1 h, hk.2.1 h]
  · simp only [Prog.noNew, ht.2.2, he.2.2, hk.2.2, Bool.and_self]

theorem USafe.whenDyn (c : Cond) {t e : Gen Unit} (ht : USafe kp t) (he : USafe kp e) : USafe kp (whenDyn c t e) :=
  fun _ hk => optOk_ite ht.prog he.prog (hk () trivial)

theorem USafe.onEvens {c : Nat} {sep : PyStr} (hs : freeOf neu.mem (c :: sep) = true) {g : Gen Unit} (h : USafe kp g) :
    USafe kp (onEvens (c :: sep) g) := by
  intro k hk
  show (optAna kp).ok (Prog.evens (c :: sep) g.prog (k ())) = true
  have h1 := optOk_iff.1 h.prog
  have h2 := optOk_iff.1 (hk () trivial)
  refine optOk_iff.2 ⟨by simp only [Prog.safe, h1.1, h2.1], fun h => ?_, ?_⟩
  · simp only [Prog.keeps, hs, h1.2.1 h, h2.2.1 h]
  · simp only [Prog.noNew, h1.2.2, h2.2.2, Bool.and_self]

theorem USafe.forEach {α : Type} {l : List α} {f : α → Gen Unit} (h : ∀ a ∈ l, USafe kp (f a)) : USafe kp (forEach l f) := by
  induction l with
  | nil => exact USafe.skip
  | cons x l ih =>
    exact GSafe.bind (h x (List.mem_cons_self ..)) fun _ _ => ih fun a ha => h a (List.mem_cons_of_mem _ ha)

/-! ## The scripts -/

/-- Sources with a table of letters. -/
def letterSrc : List PyStr := sourceScripts ++ us!["Itrans"] ++ dualScripts
/-- Targets with a table of letters. -/
def letterTgt : List PyStr := targetScripts ++ us!["IPA"]

/-- Sources whose input rules can drop, copy or move any character. -/
def lossySrc : List PyStr := loseSrc ++ us!["Urdu", "Shahmukhi"]
/-- Targets whose output rules can drop, copy or move any character. -/
def lossyTgt : List PyStr := loseTgt ++ us!["IPA"]

theorem dual_src : (us!["Itrans"] ++ dualScripts).all (fun S => srcOk (optAna (!(strMem S lossySrc))) S) = true := by
  decide +kernel

theorem main_opt {kp' : Bool} (h : kp = true → kp' = true) : (mainAna kp' true).Le (optAna kp) := by
  have h2 : (noNewAna (guardSet true)).Le (noNewAna (guardSet false)) :=
    noNewAna_le (guard_sub false) (guard_numerals false)
  have h1 : (goodAna neu kp' true).Le (goodAna neu kp false) := goodAna_le h (by simp)
  refine ⟨fun h => ?_, fun h => ?_, fun h => ?_⟩
  all_goals
    have := (Bool.and_eq_true _ _).mp h
    refine (Bool.and_eq_true _ _).mpr ?_
  · exact ⟨h1.ok this.1, h2.ok this.2⟩
  · exact ⟨h1.src this.1, h2.src this.2⟩
  · exact ⟨h1.tgt this.1, h2.tgt this.2⟩

theorem opt_le {kp' : Bool} (h : kp = true → kp' = true) : (optAna kp').Le (optAna kp) := by
  have h1 : (goodAna neu kp' false).Le (goodAna neu kp false) := goodAna_le h (by simp)
  refine ⟨fun h => ?_, fun h => ?_, fun h => ?_⟩
  all_goals
    have := (Bool.and_eq_true _ _).mp h
    refine (Bool.and_eq_true _ _).mpr ?_
  · exact ⟨h1.ok this.1, this.2⟩
  · exact ⟨h1.src this.1, this.2⟩
  · exact ⟨h1.tgt this.1, this.2⟩

theorem not_mem_left {x : PyStr} {l r : List PyStr} (h : x ∉ l ++ r) : x ∉ l := fun e => h (List.mem_append_left _ e)

theorem letterSrc_ok {S : PyStr} (h : S ∈ letterSrc) (hk : kp = true → S ∉ lossySrc) : srcOk (optAna kp) S = true := by
  have : S ∈ sourceScripts ∨ S ∈ us!["Itrans"] ++ dualScripts := by
    simpa only [letterSrc, List.append_assoc, List.mem_append] using h
  rcases this with h | h
  · have := srcFull_all (src_plain h)
    unfold srcFull at this
    refine srcOk_mono (main_opt fun e => ?_) this
    simp [strMem_false.2 (not_mem_left (hk e))]
  · refine srcOk_mono (opt_le fun e => ?_) (List.all_eq_true.1 dual_src S h)
    simp [strMem_false.2 (hk e)]

theorem ipa_tgt : tgtOk (optAna false) (u! "IPA") = true := by decide +kernel

theorem letterTgt_ok {T : PyStr} (h : T ∈ letterTgt) (hk : kp = true → T ∉ lossyTgt) : tgtOk (optAna kp) T = true := by
  simp only [letterTgt, List.mem_append, List.mem_singleton] at h
  rcases h with h | rfl
  · have := tgtFull_all (tgt_plain h)
    unfold tgtFull at this
    simp only [Bool.and_eq_true] at this
    refine tgtOk_mono (main_opt fun e => ?_) this.1.1.1.1
    simp [strMem_false.2 (not_mem_left (hk e))]
  · cases kp with
    | false => exact ipa_tgt
    | true => exact absurd (strMem_iff.1 (by decide +kernel)) (hk rfl)

theorem constOk_opt : constOk (optAna kp) = true := constOk_mono (main_opt fun _ => rfl) constOk_main

/-- What the branches of `convert` ask about the name of a script with letters. -/
def letterName (S : PyStr) : Bool :=
  (pyIn S GM.IndicScripts || pyIn S GM.LatinScripts) && !(pyIn S GM.SemiticScripts) && !(pyEq S (u! "RomanLoC")) &&
  !(hasKey GM.semiticISO S) && !(pyEq S (u! "Hiragana")) && !(pyEq S (u! "Katakana")) && !(pyEq S (u! "")) &&
  !(pyEq S (u! "Ignore"))

theorem letterName_all : (letterSrc ++ letterTgt).all letterName = true := by decide +kernel

/-- What they ask about the name of a Semitic script. -/
def semiticName (S : PyStr) : Bool :=
  !(pyIn S GM.IndicScripts) && !(pyIn S GM.LatinScripts) && pyIn S GM.SemiticScripts && !(pyEq S (u! "RomanLoC")) &&
  !(hasKey GM.semiticISO S) && !(pyEq S (u! "Hiragana")) && !(pyEq S (u! "Katakana")) && !(pyEq S (u! "")) &&
  !(pyEq S (u! "Ignore"))

theorem semiticName_all : semiticScripts.all semiticName = true := by decide +kernel

theorem letter_kind {S T : PyStr} (hS : S ∈ letterSrc) (hT : T ∈ letterTgt) : ∃ kd, kindOf S T = some kd := by
  have h1 := List.all_eq_true.1 letterName_all S (List.mem_append_left _ hS)
  have h2 := List.all_eq_true.1 letterName_all T (List.mem_append_right _ hT)
  simp only [letterName, Bool.and_eq_true, Bool.or_eq_true, Bool.not_eq_true'] at h1 h2
  unfold kindOf
  have a := h1.1.1.1.1.1.1.1
  have b := h2.1.1.1.1.1.1.1
  cases c : pyIn S GM.LatinScripts <;> cases d : pyIn S GM.IndicScripts <;> cases e : pyIn T GM.LatinScripts <;>
    cases f : pyIn T GM.IndicScripts <;> simp_all

theorem convertIndicDefault_safe {S T : PyStr} (hS : S ∈ letterSrc) (hT : T ∈ letterTgt) (kS : kp = true → S ∉ lossySrc)
    (kT : kp = true → T ∉ lossyTgt) : convertScript S T = convertIndicDefault S T ∧ USafe kp (convertIndicDefault S T) := by
  obtain ⟨kd, hk⟩ := letter_kind hS hT
  obtain ⟨h1, h2⟩ := srcOk_tbl (letterSrc_ok hS kS)
  obtain ⟨h3, h4, -, -, -⟩ := tgtOk_tbl (letterTgt_ok hT kT)
  have e := convertScript_pieces h1 h3 h2 h4 hk
  have e' : convertScript S T = convertIndicDefault S T := by
    unfold convertScript convertIndicDefault
    rw [convertIndic_kind, hk]
    cases kd <;> rfl
  refine ⟨e', ?_⟩
  rw [← e', e]
  exact USafe.of_lin (lin_script kd) (script_good constOk_opt (letterSrc_ok hS kS) (letterTgt_ok hT kT) hk
    (fun _ => by cases kp <;> decide +kernel))

/-! ## Semitic scripts -/

theorem lin_tryFixSemiticReverse (S : PyStr) : Lin (tryFixSemiticReverse S) := by
  unfold tryFixSemiticReverse
  split
  · exact Lin.tryAttr _
  · exact Lin.pure _

theorem lin_fixSemiticOutput (S T : PyStr) : Lin (fixSemiticOutput S T) := by
  rw [fixSemitic_src S T]
  exact lin_fixSemitic T

theorem lin_gimPre (S T : PyStr) : Lin (Gim.preprocess S T) := by unfold Gim.preprocess; lin
theorem lin_gimTo (S : PyStr) : Lin (Gim.toLatin S) := by unfold Gim.toLatin; lin
theorem lin_gimFrom (T : PyStr) : Lin (Gim.fromLatin T) := by unfold Gim.fromLatin; lin
theorem lin_gimPost (T : PyStr) : Lin (Gim.postprocess T) := by unfold Gim.postprocess; lin
theorem lin_semRomanPost (T : PyStr) : Lin (PostProcess.FixSemiticRoman T) := by
  unfold PostProcess.FixSemiticRoman; lin
theorem lin_semRomanPre (T : PyStr) : Lin (PreProcess.FixSemiticRoman T) := by
  unfold PreProcess.FixSemiticRoman; lin

/-- The pieces of conversions from and to a Semitic script. -/
def semiticOk (S : PyStr) : Bool :=
  preReps.all (fun T => (optAna true).ok (PreProcess.PreProcess S T [] []).prog) &&
  (optAna true).ok (tryFixSemiticReverse S).prog &&
  ((optAna true).ok (Gim.preprocess S (u! "Ugar")).prog && (optAna true).ok (Gim.preprocess S S).prog) &&
  (pyEq S (u! "Latn") || ((optAna true).ok (Gim.toLatin S).prog && (optAna true).ok (Gim.fromLatin S).prog)) &&
  (optAna true).ok (Gim.postprocess S).prog &&
  (optAna true).ok (fixSemiticOutput S S).prog &&
  (optAna true).ok (PostProcess.FixSemiticRoman S).prog &&
  (optAna false).ok (PreProcess.FixSemiticRoman S).prog

theorem semiticOk_all : semiticScripts.all semiticOk = true := by decide +kernel

theorem fixOut_letters : letterTgt.all (fun T => (optAna true).ok (fixSemiticOutput T T).prog) = true := by decide +kernel

/-- Everything about a Semitic script. -/
theorem semitic_ok {S : PyStr} (h : S ∈ semiticScripts) :
    (∀ T ∈ preReps, USafe kp (PreProcess.PreProcess S T [] [])) ∧ USafe kp (tryFixSemiticReverse S) ∧
    (∀ T, USafe kp (Gim.preprocess S T)) ∧ (pyEq S (u! "Latn") = false → USafe kp (Gim.toLatin S) ∧ USafe kp (Gim.fromLatin S)) ∧
    USafe kp (Gim.postprocess S) ∧ (∀ T, USafe kp (fixSemiticOutput T S)) ∧ USafe kp (PostProcess.FixSemiticRoman S) ∧
    USafe false (PreProcess.FixSemiticRoman S) := by
  have hk := List.all_eq_true.1 semiticOk_all S h
  simp only [semiticOk, Bool.and_eq_true, Bool.or_eq_true, List.all_eq_true] at hk
  obtain ⟨⟨⟨⟨⟨⟨⟨a, b⟩, c⟩, d⟩, e⟩, f⟩, g⟩, i⟩ := hk
  refine ⟨fun T hT => USafe.lit (lin_preProcess _ _ _ _) (a T hT), USafe.lit (lin_tryFixSemiticReverse S) b, ?_, ?_,
    USafe.lit (lin_gimPost S) e, ?_, USafe.lit (lin_semRomanPost S) g, USafe.of_lin (lin_semRomanPre S) i⟩
  · intro T
    have hu : pyIn (u! "Ugar") Gim.vocalized = false := by decide
    have hs := USafe.lit (kp := kp) (lin_gimPre S (u! "Ugar")) c.1
    have hv := USafe.lit (kp := kp) (lin_gimPre S S) c.2
    unfold Gim.preprocess at hs hv ⊢
    rw [hu, Bool.not_false, Bool.or_true, branch_true] at hs
    cases hb : (!(pyIn S Gim.vocalized) || !(pyIn T Gim.vocalized)) with
    | true => exact hs
    | false =>
      rw [Bool.or_eq_false_iff, Bool.not_eq_false'] at hb
      rw [hb.1] at hv
      exact hv
  · intro hL
    rcases d with d | d
    · rw [hL] at d; cases d
    · exact ⟨USafe.lit (lin_gimTo S) d.1, USafe.lit (lin_gimFrom S) d.2⟩
  · intro T
    rw [fixSemitic_src T S]
    exact USafe.lit (lin_fixSemitic S) f

theorem default_safe : USafe kp PostProcess.default := USafe.lit (lin_PostProcess_default _) (by decide +kernel)

theorem gimTr_safe {S T : PyStr} (hS : S ∈ semiticScripts) (hT : T ∈ semiticScripts) : USafe kp (Gim.tr S T) := by
  obtain ⟨-, -, c, d, -, -, -, -⟩ := semitic_ok (kp := kp) hS
  obtain ⟨-, -, -, d', e', -, -, -⟩ := semitic_ok (kp := kp) hT
  refine GSafe.branch (fun hne => ?_) fun _ => USafe.skip
  refine GSafe.bind (P := fun _ => True) (GSafe.branch (fun _ => c T) fun _ => USafe.skip) fun _ _ =>
    GSafe.bind (P := fun _ => True) ?_ fun _ _ => e'
  refine GSafe.branch (fun h => ?_) fun h => GSafe.branch (fun _ => (d' h).2) fun h' => ?_
  · refine (d ?_).1
    rw [pyEq_eq, strEq_iff] at h
    subst h
    simpa using hne
  · exact GSafe.bind (d h').1 fun _ _ => (d' h).2

theorem romanSemitic_keeps : (u! "RomanSemitic") ∉ lossySrc ∧ (u! "RomanSemitic") ∉ lossyTgt :=
  ⟨strMem_false.1 (by decide +kernel), strMem_false.1 (by decide +kernel)⟩
theorem romanSemitic_src : (u! "RomanSemitic") ∈ letterSrc := strMem_iff.1 (by decide +kernel)
theorem romanSemitic_tgt : (u! "RomanSemitic") ∈ letterTgt := strMem_iff.1 (by decide +kernel)
theorem latn_semitic : (u! "Latn") ∈ semiticScripts := strMem_iff.1 (by decide +kernel)

theorem letter_facts {S : PyStr} (h : S ∈ letterSrc ++ letterTgt) :
    (pyIn S GM.IndicScripts || pyIn S GM.LatinScripts) = true ∧ pyIn S GM.SemiticScripts = false := by
  have := List.all_eq_true.1 letterName_all S h
  simp only [letterName, Bool.and_eq_true, Bool.not_eq_true'] at this
  exact ⟨this.1.1.1.1.1.1.1, this.1.1.1.1.1.1.2⟩

theorem semitic_facts {S : PyStr} (h : S ∈ semiticScripts) :
    pyIn S GM.IndicScripts = false ∧ pyIn S GM.LatinScripts = false ∧ pyIn S GM.SemiticScripts = true := by
  have := List.all_eq_true.1 semiticName_all S h
  simp only [semiticName, Bool.and_eq_true, Bool.not_eq_true'] at this
  exact ⟨this.1.1.1.1.1.1.1.1, this.1.1.1.1.1.1.1.2, this.1.1.1.1.1.1.2⟩

/-- All sources and targets of `convertScript` considered here. -/
def anySrc : List PyStr := letterSrc ++ semiticScripts
/-- See `anySrc`. -/
def anyTgt : List PyStr := letterTgt ++ semiticScripts

/-- The pairs for which neutral characters are kept on the way. -/
def KeepPair (S T : PyStr) : Prop := (S ∈ semiticScripts → T ∈ semiticScripts) ∧
  (S ∉ semiticScripts → T ∈ semiticScripts → T ∈ doublingSemitic)

theorem doubling_all : doublingSemitic.all (fun T => !(noGemination T)) = true := by decide +kernel

theorem convertScript_safe {S T : PyStr} (hS : S ∈ anySrc) (hT : T ∈ anyTgt) (kS : kp = true → S ∉ lossySrc)
    (kT : kp = true → T ∉ lossyTgt) (kP : kp = true → KeepPair S T) : USafe kp (convertScript S T) := by
  rcases List.mem_append.1 hS with hS | hS <;> rcases List.mem_append.1 hT with hT | hT
  · obtain ⟨e, h⟩ := convertIndicDefault_safe hS hT kS kT
    rw [e]; exact h
  · obtain ⟨s1, s2⟩ := letter_facts (List.mem_append_left _ hS)
    obtain ⟨t1, t2, t3⟩ := semitic_facts hT
    obtain ⟨-, -, -, -, -, f, g, -⟩ := semitic_ok (kp := kp) hT
    have e0 : convertIndic S T = none := by
      unfold convertIndic
      rw [t1, t2]
      cases pyIn S GM.LatinScripts <;> cases pyIn S GM.IndicScripts <;> rfl
    unfold convertScript
    simp only [e0, s2, t3, s1, branch_true]
    refine GSafe.bind (P := fun _ => True) ?_ fun _ _ => default_safe
    unfold indicToSemitic
    refine GSafe.bind (convertIndicDefault_safe hS romanSemitic_tgt kS fun _ => romanSemitic_keeps.2).2 fun _ _ => ?_
    refine GSafe.bind (USafe.replace (by decide +kernel)) fun _ _ => GSafe.bind (USafe.replace (by decide +kernel)) fun _ _ => ?_
    refine GSafe.bind (P := fun _ => True) (GSafe.branch (fun hg => USafe.of_lin (Lin.reSub _ _) ?_)
      fun _ => USafe.skip) fun _ _ => ?_
    · cases kp with
      | false => decide +kernel
      | true =>
        have := List.all_eq_true.1 doubling_all T ((kP rfl).2 (fun h => by rw [(semitic_facts h).2.2] at s2; cases s2) hT)
        rw [hg] at this
        cases this
    refine GSafe.bind g fun _ _ => GSafe.bind (P := fun _ => True) (GSafe.branch (fun _ =>
      USafe.lit lin_PostProcess_insertARomanSemitic (by decide +kernel)) fun _ => USafe.skip) fun _ _ => ?_
    exact GSafe.bind (gimTr_safe latn_semitic hT) fun _ _ => f S
  · obtain ⟨s1, s2⟩ := letter_facts (List.mem_append_right _ hT)
    obtain ⟨t1, t2, t3⟩ := semitic_facts hS
    have hk : kp = false := by
      cases kp with
      | false => rfl
      | true => rw [(semitic_facts ((kP rfl).1 hS)).2.2] at s2; cases s2
    subst hk
    obtain ⟨-, b, -, -, -, -, -, i⟩ := semitic_ok (kp := false) hS
    have e0 : convertIndic S T = none := by
      unfold convertIndic
      rw [t1, t2]
    unfold convertScript
    simp only [e0, s2, t3, s1, branch_true]
    refine GSafe.bind (P := fun _ => True) ?_ fun _ _ => default_safe
    unfold semiticToIndic
    refine GSafe.bind b fun _ _ => GSafe.bind (gimTr_safe hS latn_semitic) fun _ _ => ?_
    refine GSafe.bind (P := fun _ => True) ?_ fun _ _ => GSafe.bind i fun _ _ =>
      GSafe.bind (convertIndicDefault_safe romanSemitic_src hT (fun _ => romanSemitic_keeps.1) kT).2 fun _ _ =>
      GSafe.branch (fun _ => USafe.replace (by decide +kernel)) fun _ => USafe.skip
    rw [fixSemitic_src S T]
    exact USafe.lit (lin_fixSemitic T) (List.all_eq_true.1 fixOut_letters T hT)
  · obtain ⟨s1, s2, s3⟩ := semitic_facts hS
    obtain ⟨t1, t2, t3⟩ := semitic_facts hT
    obtain ⟨-, b, -, -, -, -, -, -⟩ := semitic_ok (kp := kp) hS
    obtain ⟨-, -, -, -, -, f, -, -⟩ := semitic_ok (kp := kp) hT
    have e0 : convertIndic S T = none := by
      unfold convertIndic
      rw [s1, s2]
    unfold convertScript
    simp only [e0, s3, t3]
    refine GSafe.bind (P := fun _ => True) ?_ fun _ _ => default_safe
    unfold semiticToSemitic
    exact GSafe.bind b fun _ _ => GSafe.bind (P := fun _ => True)
      (GSafe.branch (fun _ => USafe.replace (by decide +kernel)) fun _ => USafe.skip) fun _ _ =>
      GSafe.bind (gimTr_safe hS hT) fun _ _ => f S

end Verif
