import Verif.Lib.OptLin
import Verif.Lib.PlainUse
import Verif.Lib.Tables
import Verif.Spec.Options

/-!
# A plain conversion with options
-/

namespace Verif

/-- The conversion proper: letters and defaults of the target script. -/
def plainMain (S T : PyStr) (nativize : Bool) : Gen Unit := do
  convertScript S T
  branch nativize (nativization S T []) (pure ())

/-- What follows the options after the conversion. -/
def plainEnd (S T : PyStr) (nativize : Bool) : Gen Unit := do
  PreProcess.retainLatin true
  PostProcess.defaultPost S T nativize [] []

theorem special_absent {sp l : List PyStr} (h : ∀ o ∈ l, o ∉ sp) {x : PyStr} (hx : strMem x sp = true) :
    pyIn x l = false := by
  rw [pyIn_eq, strMem_false]
  exact fun hm => h x hm (strMem_iff.1 hx)

theorem nativization_special (S T : PyStr) {post : List PyStr} (h : pyIn (u! "BengaliRaBa") post = false) :
    nativization S T post = nativization S T [] := by
  unfold nativization applyScriptDefaults
  simp only [h, pyIn_nil]

theorem defaultPost_special (S T : PyStr) (n : Bool) (pre : List PyStr) {post : List PyStr}
    (h1 : pyIn (u! "romanNumerals") post = false) (h2 : pyIn (u! "indicNumerals") post = false)
    (h3 : pyIn (u! "romanFullStop") post = false) :
    PostProcess.defaultPost S T n pre post = PostProcess.defaultPost S T n [] [] := by
  unfold PostProcess.defaultPost
  simp only [h1, h2, h3, pyIn_nil]

theorem convert_options {S T : PyStr} (hS : plainSrc S = true) (hT : plainTgt T = true)
    (hne : S ≠ T) (nativize : Bool) {pre post : List PyStr}
    (hpre : ∀ o ∈ pre, o ∉ specialPre) (hpost : ∀ o ∈ post, o ∉ specialPost) :
    convert S T nativize pre post = (do
      PreProcess.PreProcess S T [] []
      forEach pre (callOption preFns)
      plainMain S T nativize
      forEach post (callOption postFns)
      plainEnd S T nativize) := by
  simp only [plainSrc, plainTgt, Bool.and_eq_true, Bool.not_eq_true'] at hS hT
  obtain ⟨⟨⟨⟨⟨⟨⟨⟨⟨hS1, hS2⟩, hS3⟩, hS4⟩, hS5⟩, hS6⟩, hS7⟩, hS8⟩, hS9⟩, hS10⟩ := hS
  obtain ⟨⟨⟨⟨⟨⟨⟨⟨⟨hT1, hT2⟩, hT3⟩, hT4⟩, hT5⟩, hT6⟩, hT7⟩, hT8⟩, hT9⟩, hT10⟩ := hT
  have hST : pyEq S T = false := by rw [pyEq_eq]; exact strEq_false.2 hne
  have hm : pyIn S us!["Hiragana", "Katakana"] = false := by
    rw [pyIn_eq, strMem_false]
    rw [pyEq_eq, strEq_false] at hS7 hS8
    simp [hS7, hS8]
  have hA : pyIn S us!["Arab-Ur", "Arab-Pa"] = false := by
    rw [pyIn_eq, strMem_false]
    intro h
    rw [pyIn_eq, strMem_false] at hS3
    simp only [List.mem_cons, List.not_mem_nil, or_false] at h
    rcases h with h | h <;> (subst h; exact hS3 (strMem_iff.1 (by decide +kernel)))
  have hR : pyEq T (u! "Arab") = false := by
    rw [pyEq_eq, strEq_false]
    intro h
    subst h
    revert hT3; decide +kernel
  have eS := hasKey_false hS5
  have eT := hasKey_false hT5
  have eM := hasKey_false hS6
  have hE : pyEq S (u! "") = false := hS10
  have hE' : pyEq T (u! "") = false := hT9
  have p1 := special_absent hpost (x := u! "indicDandas") rfl
  have p2 := special_absent hpost (x := u! "siddhammukta") rfl
  have p3 := special_absent hpost (x := u! "siddhamap") rfl
  have p4 := special_absent hpost (x := u! "LaoNative") rfl
  have p5 := special_absent hpost (x := u! "egrantamil") rfl
  have p6 := special_absent hpost (x := u! "nepaldevafont") rfl
  have p7 := special_absent hpost (x := u! "ranjanalantsa") rfl
  have p8 := special_absent hpost (x := u! "ranjanawartu") rfl
  have p9 := special_absent hpost (x := u! "BengaliRaBa") rfl
  have p10 := special_absent hpost (x := u! "SoyomboFinals") rfl
  have p11 := special_absent hpost (x := u! "BalineseSimplified") rfl
  have p12 := special_absent hpost (x := u! "JavaneseSimplified") rfl
  have p13 := special_absent hpost (x := u! "arabicRemoveAdditionsPhonetic") rfl
  have p14 := special_absent hpost (x := u! "RemoveDiacritics") rfl
  have p15 := special_absent hpost (x := u! "romanNumerals") rfl
  have p16 := special_absent hpost (x := u! "indicNumerals") rfl
  have p17 := special_absent hpost (x := u! "romanFullStop") rfl
  have q1 := special_absent hpre (x := u! "siddhammukta") rfl
  have q2 := special_absent hpre (x := u! "egrantamil") rfl
  have q3 := special_absent hpre (x := u! "novowelshebrew") rfl
  have e1 : locTargetOther (locTarget ⟨S, T, nativize, pre, post⟩) = ⟨S, T, nativize, pre, post⟩ := by
    simp only [locTarget, locTargetOther, hT4, Bool.false_and]
  have e2 : locSource ⟨S, T, nativize, pre, post⟩ = pure ⟨S, T, nativize, pre, post⟩ := by
    simp only [locSource, hS4, Bool.false_and]
  have e3 : locSourceOther ⟨S, T, nativize, pre, post⟩ = ⟨S, T, nativize, pre, post⟩ := by
    simp only [locSourceOther, hS4, Bool.false_and]
  have e4 : isoTarget (convertN 2) ⟨S, T, nativize, pre, post⟩ = pure ⟨S, T, nativize, pre, post⟩ := by
    simp only [isoTarget, eT]
  have e5 : isoSource (convertN 2) ⟨S, T, nativize, pre, post⟩ = pure ⟨S, T, nativize, pre, post⟩ := by
    simp only [isoSource, eS]
  have e6 : earlyReturn ⟨S, T, nativize, pre, post⟩ = false := by
    simp only [earlyReturn, hE', hT10, hST, Bool.and_false, Bool.or_false]
  have eM' : mapName indicSemiticMapping S = S := by simp only [mapName, eM]
  have e7 : semiticSwitch ⟨S, T, nativize, pre, post⟩ = ⟨S, T, nativize, pre, post⟩ := by
    simp only [semiticSwitch, eM', hT3, hT5, hS3, hS5, hS6, Bool.false_and, Bool.or_false]
    cases nativize <;> rfl
  have e8 : markers ⟨S, T, nativize, pre, post⟩ = pure () := by
    simp only [markers, hA, hS3, Bool.false_and, Bool.and_false]
    rfl
  have e9 : sameScript ⟨S, T, nativize, pre, post⟩ = ([], ⟨S, T, nativize, pre, post⟩) := by
    simp only [sameScript, hST, Bool.false_and]
  have e10 : indicDandas ⟨S, T, nativize, pre, post⟩ = pure ⟨S, T, nativize, pre, post⟩ := by
    simp only [indicDandas, p1]
  have e10' : PreProcess.PreProcess S T post pre = PreProcess.PreProcess S T [] [] := rfl
  have e11 : optionSwitches ⟨S, T, nativize, pre, post⟩ = pure ⟨S, T, nativize, pre, post⟩ := by
    simp only [optionSwitches, p2, p3, p4, p5, p6, p7, p8, p9, p10, p11, p12, q1, q2, Bool.false_and,
      Bool.not_false, Bool.and_true]
    rfl
  have e12 : beforeConversion ⟨S, T, nativize, pre, post⟩ = (do
      forEach pre (callOption preFns); pure (false, S)) := by
    have : retainsLatin S T = false := by
      simp only [retainsLatin, hS3, hT3, hm, Bool.and_false, Bool.false_and, Bool.or_false]
    simp only [beforeConversion, q3, this, hS7, hS8, Bool.false_and, Bool.or_false]
    rfl
  have e13 : mainPart ⟨S, T, nativize, pre, post⟩ [] false S = (do
      plainMain S T nativize
      forEach post (callOption postFns)
      plainEnd S T nativize) := by
    have hc : conversion S T = convertScript S T := by simp only [conversion, hS9, branch_false]
    simp only [mainPart, hT6, hT7, hT8, hc, hS10, p13, p14, hR, Bool.and_false, Bool.false_and,
      Bool.or_false, branch_false, nativization_special S T p9, defaultPost_special S T nativize pre p15 p16 p17]
    rfl
  show convertBody (convertN 2) ⟨S, T, nativize, pre, post⟩ = _
  funext k
  simp only [convertBody, convertTail, Gen.bind_apply, Gen.pure_apply, e1, e2, e3, e4,
    e5, e6, e7, e8, e9, e10, e10', e11, e12, e13, branch_false]

theorem lin_PostProcess_MToAnusvara (T : PyStr) : Lin (PostProcess.MToAnusvara T) := by
  unfold PostProcess.MToAnusvara
  lin

theorem lin_PostProcess_YaToYYa (T : PyStr) : Lin (PostProcess.YaToYYa T) := by
  unfold PostProcess.YaToYYa
  lin

theorem lin_applyScriptDefaults (S T : PyStr) (post : List PyStr) : Lin (applyScriptDefaults S T post) := by
  unfold applyScriptDefaults
  lin
  all_goals with_reducible first
    | apply lin_PostProcess_MToAnusvara | apply lin_PostProcess_YaToYYa
    | apply lin_PostProcess_NasalToAnusvara
    | apply lin_PostProcess_TeluguRemoveNukta
    | apply lin_PostProcess_TeluguRemoveAeAo
    | apply lin_PostProcess_SinhalaChandrbinduAnusvara
    | apply lin_PostProcess_KhojkiRRI
    | apply lin_PostProcess_HebrewVetVav
    | apply lin_PostProcess_HebrewnonFinalShort
    | apply lin_PostProcess_MalayalamAnusvaraNasal
    | apply lin_PostProcess_MalayalamremoveHistorical
    | apply lin_PostProcess_TamilNaToNNa
    | apply lin_PostProcess_AnusvaraToNasal
    | apply lin_PostProcess_TamilpredictDentaNa
    | apply lin_PostProcess_BengaliConjunctVB
    | apply lin_PostProcess_VaToBa
    | apply lin_PostProcess_MeeteiMayekremoveHistorical
    | apply lin_PostProcess_LimburemoveHistorical
    | apply lin_PostProcess_OriyaVa
    | apply lin_PostProcess_GurmukhiCandrabindu
    | apply lin_PostProcess_GurmukhiTippiBindu
    | apply lin_PostProcess_GurmukhiTippiGemination
    | apply lin_PostProcess_SaurashtraHaru
    | apply lin_PostProcess_AhomClosed
    | apply lin_PostProcess_TibetanRemoveVirama
    | apply lin_PostProcess_TibetanRemoveBa
    | apply lin_PostProcess_ThaanaRemoveHistorical
    | apply lin_PostProcess_AvestanConventions
    | apply lin_PostProcess_SundaneseRemoveHistoric
    | apply lin_PostProcess_MultaniAbjad
    | apply lin_PostProcess_ModiRemoveLong
    | apply lin_PostProcess_WarangCitiModernOrthogaphy
    | apply lin_PostProcess_ArabRemoveAdditions
    | apply lin_PostProcess_arabizeLatn | apply lin_PostProcess_urduizeLatn
    | apply lin_PostProcess_syricizeLatn | apply lin_PostProcess_hebraizeLatn

theorem lin_nativization (S T : PyStr) (post : List PyStr) : Lin (nativization S T post) := by
  unfold nativization
  lin
  · exact lin_applyScriptDefaults S T post
  · exact lin_PostProcess_RemoveDiacritics
  · exact lin_PostProcess_RemoveDiacriticsTamil

theorem lin_callOption {fns : List (PyStr × Gen Unit)} (h : ∀ p ∈ fns, Lin p.2) (o : PyStr) :
    Lin (callOption fns o) := by
  unfold callOption
  split
  · rename_i g hg
    exact h (_, g) (dictGet?_some hg)
  · exact Lin.fail _

theorem run_applyInTurn {E : Env} {fns : List (PyStr × Gen Unit)} (h : ∀ p ∈ fns, Lin p.2) (os : List PyStr) (t : PyStr) :
    (forEach os (callOption fns)).prog.run E t = applyInTurn E fns os t := by
  induction os generalizing t with
  | nil => rfl
  | cons o os ih =>
    show ((callOption fns o) >>= fun _ => forEach os (callOption fns)).prog.run E t = _
    rw [(lin_callOption h o).prog_seq, Prog.run_append]
    unfold applyInTurn
    cases hd : dictGet? fns o with
    | none =>
      have : callOption fns o = fail .attributeError := by unfold callOption; rw [hd]
      rw [this]
      rfl
    | some f =>
      have : callOption fns o = f := by unfold callOption; rw [hd]
      rw [this]
      dsimp only
      cases f.prog.run E t with
      | error e => rfl
      | ok t' => exact ih t'

theorem lin_plainMain {S T : PyStr} (hS : plainSrc S = true) (hT : plainTgt T = true) (nat : Bool) :
    Lin (plainMain S T nat) := by
  obtain ⟨kd, hk⟩ := kindOf_plain hS hT
  have tS : hasTbl S = true := by
    simp only [plainSrc, Bool.and_eq_true] at hS
    have h := hS.1.1.1.1.1.1.1.1.2
    unfold hasTbl
    cases ht : tblOf S <;> rw [ht] at h <;> first | rfl | cases h
  have tT : hasTbl T = true := by
    simp only [plainTgt, Bool.and_eq_true] at hT
    have h := hT.1.1.1.1.1.1.1.1.2
    unfold hasTbl
    cases ht : tblOf T <;> rw [ht] at h <;> first | rfl | cases h
  unfold plainMain
  rw [convertScript_pieces tS tT (hasHead_om tS) (hasHead_om tT) hk]
  exact Lin.bind (lin_script kd) fun _ => Lin.branch (lin_nativization S T []) (Lin.pure ())

/-! ## Option names -/

/-- Every listed name outside `sp` is ASCII and is the only listed name with its lower-cased form. -/
def aloneNames (known sp : List PyStr) : Prop :=
  ∀ k ∈ known, (∀ c ∈ k, c < 128) ∧ (k ∉ sp → (known.filter fun k' => strEq (asciiLower k) (asciiLower k')) = [k])

/-- A name as a number. -/
def nameCode (k : PyStr) : Nat := k.foldl (fun n c => 128 * n + asciiLowerC c) 1

def countNat (n : Nat) : List Nat → Nat
  | [] => 0
  | m :: l => match Nat.beq n m with
    | true => countNat n l + 1
    | false => countNat n l

/-- Hand over the numbers, evaluated. -/
def withNats (f : List Nat → Bool) : List Nat → List Nat → Bool
  | [], acc => f acc
  | n :: l, acc => withNat n fun n => withNats f l (n :: acc)

theorem withNats_eq (f : List Nat → Bool) (l acc : List Nat) : withNats f l acc = f (l.reverse ++ acc) := by
  induction l generalizing acc with
  | nil => rfl
  | cons n l ih => rw [withNats, withNat_eq, ih]; simp

def aloneOk (known sp : List PyStr) : Bool :=
  withNats (fun codes => known.all fun k => k.all (fun c => Nat.blt c 128) &&
    (strMem k sp || withNat (nameCode k) fun n => Nat.beq (countNat n codes) 1)) (known.map nameCode) []

theorem countNat_eq (n : Nat) (l : List Nat) : countNat n l = l.countP fun m => Nat.beq n m := by
  induction l with
  | nil => rfl
  | cons m l ih =>
    rw [countNat, List.countP_cons, ih]
    cases Nat.beq n m <;> rfl

theorem nameCode_lower {k k' : PyStr} (h : asciiLower k = asciiLower k') : nameCode k = nameCode k' := by
  have : ∀ (k : PyStr) (n : Nat), k.foldl (fun n c => 128 * n + asciiLowerC c) n = (asciiLower k).foldl (fun n c => 128 * n + c) n := by
    intro k
    induction k with
    | nil => intro n; rfl
    | cons c k ih => intro n; exact ih _
  unfold nameCode
  rw [this, this, h]

theorem aloneOk_sound {known sp : List PyStr} (h : aloneOk known sp = true) : aloneNames known sp := by
  unfold aloneOk at h
  rw [withNats_eq, List.append_nil] at h
  intro k hk
  have := List.all_eq_true.1 h k hk
  simp only [Bool.and_eq_true, List.all_eq_true, Bool.or_eq_true, withNat_eq] at this
  obtain ⟨h1, h2⟩ := this
  refine ⟨fun c hc => by have := h1 c hc; rwa [Nat.blt_eq] at this, fun hsp => ?_⟩
  have h2 := h2.resolve_left (by rw [strMem_iff]; exact hsp)
  have h2 := Nat.eq_of_beq_eq_true h2
  rw [countNat_eq, List.countP_reverse, List.countP_map] at h2
  have hle : (known.filter fun k' => strEq (asciiLower k) (asciiLower k')).length ≤ 1 := by
    rw [← h2, ← List.countP_eq_length_filter]
    refine List.countP_mono_left fun k' _ he => ?_
    show Nat.beq (nameCode k) (nameCode k') = true
    rw [nameCode_lower (strEq_iff.1 he)]
    exact Nat.beq_refl _
  have hmem : k ∈ known.filter fun k' => strEq (asciiLower k) (asciiLower k') :=
    List.mem_filter.2 ⟨hk, strEq_iff.2 rfl⟩
  cases hf : known.filter fun k' => strEq (asciiLower k) (asciiLower k') with
  | nil => rw [hf] at hmem; cases hmem
  | cons x l =>
    rw [hf] at hmem hle
    cases l with
    | nil => rw [List.mem_singleton.1 hmem]
    | cons y l => simp at hle

theorem alone_pre : aloneNames (names preFns) specialPre := aloneOk_sound (by decide +kernel)
theorem alone_post : aloneNames (names postFns) specialPost := aloneOk_sound (by decide +kernel)

theorem matchOptions_alone {E : Env} (hE : E.TextOps) {known sp : List PyStr} (h : aloneNames known sp)
    {os : List PyStr} (hos : ∀ o ∈ os, o ∈ known ∧ o ∉ sp) : matchOptions E known os = os := by
  have hl : ∀ k ∈ known, E.lower k = asciiLower k := fun k hk => hE.lower_ascii k (h k hk).1
  induction os with
  | nil => rfl
  | cons o os ih =>
    have hf : (known.filter fun k => strEq (E.lower o) (E.lower k)) = [o] := by
      obtain ⟨hk, hsp⟩ := hos o (List.mem_cons_self ..)
      have h1 : (known.filter fun k => strEq (E.lower o) (E.lower k))
          = known.filter fun k => strEq (asciiLower o) (asciiLower k) := by
        apply List.filter_congr
        intro k hk'
        rw [hl o hk, hl k hk']
      rw [h1]
      exact (h o hk).2 hsp
    show (known.filter fun k => strEq (E.lower o) (E.lower k)) ++ matchOptions E known os = _
    rw [hf, ih fun o' ho' => hos o' (List.mem_cons_of_mem _ ho')]
    rfl

theorem run_then {g h : Gen Unit} (hl : Lin g) (E : Env) (t : PyStr) :
    (g >>= fun _ => h).prog.run E t = (g.prog.run E t >>= fun t' => h.prog.run E t') := by
  rw [hl.prog_seq, Prog.run_append]
  cases g.prog.run E t <;> rfl

theorem map_bind_some (x : Except Exn PyStr) (f : PyStr → Except Exn PyStr) :
    (x >>= f).map some = (x >>= fun t => (f t).map some) := by cases x <;> rfl

end Verif
