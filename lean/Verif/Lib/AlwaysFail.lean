import Verif.Lib.NoFailUse

/-!
# Options that raise on every text
-/

namespace Verif

set_option maxRecDepth 1000000

/-- The program raises on every text. -/
def Prog.raises : Prog → Bool
  | .done => false
  | .rep _ _ k => k.raises
  | .sub p t k => (compileSub p t).isNone || k.raises
  | .app _ k => k.raises
  | .pre _ k => k.raises
  | .set _ k => k.raises
  | .ite _ t e k => (t.raises && e.raises) || k.raises
  | .attempt _ k => k.raises
  | .evens _ _ k => k.raises
  | .host _ k => k.raises
  | .nat _ k => k.raises
  | .fail _ => true

theorem Prog.raises_run (E : Env) : ∀ (p : Prog), p.raises = true → ∀ s, ∃ e, p.run E s = .error e
  | .done, h, _ => by cases h
  | .rep x y k, h, s => Prog.raises_run E k h _
  | .sub p t k, h, s => by
    simp only [Prog.raises, Bool.or_eq_true, Option.isNone_iff_eq_none] at h
    unfold Prog.run
    cases hc : compileSub p t with
    | none => exact ⟨_, rfl⟩
    | some q =>
      rcases h with h | h
      · rw [hc] at h; cases h
      · exact Prog.raises_run E k h _
  | .app y k, h, s => Prog.raises_run E k h _
  | .pre y k, h, s => Prog.raises_run E k h _
  | .set y k, h, s => Prog.raises_run E k h _
  | .ite c t e k, h, s => by
    simp only [Prog.raises, Bool.or_eq_true, Bool.and_eq_true] at h
    unfold Prog.run
    rcases h with ⟨h1, h2⟩ | h
    · obtain ⟨e1, r1⟩ := Prog.raises_run E t h1 s
      obtain ⟨e2, r2⟩ := Prog.raises_run E e h2 s
      cases c.eval s with
      | true => simp only [r1]; exact ⟨_, rfl⟩
      | false => simp only [r2]; exact ⟨_, rfl⟩
    · split
      · exact Prog.raises_run E k h _
      · exact ⟨_, rfl⟩
  | .attempt p k, h, s => by
    unfold Prog.run
    split
    · exact Prog.raises_run E k h _
    · exact Prog.raises_run E k h _
    · exact ⟨_, rfl⟩
  | .evens sep p k, h, s => by
    unfold Prog.run
    split
    · exact Prog.raises_run E k h _
    · exact ⟨_, rfl⟩
  | .host x k, h, s => by
    unfold Prog.run
    split
    · exact Prog.raises_run E k h _
    · exact ⟨_, rfl⟩
  | .nat f k, h, s => Prog.raises_run E k h _
  | .fail e, _, s => ⟨e, rfl⟩

theorem Prog.raises_right {q : Prog} (hq : q.raises = true) : ∀ p : Prog, (p.append q).raises = true
  | .done => hq
  | .rep _ _ k => Prog.raises_right hq k
  | .sub _ _ k => by simp only [Prog.append, Prog.raises, Prog.raises_right hq k, Bool.or_true]
  | .app _ k => Prog.raises_right hq k
  | .pre _ k => Prog.raises_right hq k
  | .set _ k => Prog.raises_right hq k
  | .ite _ _ _ k => by simp only [Prog.append, Prog.raises, Prog.raises_right hq k, Bool.or_true]
  | .attempt _ k => Prog.raises_right hq k
  | .evens _ _ k => Prog.raises_right hq k
  | .host _ k => Prog.raises_right hq k
  | .nat _ k => Prog.raises_right hq k
  | .fail _ => rfl

theorem Prog.raises_left (q : Prog) : ∀ p : Prog, p.raises = true → (p.append q).raises = true
  | .done, h => by cases h
  | .rep _ _ k, h => Prog.raises_left q k h
  | .sub _ _ k, h => by
    simp only [Prog.append, Prog.raises, Bool.or_eq_true] at *
    exact h.imp id (Prog.raises_left q k)
  | .app _ k, h => Prog.raises_left q k h
  | .pre _ k, h => Prog.raises_left q k h
  | .set _ k, h => Prog.raises_left q k h
  | .ite _ _ _ k, h => by
    simp only [Prog.append, Prog.raises, Bool.or_eq_true] at *
    exact h.imp id (Prog.raises_left q k)
  | .attempt _ k, h => Prog.raises_left q k h
  | .evens _ _ k, h => Prog.raises_left q k h
  | .host _ k, h => Prog.raises_left q k h
  | .nat _ k, h => Prog.raises_left q k h
  | .fail _, _ => rfl

/-! ## Generators -/

/-- If what follows raises, on all values that meet `P`, then so does the whole. -/
def Flow {α : Type} (P : α → Prop) (g : Gen α) : Prop :=
  ∀ k : α → Prog, (∀ a, P a → (k a).raises = true) → (g k).raises = true

/-- Whatever follows, the whole raises. -/
def Raises {α : Type} (g : Gen α) : Prop := ∀ k : α → Prog, (g k).raises = true

theorem Flow.pure {α : Type} {P : α → Prop} {a : α} (h : P a) : Flow P (Pure.pure a : Gen α) := fun _ hk => hk a h

theorem Flow.of_lin {α : Type} {g : Gen α} (h : Lin g) : Flow (fun _ => True) g := by
  intro k hk
  obtain ⟨p, o, hp⟩ := h
  rw [hp]
  refine Prog.raises_right ?_ p
  cases o with
  | ok a => exact hk a trivial
  | error e => rfl

theorem Flow.bind {α β : Type} {P : α → Prop} {Q : β → Prop} {x : Gen α} {f : α → Gen β} (hx : Flow P x)
    (hf : ∀ a, P a → Flow Q (f a)) : Flow Q (x >>= f) := fun k hk => hx _ fun a ha => hf a ha k hk

theorem Flow.mono {α : Type} {P Q : α → Prop} {g : Gen α} (h : Flow P g) (hPQ : ∀ a, P a → Q a) : Flow Q g :=
  fun k hk => h k fun a ha => hk a (hPQ a ha)

theorem Flow.branch {α : Type} {P : α → Prop} {c : Bool} {t e : Gen α} (ht : c = true → Flow P t)
    (he : c = false → Flow P e) : Flow P (branch c t e) := by
  cases c
  · exact he rfl
  · exact ht rfl

theorem Raises.bind {α β : Type} {P : α → Prop} {x : Gen α} {f : α → Gen β} (hx : Flow P x)
    (hf : ∀ a, P a → Raises (f a)) : Raises (x >>= f) := fun k => hx _ fun a ha => hf a ha k

theorem Raises.first {α β : Type} {x : Gen α} {f : α → Gen β} (hx : Raises x) : Raises (x >>= f) := fun _ => hx _

theorem Raises.flow {α : Type} {P : α → Prop} {x : Gen α} (hx : Raises x) : Flow P x := fun k _ => hx k

theorem Raises.of_lin {g : Gen Unit} (hl : Lin g) (h : g.prog.raises = true) : Raises g := by
  intro k
  rw [hl.split]
  exact Prog.raises_left _ _ h

theorem Raises.forEach {l : List PyStr} {f : PyStr → Gen Unit} (hf : ∀ o, Lin (f o)) {o : PyStr} (ho : o ∈ l) (h : Raises (f o)) :
    Raises (forEach l f) := by
  induction l with
  | nil => cases ho
  | cons x l ih =>
    show Raises (f x >>= fun _ => Verif.forEach l f)
    rcases List.mem_cons.1 ho with rfl | ho
    · exact Raises.first h
    · exact Raises.bind (Flow.of_lin (hf x)) fun _ _ => ih ho

/-! ## `convertScript` always comes to an end -/

theorem lin_convertInter (S : PyStr) : Lin (convertInter S) := by
  unfold convertInter; lin
  exact Lin.replaceAll _

theorem lin_charPairs (f g : PyStr → List PyStr → List PyStr) (S T : PyStr) : Lin (charPairs f g S T) := by
  unfold charPairs; lin

theorem lin_fixIndicOutput (T : PyStr) : Lin (fixIndicOutput T) := by
  unfold fixIndicOutput; lin
  · exact lin_fixForward T
  · exact lin_shiftDiacritics T false

theorem lin_romanPreFix (S : PyStr) : Lin (PreProcess.RomanPreFix S) := by
  unfold PreProcess.RomanPreFix; lin

theorem lin_latinToIndic (S T : PyStr) : Lin (latinToIndic S T) := by
  unfold latinToIndic; lin
  all_goals first
    | exact lin_tryFixReverse _ | exact lin_convertInter _ | exact Lin.replaceAll _ | exact lin_fixIndicOutput _
    | exact lin_charPairs _ _ _ _ | exact lin_removeJoiners | exact lin_shiftDiacritics _ _ | exact lin_indicOm _ _ _
    | exact lin_ConvertFix_PostFixRomanOutput _ _ | exact lin_ConvertFix_FixRomanOutput _
    | exact lin_ConvertFix_VedicSvarsIndicLatin | exact lin_vedicLatinIndic _ | exact Lin.omSubs _ _ _
    | exact lin_gimPre _ _ | exact lin_gimConvert _ _ | exact lin_romanPreFix _
    | exact lin_gimTo _ | exact lin_gimFrom _ | exact lin_gimPost _
    | skip

theorem lin_latinToLatin (S T : PyStr) : Lin (latinToLatin S T) := by
  unfold latinToLatin; lin
  all_goals first
    | exact lin_tryFixReverse _ | exact lin_convertInter _ | exact Lin.replaceAll _ | exact lin_fixIndicOutput _
    | exact lin_charPairs _ _ _ _ | exact lin_removeJoiners | exact lin_shiftDiacritics _ _ | exact lin_indicOm _ _ _
    | exact lin_ConvertFix_PostFixRomanOutput _ _ | exact lin_ConvertFix_FixRomanOutput _
    | exact lin_ConvertFix_VedicSvarsIndicLatin | exact lin_vedicLatinIndic _ | exact Lin.omSubs _ _ _
    | exact lin_gimPre _ _ | exact lin_gimConvert _ _ | exact lin_romanPreFix _
    | exact lin_gimTo _ | exact lin_gimFrom _ | exact lin_gimPost _
    | skip

theorem lin_indicToIndic (S T : PyStr) : Lin (indicToIndic S T) := by
  unfold indicToIndic; lin
  all_goals first
    | exact lin_tryFixReverse _ | exact lin_convertInter _ | exact Lin.replaceAll _ | exact lin_fixIndicOutput _
    | exact lin_charPairs _ _ _ _ | exact lin_removeJoiners | exact lin_shiftDiacritics _ _ | exact lin_indicOm _ _ _
    | exact lin_ConvertFix_PostFixRomanOutput _ _ | exact lin_ConvertFix_FixRomanOutput _
    | exact lin_ConvertFix_VedicSvarsIndicLatin | exact lin_vedicLatinIndic _ | exact Lin.omSubs _ _ _
    | exact lin_gimPre _ _ | exact lin_gimConvert _ _ | exact lin_romanPreFix _
    | exact lin_gimTo _ | exact lin_gimFrom _ | exact lin_gimPost _
    | skip

theorem lin_indicToLatin (S T : PyStr) : Lin (indicToLatin S T) := by
  unfold indicToLatin; lin
  all_goals first
    | exact lin_tryFixReverse _ | exact lin_convertInter _ | exact Lin.replaceAll _ | exact lin_fixIndicOutput _
    | exact lin_charPairs _ _ _ _ | exact lin_removeJoiners | exact lin_shiftDiacritics _ _ | exact lin_indicOm _ _ _
    | exact lin_ConvertFix_PostFixRomanOutput _ _ | exact lin_ConvertFix_FixRomanOutput _
    | exact lin_ConvertFix_VedicSvarsIndicLatin | exact lin_vedicLatinIndic _ | exact Lin.omSubs _ _ _
    | exact lin_gimPre _ _ | exact lin_gimConvert _ _ | exact lin_romanPreFix _
    | exact lin_gimTo _ | exact lin_gimFrom _ | exact lin_gimPost _
    | skip

theorem lin_convertIndic {S T : PyStr} {g : Gen Unit} (h : convertIndic S T = some g) : Lin g := by
  unfold convertIndic at h
  split at h
  · rw [Option.some.injEq] at h; subst h; exact lin_latinToIndic S T
  · rw [Option.some.injEq] at h; subst h; exact lin_latinToLatin S T
  · rw [Option.some.injEq] at h; subst h; exact lin_indicToIndic S T
  · rw [Option.some.injEq] at h; subst h; exact lin_indicToLatin S T
  · cases h

theorem lin_convertIndicDefault (S T : PyStr) : Lin (convertIndicDefault S T) := by
  unfold convertIndicDefault
  split
  · exact Lin.bind (lin_convertIndic (by assumption)) fun _ => lin_PostProcess_default _
  · exact lin_PostProcess_default _

theorem lin_gimConvert (S T : PyStr) : Lin (Gim.convert S T) := by
  unfold Gim.convert
  exact Lin.branch (lin_gimTo S) (Lin.branch (lin_gimFrom T) (Lin.bind (lin_gimTo S) fun _ => lin_gimFrom T))

theorem lin_gimTr (S T : PyStr) : Lin (Gim.tr S T) := by
  unfold Gim.tr; lin
  all_goals first
    | exact lin_tryFixReverse _ | exact lin_convertInter _ | exact Lin.replaceAll _ | exact lin_fixIndicOutput _
    | exact lin_charPairs _ _ _ _ | exact lin_removeJoiners | exact lin_shiftDiacritics _ _ | exact lin_indicOm _ _ _
    | exact lin_ConvertFix_PostFixRomanOutput _ _ | exact lin_ConvertFix_FixRomanOutput _
    | exact lin_ConvertFix_VedicSvarsIndicLatin | exact lin_vedicLatinIndic _ | exact Lin.omSubs _ _ _
    | exact lin_gimPre _ _ | exact lin_gimConvert _ _ | exact lin_romanPreFix _
    | exact lin_gimTo _ | exact lin_gimFrom _ | exact lin_gimPost _
    | skip

theorem lin_semiticToSemitic (S T : PyStr) : Lin (semiticToSemitic S T) := by
  unfold semiticToSemitic; lin
  · exact lin_tryFixSemiticReverse S
  · exact lin_gimTr S T
  · exact lin_fixSemiticOutput S T

theorem lin_indicToSemitic (S T : PyStr) : Lin (indicToSemitic S T) := by
  unfold indicToSemitic; lin
  · exact lin_convertIndicDefault _ _
  · exact lin_semRomanPost T
  · exact lin_PostProcess_insertARomanSemitic
  · exact lin_gimTr _ T
  · exact lin_fixSemiticOutput S T

theorem lin_semiticToIndic (S T : PyStr) : Lin (semiticToIndic S T) := by
  unfold semiticToIndic; lin
  · exact lin_tryFixSemiticReverse S
  · exact lin_gimTr S _
  · exact lin_fixSemiticOutput S T
  · exact lin_semRomanPre S
  · exact lin_convertIndicDefault _ _

theorem lin_convertScript (S T : PyStr) : Lin (convertScript S T) := by
  unfold convertScript
  split
  · exact Lin.bind (lin_convertIndic (by assumption)) fun _ => lin_PostProcess_default _
  · split
    · exact Lin.bind (lin_semiticToSemitic S T) fun _ => lin_PostProcess_default _
    · exact Lin.bind (Lin.branch (lin_indicToSemitic S T) (Lin.pure _)) fun _ => lin_PostProcess_default _
    · exact Lin.bind (Lin.branch (lin_semiticToIndic S T) (Lin.pure _)) fun _ => lin_PostProcess_default _
    · exact lin_PostProcess_default _

theorem lin_conversion (S T : PyStr) : Lin (conversion S T) := by
  unfold conversion
  exact Lin.branch (Lin.whenDyn _ _ _) (lin_convertScript S T)

/-! ## `convert` -/

/-- One of the options raises. -/
def BadOpts (c : Cfg) : Prop := (∃ o ∈ c.pre, Raises (callOption preFns o)) ∨
  ∃ o ∈ c.post, o ≠ u! "RemoveDiacritics" ∧ Raises (callOption postFns o)

theorem BadOpts.more {c c' : Cfg} (h : BadOpts c) (h1 : ∀ o ∈ c.pre, o ∈ c'.pre) (h2 : ∀ o ∈ c.post, o ∈ c'.post) :
    BadOpts c' := by
  rcases h with ⟨o, ho, hr⟩ | ⟨o, ho, hr⟩
  · exact Or.inl ⟨o, h1 o ho, hr⟩
  · exact Or.inr ⟨o, h2 o ho, hr⟩

theorem lin_japanesePre (S : PyStr) (l : List PyStr) : Lin (PreProcess.JapanesePreProcess S l) := Lin.host _

theorem before_raises {c : Cfg} (h : ∃ o ∈ c.pre, Raises (callOption preFns o)) : Raises (beforeConversion c) := by
  obtain ⟨o, ho, hr⟩ := h
  unfold beforeConversion
  exact Raises.first (Raises.forEach (fun o => lin_callOption preFns_lin o) ho hr)

theorem lin_beforeConversion (c : Cfg) : Lin (beforeConversion c) := by
  unfold beforeConversion
  lin
  · exact lin_callOption preFns_lin _
  · exact lin_PreProcess_retainLatin _
  · exact lin_japanesePre _ _

theorem lin_oriyaPre : Lin ConvertFix.OriyaIPAFixPre := by unfold ConvertFix.OriyaIPAFixPre; lin

theorem main_raises {c : Cfg} (h : ∃ o ∈ c.post, o ≠ u! "RemoveDiacritics" ∧ Raises (callOption postFns o)) (old : PyStr) (j : Bool)
    (S : PyStr) : Raises (mainPart c old j S) := by
  obtain ⟨o, ho, hne, hr⟩ := h
  unfold mainPart
  refine Raises.bind (Flow.of_lin (Lin.branch (Lin.host _) (Lin.pure _))) fun _ _ => ?_
  refine Raises.bind (Flow.of_lin (Lin.branch lin_oriyaPre (Lin.pure _))) fun _ _ => ?_
  refine Raises.bind (Flow.of_lin (lin_conversion _ _)) fun _ _ => ?_
  refine Raises.bind (Flow.of_lin (Lin.branch (lin_convertScript _ _) (Lin.pure _))) fun _ _ => ?_
  refine Raises.bind (Flow.of_lin (Lin.branch (lin_convertScript _ _) (Lin.pure _))) fun _ _ => ?_
  refine Raises.bind (Flow.of_lin (Lin.branch lin_PostProcess_arabicRemoveAdditionsPhonetic (Lin.pure _))) fun _ _ => ?_
  refine Raises.bind (Flow.of_lin (Lin.branch (lin_nativization _ _ _) (Lin.pure _))) fun _ _ => ?_
  refine Raises.first (Raises.forEach (o := o) (fun o => lin_callOption postFns_lin o) ?_ hr)
  split
  · refine List.mem_map.2 ⟨o, ho, ?_⟩
    have : pyEq o (u! "RemoveDiacritics") = false := by rw [pyEq_eq, strEq_false]; exact hne
    rw [this]
  · exact ho

theorem flow_dandasElse {c : Cfg} (h : BadOpts c) : Flow BadOpts (indicDandasElse c) := by
  unfold indicDandasElse
  refine Flow.bind (Flow.of_lin (Lin.crunchList _ _)) fun _ _ => ?_
  refine Flow.bind (Flow.of_lin (Lin.index _ _)) fun _ _ => ?_
  refine Flow.branch (fun _ => Flow.pure (h.more (fun o ho => List.mem_append_left _ ho) fun _ ho => ho)) fun _ => ?_
  exact Flow.branch (fun _ => Flow.pure (h.more (fun _ ho => ho) fun o ho => List.mem_append_left _ ho))
    fun _ => Flow.pure (h.more (fun _ ho => ho) fun o ho => List.mem_append_left _ ho)

theorem lin_retainPipe (S : PyStr) : Lin (PreProcess.RetainPipeDanda S) := by
  unfold PreProcess.RetainPipeDanda; lin

theorem flow_dandas {c : Cfg} (h : BadOpts c) : Flow BadOpts (indicDandas c) := by
  unfold indicDandas
  split
  · exact Flow.pure h
  · split
    · exact flow_dandasElse h
    · intro k hk
      show ((PreProcess.RetainPipeDanda c.src fun _ => k c).raises && (indicDandasElse c k).raises || _) = true
      rw [Flow.of_lin (lin_retainPipe _) _ fun _ _ => hk c h, flow_dandasElse h k hk]
      rfl

theorem flow_switches {c : Cfg} (h : BadOpts c) : Flow BadOpts (optionSwitches c) := by
  unfold optionSwitches
  exact Flow.bind (Flow.of_lin (Lin.branch (Lin.prepend _) (Lin.pure _))) fun _ _ =>
    Flow.pure (h.more (fun _ ho => ho) fun _ ho => ho)

theorem tail_raises {c : Cfg} (h : BadOpts c) : Raises (convertTail c) := by
  unfold convertTail
  refine Raises.bind (Flow.of_lin (by unfold markers; lin)) fun _ _ => ?_
  have hs : BadOpts (sameScript c).2 := by
    unfold sameScript
    split
    · exact h.more (fun _ ho => ho) fun _ ho => ho
    · exact h
  refine Raises.bind (flow_dandas hs) fun c1 h1 => ?_
  refine Raises.bind (Flow.of_lin (lin_preProcess _ _ _ _)) fun _ _ => ?_
  refine Raises.bind (flow_switches h1) fun c2 h2 => ?_
  rcases h2 with h2 | h2
  · exact Raises.first (before_raises h2)
  · exact Raises.bind (Flow.of_lin (lin_beforeConversion _)) fun p _ => main_raises h2 _ _ _

/-- The target is a script. -/
def realTgt (T : PyStr) : Prop := T ≠ [] ∧ T ≠ u! "Ignore"

theorem finish_raises {c : Cfg} (h : BadOpts c) (hT : realTgt c.tgt) :
    Raises (branch (earlyReturn c) (pure ()) (convertTail (semiticSwitch c))) := by
  have he : earlyReturn c = false := by
    have h1 : pyEq c.tgt (u! "") = false := by rw [pyEq_eq, strEq_false]; exact hT.1
    have h2 : pyEq c.tgt (u! "Ignore") = false := by rw [pyEq_eq, strEq_false]; exact hT.2
    have h3 : (c.pre.isEmpty && c.post.isEmpty) = false := by
      rcases h with ⟨o, ho, -⟩ | ⟨o, ho, -⟩
      · cases hc : c.pre with
        | nil => rw [hc] at ho; cases ho
        | cons => rfl
      · cases hc : c.post with
        | nil => rw [hc] at ho; cases ho
        | cons => simp
    simp only [earlyReturn, h1, h2, h3, Bool.false_and, Bool.or_false]
  rw [he]
  exact tail_raises (h.more (fun _ ho => ho) fun _ ho => ho)

theorem locTarget_real {c : Cfg} (h : BadOpts c) (hT : realTgt c.tgt) : BadOpts (locTarget c) ∧ realTgt (locTarget c).tgt := by
  unfold locTarget
  split
  · exact ⟨h, hT⟩
  · rename_i hc
    have hr : c.tgt = u! "RomanLoC" := by
      simp only [Bool.and_eq_true, pyEq_eq, strEq_iff] at hc
      exact hc.1
    have key : ∀ S : PyStr, realTgt (match pyIn S GM.LoCTgtMap, pyIn S GM.LoCTgtISO with
        | true, _ => S ++ c.tgt
        | false, true => u! "ISO"
        | false, false => c.tgt) := by
      intro S
      split
      · rw [hr]
        constructor <;> intro e <;> have := congrArg List.length e <;> simp at this
      · exact ⟨by decide, by decide⟩
      · exact hT
    dsimp only
    split
    · exact ⟨h.more (fun o ho => List.mem_append_left _ (List.mem_append_left _ ho)) fun o ho => List.mem_append_right _ ho, key _⟩
    · exact ⟨h.more (fun o ho => List.mem_append_left _ ho) fun o ho => List.mem_append_right _ ho, key _⟩

theorem locTargetOther_real {c : Cfg} (h : BadOpts c) (hT : realTgt c.tgt) :
    BadOpts (locTargetOther c) ∧ realTgt (locTargetOther c).tgt := by
  unfold locTargetOther
  split
  · exact ⟨h, hT⟩
  · split
    · exact ⟨h.more (fun _ ho => ho) fun _ ho => ho, by show (u! "ISO233") ≠ [] ∧ (u! "ISO233") ≠ (u! "Ignore"); decide⟩
    · exact ⟨h.more (fun _ ho => ho) fun _ ho => ho, by show (u! "ISO") ≠ [] ∧ (u! "ISO") ≠ (u! "Ignore"); decide⟩

theorem locSrc_all : GM.LoCSrcMap.all (fun x => !(strEq (x ++ (u! "LoC")) (u! "Ignore"))) = true := by decide +kernel

theorem flow_locSource {c : Cfg} (h : BadOpts c) (hT : realTgt c.tgt) :
    Flow (fun c' => BadOpts c' ∧ realTgt c'.tgt) (locSource c) := by
  have key : realTgt (match pyIn c.tgt GM.LoCSrcMap, isInfix (u! "Tham") c.tgt with
      | true, _ => c.tgt ++ (u! "LoC")
      | false, true => u! "ThamLoC"
      | false, false => c.tgt) := by
    split
    · rename_i hm
      rw [pyIn_eq, strMem_iff] at hm
      have := List.all_eq_true.1 locSrc_all _ hm
      simp only [Bool.not_eq_true', strEq_false] at this
      exact ⟨by simp, this⟩
    · exact ⟨by decide, by decide⟩
    · exact hT
  unfold locSource
  split
  · exact Flow.pure ⟨h, hT⟩
  · refine Flow.bind (Flow.of_lin (Lin.branch (Lin.append _) (Lin.pure _))) fun _ _ => ?_
    dsimp only
    split
    · exact Flow.pure ⟨h.more (fun o ho => List.mem_append_right _ ho) fun o ho => List.mem_append_right _ ho, key⟩
    · exact Flow.pure ⟨h.more (fun o ho => List.mem_append_left _ ho) fun o ho => List.mem_append_right _ ho, key⟩

theorem locSourceOther_real {c : Cfg} (h : BadOpts c) (hT : realTgt c.tgt) :
    BadOpts (locSourceOther c) ∧ realTgt (locSourceOther c).tgt := by
  unfold locSourceOther
  split
  · exact ⟨h, hT⟩
  · split
    · exact ⟨h.more (fun _ ho => ho) fun _ ho => ho, hT⟩
    · exact ⟨h.more (fun _ ho => ho) fun _ ho => ho, hT⟩

theorem base_real : GM.semiticISO.all (fun p => !(strEq p.2 []) && !(strEq p.2 (u! "Ignore"))) = true := by decide +kernel

theorem base_real' {x y : PyStr} (h : dictGet? GM.semiticISO x = some y) : realTgt y := by
  have := List.all_eq_true.1 base_real _ (dictGet?_some h)
  simp only [Bool.and_eq_true, Bool.not_eq_true', strEq_false] at this
  exact this

theorem body_raises {self : Cfg → Gen Unit} (hself : ∀ c, BadOpts c → realTgt c.tgt → Raises (self c)) {c : Cfg} (h : BadOpts c)
    (hT : realTgt c.tgt) : Raises (convertBody self c) := by
  unfold convertBody
  obtain ⟨h1, t1⟩ := locTarget_real h hT
  obtain ⟨h2, t2⟩ := locTargetOther_real h1 t1
  refine Raises.bind (flow_locSource h2 t2) fun c3 ⟨h3, t3⟩ => ?_
  obtain ⟨h4, t4⟩ := locSourceOther_real h3 t3
  refine Raises.bind (P := fun c' => BadOpts c' ∧ realTgt c'.tgt) ?_ fun c5 ⟨h5, t5⟩ => ?_
  · unfold isoTarget
    split
    · exact Flow.pure ⟨h4, t4⟩
    · rename_i base hb
      have inner : Raises (self { locSourceOther c3 with tgt := base }) :=
        hself _ (h4.more (fun _ ho => ho) fun _ ho => ho) (base_real' hb)
      cases pyEq base (locSourceOther c3).src with
      | true =>
        exact Flow.pure ⟨h4.more (fun o ho => List.mem_append_right _ ho) fun o ho => List.mem_append_right _ ho,
          by show (u! "Latn") ≠ [] ∧ (u! "Latn") ≠ (u! "Ignore"); decide⟩
      | false => exact Raises.flow (Raises.first (Raises.first inner))
  · refine Raises.bind (P := fun c' => BadOpts c' ∧ realTgt c'.tgt) ?_ fun c6 ⟨h6, t6⟩ => finish_raises h6 t6
    unfold isoSource
    split
    · exact Flow.pure ⟨h5, t5⟩
    · rename_i base hb
      have inner : Raises (self { c5 with tgt := base }) := hself _ (h5.more (fun _ ho => ho) fun _ ho => ho) (base_real' hb)
      exact Flow.branch (fun _ => Flow.pure ⟨h5.more (fun o ho => List.mem_append_right _ ho) fun o ho => List.mem_append_right _ ho, t5⟩)
        fun _ => Raises.flow (Raises.first inner)

theorem convertN_raises : ∀ (n : Nat) (c : Cfg), BadOpts c → realTgt c.tgt → Raises (convertN n c)
  | 0, _, _, _ => fun _ => rfl
  | n + 1, _, h, hT => body_raises (convertN_raises n) h hT

theorem failingPre_all : failingPre.all (fun o => strMem o (names preFns) && (callOption preFns o).prog.raises) = true := by
  decide +kernel

theorem failingPost_all : failingPost.all (fun o => strMem o (names postFns) && (callOption postFns o).prog.raises &&
    !(strEq o (u! "RemoveDiacritics"))) = true := by decide +kernel

/-- **An option that raises makes the conversion raise.** -/
theorem convert_raises {S T : PyStr} {nat : Bool} {pre post : List PyStr} (hT : realTgt T)
    (h : (∃ o ∈ failingPre, o ∈ pre) ∨ ∃ o ∈ failingPost, o ∈ post) : (convert S T nat pre post).prog.raises = true := by
  refine convertN_raises 3 ⟨S, T, nat, pre, post⟩ ?_ hT _
  rcases h with ⟨o, hf, ho⟩ | ⟨o, hf, ho⟩
  · have := List.all_eq_true.1 failingPre_all o hf
    rw [Bool.and_eq_true] at this
    exact Or.inl ⟨o, ho, Raises.of_lin (lin_callOption preFns_lin o) this.2⟩
  · have := List.all_eq_true.1 failingPost_all o hf
    simp only [Bool.and_eq_true, Bool.not_eq_true', strEq_false] at this
    exact Or.inr ⟨o, ho, this.2, Raises.of_lin (lin_callOption postFns_lin o) this.1.2⟩

theorem listed_real : (GM.IndicScripts ++ GM.LatinScripts).all (fun x => !(strEq x []) && !(strEq x (u! "Ignore"))) = true := by
  decide +kernel

theorem resolve_real {T : PyStr} (E : Env) (hT : realTgt T) : realTgt (resolveName E T) := by
  unfold resolveName
  split
  · rename_i x hx
    have := List.all_eq_true.1 listed_real x (List.mem_of_find?_eq_some hx)
    simp only [Bool.and_eq_true, Bool.not_eq_true', strEq_false] at this
    exact this
  · exact hT

/-! ## A standard that cannot be read -/

theorem dmg_facts : pyIn (u! "PersianDMG") GM.LoCScripts = false ∧ pyEq (u! "PersianDMG") (u! "RomanLoC") = false ∧
    (dictGet? GM.semiticISO (u! "PersianDMG")).isSome = true ∧
    GM.semiticISO.all (fun p => !(strEq p.2 (u! "PersianDMG"))) = true ∧
    (callOption preFns ((u! "PersianDMG") ++ (u! "Source"))).prog.raises = true := by decide +kernel

theorem dmg_raises : ∀ (n : Nat) (c : Cfg), c.src = u! "PersianDMG" → realTgt c.tgt → Raises (convertN n c)
  | 0, _, _, _ => fun _ => rfl
  | n + 1, c, hS, hT => by
    obtain ⟨f1, f2, f3, f4, f5⟩ := dmg_facts
    obtain ⟨base, hb⟩ := Option.isSome_iff_exists.1 f3
    have e1 : locTarget c = c := by simp only [locTarget, hS, f1, Bool.and_false]
    have h2 : ∃ T, locTargetOther c = { c with tgt := T } ∧ realTgt T := by
      unfold locTargetOther
      split
      · exact ⟨c.tgt, rfl, hT⟩
      · split
        · exact ⟨_, rfl, by show (u! "ISO233") ≠ [] ∧ (u! "ISO233") ≠ (u! "Ignore"); decide⟩
        · exact ⟨_, rfl, by show (u! "ISO") ≠ [] ∧ (u! "ISO") ≠ (u! "Ignore"); decide⟩
    obtain ⟨T, e2, hT'⟩ := h2
    have e3 : locSource { c with tgt := T } = pure { c with tgt := T } := by
      simp only [locSource, hS, f2, Bool.false_and]
    have e4 : locSourceOther { c with tgt := T } = { c with tgt := T } := by
      simp only [locSourceOther, hS, f2, Bool.false_and]
    show Raises (convertBody (convertN n) c)
    unfold convertBody
    simp only [e1, e2, e3, e4, pure_bind]
    refine Raises.bind (P := fun c' => c' = { c with tgt := T }) ?_ ?_
    · unfold isoTarget
      split
      · exact Flow.pure rfl
      · rename_i b hb'
        have := List.all_eq_true.1 f4 _ (dictGet?_some hb')
        rw [Bool.not_eq_true'] at this
        have hne : pyEq b c.src = false := by rw [hS, pyEq_eq]; exact this
        simp only [hne, Bool.not_false, branch_true]
        exact Raises.flow (Raises.first (Raises.first (dmg_raises n _ hS (base_real' hb'))))
    · rintro _ rfl
      unfold isoSource
      simp only [hS, hb]
      refine Raises.bind (P := fun c' => BadOpts c' ∧ realTgt c'.tgt) ?_ fun c' h => finish_raises h.1 h.2
      refine Flow.branch (fun _ => Flow.pure ⟨Or.inl ⟨_, List.mem_append_left _ (List.mem_singleton.2 rfl), ?_⟩, hT'⟩)
        fun _ => Raises.flow (Raises.first (dmg_raises n _ rfl (base_real' hb)))
      exact Raises.of_lin (lin_callOption preFns_lin _) f5

end Verif
