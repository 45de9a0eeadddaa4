import Verif.Lib.OptionOrder

/-!
# Conversions work part by part
-/

namespace Verif

theorem omSpelling_eq (S : PyStr) : omSpelling S = headSec .OmMap S := by
  unfold omSpelling headSec modAttr
  cases tblOf S with
  | none => rfl
  | some t =>
    simp only [Tbl.get]
    cases t.OmMap <;> rfl

theorem constOk_lines : constOk (linesAna [newline, blank]) = true := by decide +kernel

theorem schwa_lines : (linesAna [newline, blank]).tgt Schwa = true := by decide +kernel

theorem mem_both {z : Nat} (h : z = newline ∨ z = blank) : z ∈ [newline, blank] := by
  rcases h with rfl | rfl <;> simp

theorem mem_srcEdges {S : PyStr} {z : Nat} (hz : z = newline ∨ z = blank) (h : S ∉ crossSources z) : z ∈ srcEdges S := by
  have sub : strMem S (crossSources newline) = true → strMem S (crossSources blank) = true := by
    intro h
    rw [strMem_iff] at *
    revert h
    simp only [crossSources, show Nat.beq newline newline = true from rfl, show Nat.beq blank newline = false from rfl]
    intro h
    simp only [List.mem_cons, List.not_mem_nil, or_false] at *
    rcases h with h | h <;> simp [h]
  unfold srcEdges
  rcases hz with rfl | rfl
  · rw [strMem_false.2 h]
    cases strMem S (crossSources blank) <;> simp
  · have h' := strMem_false.2 h
    cases hn : strMem S (crossSources newline) with
    | true => rw [sub hn] at h'; cases h'
    | false => rw [h']; simp

theorem mem_tgtEdges {T : PyStr} {z : Nat} (hz : z = newline ∨ z = blank) (h : T ∉ crossTargets z) : z ∈ tgtEdges T := by
  have sub : strMem T (crossTargets newline) = true → strMem T (crossTargets blank) = true := by
    intro h
    rw [strMem_iff] at *
    revert h
    simp only [crossTargets, show Nat.beq newline newline = true from rfl, show Nat.beq blank newline = false from rfl]
    intro h
    simp only [List.mem_cons, List.not_mem_nil, or_false] at *
    rcases h with h | h | h | h | h | h | h | h | h | h <;> simp [h]
  unfold tgtEdges
  rcases hz with rfl | rfl
  · rw [strMem_false.2 h]
    cases strMem T (crossTargets blank) <;> simp
  · have h' := strMem_false.2 h
    cases hn : strMem T (crossTargets newline) with
    | true => rw [sub hn] at h'; cases h'
    | false => rw [h']; simp

theorem Env.LineOps.apart {E : Env} (hL : E.LineOps) {z : Nat} (hz : z = newline ∨ z = blank) : E.uni.Apart z := by
  obtain ⟨h1, h2, h3, h4⟩ := hL.plain z hz
  refine ⟨h1, h2, h3, h4, ?_⟩
  rcases hz with rfl | rfl <;> decide

theorem Env.LineOps.nfcPlain {E : Env} (hL : E.LineOps) : E.NfcPlain := by
  intro c hc s s'
  refine hL.nfc c ?_ s s'
  simpa [tameChars] using hc

theorem kind_II {S T : PyStr} (hk : kindOf S T = some .II) : pyIn S GM.LatinScripts = false ∧ pyIn T GM.IndicScripts = true := by
  unfold kindOf at hk; split at hk <;> simp_all

theorem kind_LI {S T : PyStr} (hk : kindOf S T = some .LI) : pyIn S GM.LatinScripts = true ∧ pyIn T GM.IndicScripts = true := by
  unfold kindOf at hk; split at hk <;> simp_all

theorem kind_IL {S T : PyStr} (hk : kindOf S T = some .IL) : pyIn S GM.LatinScripts = false := by
  unfold kindOf at hk; split at hk <;> simp_all

theorem kind_LL {S T : PyStr} (hk : kindOf S T = some .LL) : pyIn S GM.LatinScripts = true := by
  unfold kindOf at hk; split at hk <;> simp_all

theorem omSubs_dormant {W : List Nat} {punc sOm t : PyStr} (hT : tmplPlain t = true)
    (h : (omSubs punc sOm []).prog.dormant W = true) : (omSubs punc sOm t).prog.dormant W = true :=
  Ana.omSubs (dormantAna W) (punc := punc) (sOm := sOm) (t := t) hT rfl h

theorem om_dormant_II {W : List Nat} {S T : PyStr} (hlen : Nat.beq (headSec .OmMap S).length 1 = false)
    (hT : tmplPlain (headSec .OmMap T) = true)
    (h : (omSubs (omPunc (lettersOf S GM.Signs)) (headSec .OmMap S) []).prog.dormant W = true) :
    (omPieces S T .II).prog.dormant W = true := by
  unfold omPieces indicOm
  rw [hlen]
  exact omSubs_dormant hT h

theorem om_rep_II {z : Nat} {S T : PyStr} (hlen : Nat.beq (headSec .OmMap S).length 1 = true)
    (hS : (linesAna [z]).src (headSec .OmMap S) = true) (hT : (linesAna [z]).tgt (headSec .OmMap T) = true) :
    (omPieces S T .II).prog.apartL [z] = true := by
  unfold omPieces indicOm
  rw [hlen]
  exact (linesAna [z]).rep hS hT

theorem om_dormant_LI {W : List Nat} {S T : PyStr} (hT : tmplPlain (headSec .OmMap T) = true)
    (h : (omSubs (omPunc (lettersOf S GM.Signs)) (headSec .OmMap S) []).prog.dormant W = true)
    (h' : (omSubs (u! "(\\s)") (headSec .OmMap S) []).prog.dormant W = true) :
    (omPieces S T .LI).prog.dormant W = true := by
  unfold omPieces
  rw [(Lin.omSubs _ _ _).prog_seq]
  exact Prog.dormant_append (omSubs_dormant hT h) (omSubs_dormant hT h')

theorem tgtOk_om {A : Ana} {T : PyStr} (h : tgtOk A T = true) :
    tmplPlain (headSec .OmMap T) = true ∧ A.tgt (headSec .OmMap T) = true := by
  simp only [tgtOk, Bool.and_eq_true, Bool.not_eq_true'] at h
  obtain ⟨⟨⟨⟨⟨⟨⟨⟨⟨⟨tT, tO⟩, tOm⟩, tOmA⟩, tL⟩, tLA⟩, tN⟩, tP⟩, tF⟩, tF'⟩, tK⟩ := h
  exact ⟨tOm, tOmA⟩

theorem Prog.apartL_split {zs : List Nat} {p q : Prog} (h : (p.append q).apartL zs = true) :
    p.apartL zs = true ∧ q.apartL zs = true := by
  induction p with
  | done => exact ⟨rfl, h⟩
  | rep x y k ih =>
    simp only [Prog.append, Prog.apartL, Bool.cond_false_right, Bool.cond_false_left, Bool.and_eq_true] at *
    exact ⟨⟨h.1, h.2.1, (ih h.2.2).1⟩, (ih h.2.2).2⟩
  | sub x y k ih =>
    simp only [Prog.append, Prog.apartL] at *
    cases hc : compileSub x y with
    | none => rw [hc] at h; cases h
    | some rt =>
      rw [hc] at h
      simp only [Bool.cond_false_right, Bool.and_eq_true] at *
      exact ⟨⟨h.1, (ih h.2).1⟩, (ih h.2).2⟩
  | ite c t e k iht ihe ihk =>
    simp only [Prog.append, Prog.apartL, Bool.cond_false_right, Bool.and_eq_true] at *
    exact ⟨⟨h.1, (ihk h.2).1⟩, (ihk h.2).2⟩
  | attempt p k ihp ihk =>
    simp only [Prog.append, Prog.apartL, Bool.and_eq_true] at *
    exact ⟨⟨h.1, (ihk h.2).1⟩, (ihk h.2).2⟩
  | host g k ih =>
    simp only [Prog.append, Prog.apartL, Bool.and_eq_true] at *
    exact ⟨⟨h.1, (ih h.2).1⟩, (ih h.2).2⟩
  | _ => cases h

/-- After the letters: nativisation, the options, the end. -/
def finishO (T : PyStr) (nat : Bool) (post : List PyStr) : Gen Unit := do
  branch nat (nativization T T []) (pure ())
  forEach post (callOption postFns)
  PreProcess.retainLatin true
  PostProcess.defaultPost T T nat [] []

theorem finishO_apart {zs : List Nat} {T : PyStr} {nat : Bool} {post : List PyStr} (h : (finishT T nat).prog.apartL zs = true)
    (hp : (forEach post (callOption postFns)).prog.apartL zs = true) : (finishO T nat post).prog.apartL zs = true := by
  unfold finishT at h
  unfold finishO
  rw [(Lin.branch (lin_nativization T T []) (Lin.pure ())).prog_seq] at h ⊢
  obtain ⟨h1, h2⟩ := Prog.apartL_split h
  rw [(Lin.forEach fun o => lin_callOption postFns_lin o).prog_seq]
  exact Prog.apartL_append h1 (Prog.apartL_append hp h2)

theorem convert_pieces_options {A B : Ana} {nat : Bool} {S T : PyStr} (hS : srcOk A S = true) (hT : tgtOk B T = true)
    (pS : plainSrc S = true) (pT : plainTgt T = true) (hne : S ≠ T) {kd : Kind} (hk : kindOf S T = some kd)
    {post : List PyStr} (hpost : ∀ o ∈ post, o ∉ specialPost) :
    convert S T nat [] post = (do PreProcess.PreProcess S T [] []; scriptPieces S T kd; finishO T nat post) := by
  obtain ⟨h1, h2⟩ := srcOk_tbl hS
  obtain ⟨h3, h4, h5, -⟩ := tgtOk_tbl hT
  rw [convert_options pS pT hne nat (fun _ h => by cases h) hpost]
  unfold plainMain plainEnd finishO
  rw [convertScript_pieces h1 h3 h2 h4 hk, nativization_src h5, defaultPost_src S T T]
  simp only [bind_assoc]
  rfl

/-- Conversions work part by part. -/
theorem convert_apart {E : Env} (hE : E.TextOps) (hL : E.LineOps) {S T : PyStr} {z : Nat} (hz : z = newline ∨ z = blank)
    (hS : S ∈ sourceScripts) (hT : T ∈ targetScripts) (hne : S ≠ T) (cS : S ∉ crossSources z) (cT : T ∉ crossTargets z)
    {nat : Bool} {post : List PyStr} (hsp : ∀ o ∈ post, o ∉ specialPost)
    (hpost : (forEach post (callOption postFns)).prog.apartL [z] = true) {texts : List PyStr} (hB : NoBar S texts) (hO : seeksOm S T → NoOm E S texts)
    {a b a' b' : PyStr} (ma : a ∈ texts) (mb : b ∈ texts)
    (ha : (convert S T nat [] post).prog.run E a = .ok a') (hb : (convert S T nat [] post).prog.run E b = .ok b') :
    (convert S T nat [] post).prog.run E (a ++ z :: b) = .ok (a' ++ z :: b') := by
  have pS := src_plain hS
  have pT := tgt_plain hT
  have fS := srcFull_all pS
  have fT := tgtFull_all pT
  unfold srcFull at fS
  unfold tgtFull at fT
  simp only [Bool.and_eq_true] at fT
  obtain ⟨kd, hk⟩ := kindOf_plain pS pT
  -- the checks
  have zS := mem_srcEdges hz cS
  have zT := mem_tgtEdges hz cT
  have lS := srcLines_all (src_plain hS)
  have lT := tgtLines_all (tgt_plain hT)
  have lS' : srcFirst (srcEdges S) S = true ∧
      (oneOm S = true ∨ ∀ c ∈ omLetters S, Nat.ble 33 c = true ∧ srcOm (srcEdges S) S c = true) := by
    unfold srcLines at lS
    cases he : srcEdges S with
    | nil => rw [he] at zS; cases zS
    | cons x l =>
      rw [he] at lS
      simpa only [Bool.and_eq_true, Bool.or_eq_true, List.all_eq_true] using lS
  have tOk : tgtOk (linesAna [z]) T = true := by
    unfold tgtLines at lT
    cases he : tgtEdges T with
    | nil => rw [he] at zT; cases zT
    | cons x l =>
      rw [he] at lT
      exact tgtOk_mono (linesAna_le (by rw [← he]; exact zT)) lT
  have cOk := constOk_mono (linesAna_le (mem_both hz)) constOk_lines
  have sch := (linesAna_le (mem_both hz)).tgt schwa_lines
  obtain ⟨lF, lO⟩ := lS'
  simp only [srcFirst, Bool.and_eq_true] at lF
  obtain ⟨⟨⟨-, -⟩, lL⟩, lK⟩ := lF
  have sL := allLetters_mono (linesAna_le zS).src lL
  have sO : pyIn S GM.LatinScripts = false → (linesAna [z]).src (headSec .OmMap S) = true := by
    intro hl
    rw [hl] at lK
    simp only [Bool.and_eq_true] at lK
    exact (linesAna_le zS).src lK.1
  have rest := rest_good cOk sL sO tOk hk sch
  obtain ⟨-, -, -, h6, h7⟩ := tgtOk_tbl tOk
  obtain ⟨r, hr, hs⟩ := List.any_eq_true.1 h6
  -- the program in three stages
  have shape : (convert S T nat [] post).prog = ((PreProcess.PreProcess S r [] []).prog.append (headPieces S kd).prog).append
      ((omPieces S T kd).prog.append ((restPieces S T kd).prog.append (finishO T nat post).prog)) := by
    rw [convert_pieces_options fS fT.1.1.1.1 pS pT hne hk hsp, preProcess_tgt hs, scriptPieces_stages]
    simp only [bind_assoc]
    rw [(lin_preProcess _ _ _ _).prog_seq, (lin_headPieces S kd).prog_seq, (lin_omPieces S T kd).prog_seq,
      (lin_restPieces S T kd).prog_seq, Prog.append_assoc]
  have first : ∀ {W : List Nat}, lineFirstOk W (srcEdges S) S kd = true →
      ((PreProcess.PreProcess S r [] []).prog.append (headPieces S kd).prog).dropLower.calm W (srcEdges S) = true := by
    intro W h
    simp only [lineFirstOk, Bool.and_eq_true, List.all_eq_true] at h
    exact Prog.calm_first (h.1 r hr) h.2
  have last := (linesAna [z]).append rest (finishO_apart (h7 nat) hpost)
  have zctl : ∀ {W : List Nat}, (∀ c ∈ W, Nat.ble 33 c = true) → z ∉ W ∧ ∀ c, 7 ≤ c → c ≤ 13 → c ∉ W := by
    intro W h
    refine ⟨fun hm => ?_, fun c h1 h2 hm => ?_⟩
    · have := Nat.le_of_ble_eq_true (h z hm)
      rcases hz with rfl | rfl <;> simp [newline, blank] at this
    · have := Nat.le_of_ble_eq_true (h c hm)
      omega
  have barOut : ∀ t ∈ texts, AllC (fun c => c ∉ barOf S) t ∧ ∀ l, E.host .lower t = .ok l → AllC (fun c => c ∉ barOf S) l := by
    intro t ht
    unfold barOf
    cases hp : pyIn S GM.pipeScripts with
    | false => exact ⟨fun _ _ => by simp, fun _ _ _ _ => by simp⟩
    | true =>
      have hb := hB (strMem_iff.1 hp) t ht
      refine ⟨fun c hc hm => ?_, fun l hl c hc hm => ?_⟩
      · rw [List.mem_singleton] at hm; subst hm; exact hb hc
      · rw [List.mem_singleton] at hm; subst hm; exact hL.bar t l hb hl hc
  have barBig : ∀ c ∈ barOf S, Nat.ble 33 c = true := by
    intro c hc
    unfold barOf at hc
    split at hc
    · rw [List.mem_singleton] at hc; subst hc; rfl
    · cases hc
  have run : ∀ {W : List Nat}, (∀ c ∈ W, Nat.ble 33 c = true) → lineFirstOk W (srcEdges S) S kd = true →
      ((omPieces S T kd).prog.dormant W = true ∨ (omPieces S T kd).prog.apartL [z] = true) →
      (∀ t ∈ texts, AllC (fun c => c ∉ W) t ∧ ∀ l, E.host .lower t = .ok l → AllC (fun c => c ∉ W) l) →
      (convert S T nat [] post).prog.run E (a ++ z :: b) = .ok (a' ++ z :: b') := by
    intro W hW hf hom hw
    rw [shape] at ha hb ⊢
    exact stages_apart zS (List.mem_singleton_self z) hL.nfcPlain hE.total (hL.apart hz) (hL.split z hz) (zctl hW).1
      (zctl hW).2 (first hf) hom last (hw a ma).1 (hw b mb).1 (hw a ma).2 (hw b mb).2 ha hb
  obtain ⟨tPlain, tOmA⟩ := tgtOk_om tOk
  have noOm : ∀ (k : Kind), kd = k → (k = .II ∨ k = .LI) → seeksOm S T → oneOm S = false →
      (convert S T nat [] post).prog.run E (a ++ z :: b) = .ok (a' ++ z :: b') := by
    intro k hkd hk2 hseek hone
    obtain ⟨c, hc, hct⟩ := hO hseek
    rcases lO with h1 | h1
    · rw [h1] at hone; cases hone
    obtain ⟨big, h1⟩ := h1 c hc
    subst hkd
    unfold srcOm at h1
    rcases hk2 with hk2 | hk2
    · subst hk2
      have hSL := (kind_II hk).1
      rw [hSL] at h1
      simp only [Bool.and_eq_true] at h1
      have hlen : Nat.beq (headSec .OmMap S).length 1 = false := by
        unfold oneOm at hone
        rw [hSL] at hone
        exact hone
      refine run (W := [c]) (fun d hd => by rw [List.mem_singleton] at hd; subst hd; exact big) h1.1 (.inl ?_) ?_
      · exact om_dormant_II hlen tPlain h1.2
      · intro t ht
        refine ⟨fun d hd hm => ?_, fun l hl d hd hm => ?_⟩
        · rw [List.mem_singleton] at hm; subst hm; exact (hct t ht).1 hd
        · rw [List.mem_singleton] at hm; subst hm; exact (hct t ht).2 l hl hd
    · subst hk2
      have hSL := (kind_LI hk).1
      rw [hSL] at h1
      simp only [Bool.and_eq_true] at h1
      refine run (W := c :: barOf S) (fun d hd => ?_) h1.1.1 (.inl ?_) ?_
      · rcases List.mem_cons.1 hd with rfl | hd
        · exact big
        · exact barBig d hd
      · exact om_dormant_LI tPlain h1.1.2 h1.2
      · intro t ht
        refine ⟨fun d hd hm => ?_, fun l hl d hd hm => ?_⟩
        · rcases List.mem_cons.1 hm with rfl | hm
          · exact (hct t ht).1 hd
          · exact (barOut t ht).1 d hd hm
        · rcases List.mem_cons.1 hm with rfl | hm
          · exact (hct t ht).2 l hl hd
          · exact (barOut t ht).2 l hl d hd hm
  cases kd with
  | II =>
    obtain ⟨hSL, hTI⟩ := kind_II hk
    cases hone : oneOm S with
    | false =>
      refine noOm .II rfl (.inl rfl) ⟨strMem_iff.1 hTI, .inr ?_⟩ hone
      intro h1
      rw [omSpelling_eq] at h1
      unfold oneOm at hone
      rw [hSL, h1] at hone
      cases hone
    | true =>
      have hlen : Nat.beq (headSec .OmMap S).length 1 = true := by
        unfold oneOm at hone
        rw [hSL] at hone
        exact hone
      rw [hSL] at lK
      exact run (W := []) (fun _ h => by cases h) ((Bool.and_eq_true _ _).mp lK).2 (.inr (om_rep_II hlen (sO hSL) tOmA))
        (fun _ _ => ⟨fun _ _ h => (by cases h), fun _ _ _ _ h => (by cases h)⟩)
  | LI =>
    obtain ⟨hSL, hTI⟩ := kind_LI hk
    refine noOm .LI rfl (.inr rfl) ⟨strMem_iff.1 hTI, .inl (strMem_iff.1 hSL)⟩ ?_
    unfold oneOm
    rw [hSL]
    rfl
  | IL =>
    have hSL := kind_IL hk
    rw [hSL] at lK
    exact run (W := []) (fun _ h => by cases h) ((Bool.and_eq_true _ _).mp lK).2 (.inl rfl)
      (fun _ _ => ⟨fun _ _ h => (by cases h), fun _ _ _ _ h => (by cases h)⟩)
  | LL =>
    have hSL := kind_LL hk
    rw [hSL] at lK
    exact run barBig lK (.inl rfl) barOut

end Verif
