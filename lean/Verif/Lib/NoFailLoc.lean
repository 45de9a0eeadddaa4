import Verif.Lib.NoFailNames

/-!
# ALA-LC romanisation leads to a conversion between two other scripts
-/

namespace Verif

variable {kp : Bool}

/-- The text a conversion from ALA-LC romanisation starts with is marked for one target. -/
def khuenMark (c : Cfg) : Bool :=
  pyEq c.src (u! "RomanLoC") && pyIn c.tgt GM.LoCScripts &&
    (!(pyIn c.tgt GM.LoCSrcMap) && isInfix (u! "Tham") c.tgt && isInfix (u! "Khuen") c.tgt)

/-- The target of a conversion from ALA-LC romanisation. -/
def locT (t : PyStr) : PyStr :=
  match pyIn t GM.LoCSrcMap, isInfix (u! "Tham") t with
  | true, _ => t ++ (u! "LoC")
  | false, true => u! "ThamLoC"
  | false, false => t

/-- Its source. -/
def locS (s t : PyStr) : PyStr :=
  match pyIn t GM.LoCTgtMap, pyIn t GM.LoCTgtISO with
  | true, _ => t ++ s
  | false, true => u! "ISO"
  | false, false => s

/-- Scripts and options from `s` to `t`. -/
def locOpts (c : Cfg) (s t : PyStr) : Cfg :=
  match pyIn t GM.LocPostPre with
  | true => ⟨s, t, false, [s ++ (u! "Source")] ++ c.pre, [s ++ (u! "Source")] ++ c.post⟩
  | false => ⟨s, t, c.nativize, c.pre ++ optList GM.LoCSrcPreOptions t, optList GM.LoCSrcPostOptions t ++ c.post⟩

theorem locSource_eq {c : Cfg} (h : (pyEq c.src (u! "RomanLoC") && pyIn c.tgt GM.LoCScripts) = true) :
    locSource c = (branch (!(pyIn c.tgt GM.LoCSrcMap) && isInfix (u! "Tham") c.tgt && isInfix (u! "Khuen") c.tgt)
      (append (u! "ʾ")) (pure ()) >>= fun _ => pure (locOpts c (locS c.src (locT c.tgt)) (locT c.tgt))) := by
  unfold locSource
  simp only [h]
  congr 1
  funext _
  show (match pyIn (locT c.tgt) GM.LocPostPre with
    | true => (pure (⟨locS c.src (locT c.tgt), locT c.tgt, false, [locS c.src (locT c.tgt) ++ (u! "Source")] ++ c.pre,
        [locS c.src (locT c.tgt) ++ (u! "Source")] ++ c.post⟩ : Cfg) : Gen Cfg)
    | false => pure ⟨locS c.src (locT c.tgt), locT c.tgt, c.nativize, c.pre ++ optList GM.LoCSrcPreOptions (locT c.tgt),
        optList GM.LoCSrcPostOptions (locT c.tgt) ++ c.post⟩) = _
  unfold locOpts
  cases pyIn (locT c.tgt) GM.LocPostPre <;> rfl

/-- The scripts and options that ALA-LC romanisation stands for. -/
def locCfg (c : Cfg) : Cfg :=
  let c := locTargetOther (locTarget c)
  match pyEq c.src (u! "RomanLoC") && pyIn c.tgt GM.LoCScripts with
  | false => locSourceOther c
  | true => locOpts c (locS c.src (locT c.tgt)) (locT c.tgt)

/-- A request of ALA-LC romanisation is the request it stands for, on the marked text. -/
theorem convertBody_loc (self : Cfg → Gen Unit) (c : Cfg) (hs : pyEq (locCfg c).src (u! "RomanLoC") = false)
    (ht : pyEq (locCfg c).tgt (u! "RomanLoC") = false) :
    convertBody self c = (branch (khuenMark (locTargetOther (locTarget c))) (append (u! "ʾ")) (pure ()) >>=
      fun _ => convertBody self (locCfg c)) := by
  obtain ⟨e1, e2, e3⟩ := loc_none hs ht
  conv => rhs; unfold convertBody
  simp only [e1, e2, e3, pure_bind]
  clear ht e1 e2 e3
  unfold locCfg at hs
  unfold convertBody locCfg khuenMark
  revert hs
  generalize locTargetOther (locTarget c) = d
  simp only
  cases hb : pyEq d.src (u! "RomanLoC") && pyIn d.tgt GM.LoCScripts with
  | false =>
    intro _
    simp only [locSource, hb, pure_bind, Bool.false_and, branch_false]
  | true =>
    intro hs
    simp only at hs
    rw [locSource_eq hb]
    simp only [Bool.true_and, bind_assoc, pure_bind]
    congr 1
    funext _
    simp only [locSourceOther, hs, Bool.false_and]

/-- `d` has the scripts of `c`, and options of `c` are among those of `d` and of two lists. -/
structure LocRel (pre post : List PyStr) (c d : Cfg) : Prop where
  src : c.src = d.src
  tgt : c.tgt = d.tgt
  hpre : ∀ o ∈ c.pre, o ∈ pre ∨ o ∈ d.pre
  hpost : ∀ o ∈ c.post, o ∈ post ∨ o ∈ d.post

theorem or_right {P a b : List PyStr} (h : ∀ o ∈ a, o ∈ P ∨ o ∈ b) (r : List PyStr) : ∀ o ∈ a ++ r, o ∈ P ∨ o ∈ b ++ r := by
  intro o ho
  rcases List.mem_append.1 ho with ho | ho
  · exact (h o ho).imp id (List.mem_append_left _)
  · exact Or.inr (List.mem_append_right _ ho)

theorem or_left {P a b : List PyStr} (h : ∀ o ∈ a, o ∈ P ∨ o ∈ b) (l : List PyStr) : ∀ o ∈ l ++ a, o ∈ P ∨ o ∈ l ++ b := by
  intro o ho
  rcases List.mem_append.1 ho with ho | ho
  · exact Or.inr (List.mem_append_left _ ho)
  · exact (h o ho).imp id (List.mem_append_right _)

theorem LocRel.target {pre post : List PyStr} {c d : Cfg} (h : LocRel pre post c d) :
    LocRel pre post (locTarget c) (locTarget d) := by
  obtain ⟨s, t, n, p, q⟩ := c
  obtain ⟨s', t', n', p', q'⟩ := d
  obtain ⟨rfl, rfl, h1, h2⟩ := h
  unfold locTarget
  simp only
  split
  · exact ⟨rfl, rfl, h1, h2⟩
  · split
    · exact ⟨rfl, rfl, or_right (or_right h1 _) _, or_left h2 _⟩
    · exact ⟨rfl, rfl, or_right h1 _, or_left h2 _⟩

theorem LocRel.targetOther {pre post : List PyStr} {c d : Cfg} (h : LocRel pre post c d) :
    LocRel pre post (locTargetOther c) (locTargetOther d) := by
  obtain ⟨s, t, n, p, q⟩ := c
  obtain ⟨s', t', n', p', q'⟩ := d
  obtain ⟨rfl, rfl, h1, h2⟩ := h
  unfold locTargetOther
  simp only
  split
  · exact ⟨rfl, rfl, h1, h2⟩
  · split <;> exact ⟨rfl, rfl, h1, h2⟩

theorem LocRel.sourceOther {pre post : List PyStr} {c d : Cfg} (h : LocRel pre post c d) :
    LocRel pre post (locSourceOther c) (locSourceOther d) := by
  obtain ⟨s, t, n, p, q⟩ := c
  obtain ⟨s', t', n', p', q'⟩ := d
  obtain ⟨rfl, rfl, h1, h2⟩ := h
  unfold locSourceOther
  simp only
  split
  · exact ⟨rfl, rfl, h1, h2⟩
  · split <;> exact ⟨rfl, rfl, h1, h2⟩

theorem LocRel.opts {pre post : List PyStr} {c d : Cfg} (h : LocRel pre post c d) (s t : PyStr) :
    LocRel pre post (locOpts c s t) (locOpts d s t) := by
  obtain ⟨s, t, n, p, q⟩ := c
  obtain ⟨s', t', n', p', q'⟩ := d
  obtain ⟨rfl, rfl, h1, h2⟩ := h
  unfold locOpts
  split
  · exact ⟨rfl, rfl, or_left h1 _, or_left h2 _⟩
  · exact ⟨rfl, rfl, or_right h1 _, or_left h2 _⟩

theorem LocRel.cfg {pre post : List PyStr} {c d : Cfg} (h : LocRel pre post c d) :
    LocRel pre post (locCfg c) (locCfg d) := by
  have h' := h.target.targetOther
  unfold locCfg
  simp only [h'.src, h'.tgt]
  split
  · exact h'.sourceOther
  · exact h'.opts _ _

/-- The scripts, with no options, and the options that are added. -/
theorem locCfg_bare (S T : PyStr) (nat : Bool) (pre post : List PyStr) :
    LocRel pre post (locCfg ⟨S, T, nat, pre, post⟩) (locCfg ⟨S, T, true, [], []⟩) :=
  LocRel.cfg ⟨rfl, rfl, fun _ h => Or.inl h, fun _ h => Or.inl h⟩


/-- Scripts of which ALA-LC romanisation can be made. -/
def locSources : List PyStr := anySrc ++ standardsRead ++ us!["RomanLoC"]
/-- Scripts that can be made of ALA-LC romanisation. -/
def locTargets : List PyStr := anyTgt ++ standardsWritten ++ us!["RomanLoC"]

/-- The request that ALA-LC romanisation stands for is a covered one. -/
def locFine (S T : PyStr) : Bool :=
  let c := locCfg ⟨S, T, true, [], []⟩
  (strMem c.src anySrc || strMem c.src standardsRead) && (strMem c.tgt anyTgt || strMem c.tgt standardsWritten)
  && c.pre.all (fun o => strMem o (names preFns) && !(strMem o failingPre) && !(strMem o externalPre))
  && c.post.all (fun o => strMem o (names postFns) && !(strMem o failingPost) && !(strMem o externalPost)
    && !(strMem o movingPost) && !(strEq o (u! "indicDandas")) && !(strEq o (u! "romanFullStop")))
  && (!(strEq c.src (u! "Tamil")) || !(strEq c.tgt (u! "IPA")))
  && (strMem S semiticScripts || strMem S dualScripts || strMem S standardsRead
      || strMem T semiticScripts || strMem T dualScripts || strMem T standardsWritten
      || (strMem c.src letterSrc && !(strMem c.src dualScripts) && strMem c.tgt letterTgt && !(strMem c.tgt dualScripts)))
  && !(pyEq c.src (u! "RomanLoC")) && !(pyEq c.tgt (u! "RomanLoC"))
  && (strMem S loseSrc || strMem S dualScripts || strMem S standardsRead || !(strMem c.src loseSrc))
  && (strMem T loseTgt || strEq T (u! "IPA") || !(strMem c.tgt lossyTgt))
  && (strMem S dualScripts || strMem S standardsRead || !(strMem c.tgt anyTgt) ||
      !(strMem c.src (semiticScripts ++ dualScripts ++ standardsRead)) || strMem c.tgt (semiticScripts ++ dualScripts))
  && (!(strMem c.tgt semiticScripts) || strEq c.tgt T)

theorem locTo_all : locSources.all (fun S => strMem S batakScripts || locFine S (u! "RomanLoC")) = true := by
  decide +kernel
theorem locFrom_all : locTargets.all (fun T => strMem T batakScripts || locFine (u! "RomanLoC") T) = true := by
  decide +kernel

theorem append_safe : (optAna true).ok (.app (u! "ʾ") .done) = true := by decide +kernel

/-- A request of ALA-LC romanisation raises nothing and keeps neutral characters. -/
theorem loc_safe {S T : PyStr} {nat : Bool} {pre post : List PyStr} (h : locFine S T = true)
    (hpre : ∀ o ∈ pre, okPre o) (hpost : ∀ o ∈ post, okPost kp o)
    (htab : (u! "indicDandas") ∈ post ∨ (u! "romanFullStop") ∈ post →
      S ∉ semiticScripts ++ dualScripts ++ standardsRead ∧ T ∉ semiticScripts ++ dualScripts ++ standardsWritten)
    (kS : kp = true → S ∉ loseSrc ++ dualScripts ++ standardsRead) (kT : kp = true → T ∉ loseTgt ++ [u! "IPA"])
    (kD : kp = true → T ∈ semiticScripts → T ∈ doublingSemitic) :
    (optAna kp).ok (convert S T nat pre post).prog = true := by
  have hb := locCfg_bare S T nat pre post
  generalize hc' : locCfg ⟨S, T, true, [], []⟩ = c' at hb
  simp only [locFine, hc', Bool.and_eq_true, Bool.or_eq_true, Bool.not_eq_true', strMem_iff, strMem_false, List.all_eq_true,
    strEq_false] at h
  obtain ⟨⟨⟨⟨⟨⟨⟨⟨⟨⟨⟨h1, h2⟩, h3⟩, h4⟩, h5⟩, h6⟩, h7⟩, h8⟩, h9⟩, h10⟩, h11⟩, h12⟩ := h
  have e7 : pyEq (locCfg ⟨S, T, nat, pre, post⟩).src (u! "RomanLoC") = false := by rw [hb.src]; exact h7
  have e8 : pyEq (locCfg ⟨S, T, nat, pre, post⟩).tgt (u! "RomanLoC") = false := by rw [hb.tgt]; exact h8
  refine USafe.prog ?_
  show USafe kp (convertBody (convertN 2) ⟨S, T, nat, pre, post⟩)
  rw [convertBody_loc _ _ e7 e8]
  refine GSafe.bind (P := fun _ => True) (GSafe.branch (fun _ => USafe.append append_safe) fun _ => USafe.skip) fun _ _ => ?_
  have tab : (u! "indicDandas") ∈ (locCfg ⟨S, T, nat, pre, post⟩).post ∨ (u! "romanFullStop") ∈ (locCfg ⟨S, T, nat, pre, post⟩).post →
      c'.src ∈ letterSrc ∧ c'.src ∉ dualScripts ∧ c'.tgt ∈ letterTgt ∧ c'.tgt ∉ dualScripts := by
    intro h
    have h' : (u! "indicDandas") ∈ post ∨ (u! "romanFullStop") ∈ post := by
      rcases h with h | h
      · exact Or.inl ((hb.hpost _ h).resolve_right fun h => (h4 _ h).1.2 rfl)
      · exact Or.inr ((hb.hpost _ h).resolve_right fun h => (h4 _ h).2 rfl)
    obtain ⟨a, b⟩ := htab h'
    simp only [List.mem_append, not_or] at a b
    rcases h6 with (((((h | h) | h) | h) | h) | h) | h
    · exact absurd h a.1.1
    · exact absurd h a.1.2
    · exact absurd h a.2
    · exact absurd h b.1.1
    · exact absurd h b.1.2
    · exact absurd h b.2
    · exact ⟨h.1.1.1, h.1.1.2, h.1.2, h.2⟩
  clear e7 e8
  revert tab hb
  generalize locCfg ⟨S, T, nat, pre, post⟩ = d
  intro hb tab
  show USafe kp (convert d.src d.tgt d.nativize d.pre d.post)
  refine convert_usafe ?_ ?_ ?_ ?_ ?_ ?_ ?_ ?_ ?_ ?_ ?_
  · rw [hb.src]; exact h1
  · rw [hb.tgt]; exact h2
  · intro o ho
    rcases hb.hpre o ho with ho | ho
    · exact hpre o ho
    · obtain ⟨⟨a, b⟩, c⟩ := h3 o ho
      exact ⟨a, b, c⟩
  · intro o ho
    rcases hb.hpost o ho with ho | ho
    · exact hpost o ho
    · obtain ⟨⟨⟨⟨⟨a, b⟩, c⟩, d⟩, -⟩, -⟩ := h4 o ho
      exact ⟨a, b, c, fun _ => d⟩
  · intro h
    obtain ⟨a, b, c, d⟩ := tab (Or.inl h)
    rw [hb.src, hb.tgt]
    exact ⟨a, b, List.mem_append_left _ c⟩
  · intro h
    obtain ⟨a, b, c, d⟩ := tab (Or.inr h)
    rw [hb.src, hb.tgt]
    exact ⟨c, d, List.mem_append_left _ a⟩
  · rw [hb.src, hb.tgt]
    intro e
    exact h5.resolve_left fun e' => e' e
  · intro e
    have := kS e
    simp only [List.mem_append, not_or] at this
    rw [hb.src]
    rcases h9 with ((h | h) | h) | h
    · exact absurd h this.1.1
    · exact absurd h this.1.2
    · exact absurd h this.2
    · exact h
  · intro e _
    have := kT e
    simp only [List.mem_append, not_or, List.mem_singleton] at this
    rw [hb.tgt]
    rcases h10 with (h | h) | h
    · exact absurd h this.1
    · exact absurd (strEq_iff.1 h) this.2
    · exact h
  · intro e hT' hS'
    have := kS e
    simp only [List.mem_append, not_or] at this
    rw [hb.tgt] at hT' ⊢
    rw [hb.src] at hS'
    rcases h11 with (((h | h) | h) | h) | h
    · exact absurd h this.1.2
    · exact absurd h this.2
    · exact absurd hT' h
    · exact absurd hS' h
    · exact h
  · intro e _ hs
    rw [hb.tgt] at hs ⊢
    rcases h12 with h | h
    · exact absurd hs h
    · rw [strEq_iff.1 h] at hs ⊢
      exact kD e hs

end Verif
