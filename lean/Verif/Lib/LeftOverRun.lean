import Verif.Lib.LeftOverChecks

/-!
# No letter of the source is left: the theorem
-/

namespace Verif

theorem readLetters_list {S x : PyStr} (h : x ∈ readLetters S) : x ∈ letterList S := by
  unfold readLetters at h
  split at h
  · obtain ⟨s, hs, hx⟩ := List.mem_flatMap.1 h
    have : ∀ s ∈ romanSecs, s ∈ letterSecs := by decide
    exact List.mem_flatMap.2 ⟨s, this s hs, hx⟩
  · exact h

theorem letterList_group {S x : PyStr} (h : x ∈ letterList S) : ∃ g ∈ scriptAllGroups, x ∈ lettersOf S g.2 := by
  obtain ⟨s, hs, hx⟩ := List.mem_flatMap.1 h
  have : ∀ s ∈ letterSecs, ∃ g ∈ scriptAllGroups, s ∈ g.2 := by decide
  obtain ⟨g, hg, hs⟩ := this s hs
  exact ⟨g, hg, mem_lettersOf.2 ⟨s, hs, hx⟩⟩

theorem readLetters_inter {S x : PyStr} (hl : pyIn S GM.LatinScripts = true) (h : x ∈ readLetters S) : x ∈ lettersOf S interSecs := by
  unfold readLetters at h
  rw [pyIn_eq] at hl
  rw [hl] at h
  obtain ⟨s, hs, hx⟩ := List.mem_flatMap.1 h
  have : ∀ s ∈ romanSecs, s ∈ interSecs := by decide
  exact mem_lettersOf.2 ⟨s, this s hs, hx⟩

/-- A letter of a source. -/
structure Leaver (S T : PyStr) (c : Nat) : Prop where
  src : S ∈ sourceScripts
  tgt : T ∈ targetScripts
  letter : [c] ∈ readLetters S
  block : ownBlock c = true
  danda : c ∉ dandas
  other : c ∉ writtenWith T

theorem Leaver.inMask {S T : PyStr} {c : Nat} (h : Leaver S T c) : maskMem (maskOf ownLetters) c = true := by
  rw [maskMem_eq]
  refine maskOf_mem (List.mem_flatMap.2 ⟨S, h.src, List.mem_flatMap.2 ⟨[c], h.letter, ?_⟩⟩)
  show c ∈ (match ownBlock c with
    | true => [c]
    | false => [] : PyStr)
  rw [h.block]
  exact .head _

theorem Leaver.outMask {S T : PyStr} {c : Nat} (h : Leaver S T c) : maskMem (targetMask T) c = false := by
  rw [maskMem_eq]
  cases hm : (targetMask T).testBit c with
  | false => rfl
  | true =>
    rcases List.mem_append.1 (mem_of_mask hm) with h' | h'
    · exact absurd h' h.danda
    · exact absurd h' h.other

theorem fresh_foreign {u m c : Nat} (h : maskMem u c = true) (h' : maskMem m c = false) :
    (freshAna (foreignSet u m)).Le (freshAna (onlySet c)) :=
  fresh_le (M := foreignSet u m) (foreignMem_true h h')

theorem Leaver.tgtOk {S T : PyStr} {c : Nat} (h : Leaver S T c) : tgtOk (freshAna (onlySet c)) T = true := by
  exact tgtOk_mono (fresh_foreign h.inMask h.outMask) (fresh_targets h.tgt)

theorem Leaver.constOk {S T : PyStr} {c : Nat} (h : Leaver S T c) : constOk (freshAna (onlySet c)) = true := by
  exact constOk_mono (fresh_foreign h.inMask (by rw [maskMem_eq, Nat.zero_testBit])) fresh_const

theorem Leaver.big {S T : PyStr} {c : Nat} (h : Leaver S T c) : 0x900 ≤ c := by
  have := h.block
  unfold ownBlock at this
  simp only [Bool.or_eq_true, Bool.and_eq_true, Nat.ble_eq, Nat.blt_eq] at this
  omega

theorem Leaver.ne {S T : PyStr} {c : Nat} (h : Leaver S T c) : S ≠ T := by
  intro he
  subst he
  exact h.other (List.mem_append.2 (.inl (List.mem_flatten.2 ⟨_, readLetters_list h.letter, .head _⟩)))

theorem romanSemitic_small : ((readLetters (u! "RomanSemitic")).all fun x => match x with
    | [c] => !(ownBlock c) || natMem c dandas
    | _ => true) = true := by decide +kernel

theorem Leaver.notSemitic {S T : PyStr} {c : Nat} (h : Leaver S T c) : S ≠ (u! "RomanSemitic") := by
  intro he
  have h1 := h.letter
  rw [he] at h1
  have := List.all_eq_true.1 romanSemitic_small _ h1
  have : (!(ownBlock c) || natMem c dandas) = true := this
  rw [h.block, Bool.not_true, Bool.false_or, natMem_iff] at this
  exact h.danda this

theorem schwa_small : ∀ c ∈ Schwa ++ DepV, ownBlock c = false := by decide

theorem fresh_tgt {c : Nat} {x : PyStr} (h : (freshAna (onlySet c)).tgt x = true) : c ∉ x :=
  only_iff.1 ((Bool.and_eq_true _ _).mp h).1

theorem Leaver.letters {S T : PyStr} {c : Nat} (h : Leaver S T c) {g : PyStr × List Sec} (hg : g ∈ scriptAllGroups) {x : PyStr}
    (hx : x ∈ lettersOf T g.2) : c ∉ x := by
  have := h.tgtOk
  simp only [Verif.tgtOk, Bool.and_eq_true, Bool.not_eq_true'] at this
  obtain ⟨⟨⟨⟨⟨⟨⟨⟨⟨⟨tT, tO⟩, tOm⟩, tOmA⟩, tL⟩, tLA⟩, tN⟩, tP⟩, tF⟩, tF'⟩, tK⟩ := this
  exact fresh_tgt (allLetters_mem tLA hg hx)

theorem Leaver.interLetters {S T : PyStr} {c : Nat} (h : Leaver S T c) {x : PyStr}
    (hx : x ∈ lettersOf GM.Inter interSecs) : c ∉ x := by
  have := h.constOk
  simp only [Verif.constOk, Bool.and_eq_true] at this
  exact only_iff.1 ((Bool.and_eq_true _ _).mp (allLetters_inter this.1.1.1.1.1 hx)).1

theorem Leaver.sizeS {S T : PyStr} {c : Nat} (h : Leaver S T c) : sameSize S = true := List.all_eq_true.1 sameSize_src S h.src

theorem Leaver.sizeT {S T : PyStr} {c : Nat} (h : Leaver S T c) : sameSize T = true := List.all_eq_true.1 sameSize_tgt T h.tgt

/-- After the letters have been replaced the letter is gone. -/
theorem gone_II {S T : PyStr} {c : Nat} (h : Leaver S T c) (s : PyStr) : c ∉ applyRules (pairsOf asIs asIs S T) s := by
  obtain ⟨g, hg, hx⟩ := letterList_group (readLetters_list h.letter)
  obtain ⟨y, hy⟩ := mem_zip_left (size_group h.sizeS h.sizeT hg) hx
  refine rules_gone (fun p hp => ?_) (pairsOf_mem (src := asIs) (tgt := asIs) hg hy) s
  obtain ⟨g, hg, -, h2⟩ := mem_pairsOf hp
  exact h.letters hg h2

theorem schwaDep_length (n : PyStr) (l : List PyStr) : (schwaDep n l).length = l.length := by
  unfold schwaDep
  split <;> simp

theorem schwaDep_free {c : Nat} (hc : ownBlock c = true) {n : PyStr} {l : List PyStr} (hl : ∀ x ∈ l, c ∉ x) :
    ∀ x ∈ schwaDep n l, c ∉ x := by
  have hsd : c ∉ Schwa ++ DepV := fun h => by rw [schwa_small c h] at hc; cases hc
  rw [List.mem_append, not_or] at hsd
  intro x hx h
  unfold schwaDep at hx
  split at hx
  · obtain ⟨y, hy, rfl⟩ := List.mem_map.1 hx
    rcases List.mem_append.1 h with h | h
    · exact hl y hy h
    · exact hsd.1 h
  · obtain ⟨y, hy, rfl⟩ := List.mem_map.1 hx
    rcases List.mem_append.1 h with h | h
    · exact hsd.2 h
    · exact hl y hy h
  · exact hl x hx h

theorem gone_IL {S T : PyStr} {c : Nat} (h : Leaver S T c) (s : PyStr) : c ∉ applyRules (pairsOf asIs schwaDep S T) s := by
  obtain ⟨g, hg, hx⟩ := letterList_group (readLetters_list h.letter)
  obtain ⟨y, hy⟩ := mem_zip_left (l' := schwaDep g.1 (lettersOf T g.2))
    ((size_group h.sizeS h.sizeT hg).trans (schwaDep_length _ _).symm) hx
  refine rules_gone (fun p hp => ?_) (pairsOf_mem (src := asIs) (tgt := schwaDep) hg hy) s
  obtain ⟨g, hg, -, h2⟩ := mem_pairsOf hp
  exact schwaDep_free h.block (fun x hx => h.letters hg hx) _ h2

theorem gone_inter {S T : PyStr} {c : Nat} (h : Leaver S T c) (hl : pyIn S GM.LatinScripts = true) (s : PyStr) :
    c ∉ applyRules (interPairs S) s := by
  obtain ⟨y, hy⟩ := mem_zip_left (size_inter h.sizeS sameSize_inter) (readLetters_inter hl h.letter)
  refine rules_gone (y := y) (fun p hp => ?_) ((sortByKeyDesc_perm _ _).mem_iff.2 hy) s
  obtain ⟨a, b⟩ := p
  exact h.interLetters (List.of_mem_zip ((sortByKeyDesc_perm _ _).mem_iff.1 hp)).2

/-- A program that ends without the character whatever it starts with. -/
def Ends (E : Env) (c : Nat) (p : Prog) : Prop := ∀ s r, p.run E s = .ok r → c ∉ r

theorem Ends.before {E : Env} {c : Nat} {g h : Gen Unit} (hl : Lin g) (hh : Ends E c h.prog) : Ends E c (g >>= fun _ => h).prog := by
  intro s r hr
  rw [hl.prog_seq, Prog.run_append] at hr
  cases hg : g.prog.run E s with
  | ok s1 => rw [hg] at hr; exact hh s1 r hr
  | error x => rw [hg] at hr; cases hr

theorem Ends.after {E : Env} {c : Nat} (h7 : 13 < c) {g h : Gen Unit} (hl : Lin g) (hg : Ends E c g.prog)
    (hh : (freshAna (onlySet c)).ok h.prog = true) : Ends E c (g >>= fun _ => h).prog := by
  intro s r hr
  rw [hl.prog_seq, Prog.run_append] at hr
  cases he : g.prog.run E s with
  | ok s1 => rw [he] at hr; exact fresh_run h7 hh (hg s s1 he) hr
  | error x => rw [he] at hr; cases hr

theorem Ends.rules {E : Env} {c : Nat} {L : List (PyStr × PyStr)} (h : ∀ s, c ∉ applyRules L s) : Ends E c (replaceAll L).prog := by
  intro s r hr
  rw [run_replaceAll] at hr
  cases hr
  exact h s

/-- No conversion leaves the letter. -/
theorem left_over {E : Env} {S T : PyStr} {c : Nat} (h : Leaver S T c) {nat : Bool} :
    Ends E c (convert S T nat [] []).prog := by
  have pS := src_plain h.src
  have pT := tgt_plain h.tgt
  have h7 : 13 < c := by have := h.big; omega
  obtain ⟨kd, hk⟩ := kindOf_plain pS pT
  have hT := h.tgtOk
  have hC := h.constOk
  obtain ⟨-, -, -, -, hF⟩ := tgtOk_tbl hT
  have hRS' : pyEq S (u! "RomanSemitic") = false := by rw [pyEq_eq]; exact strEq_false.2 h.notSemitic
  have h0 := srcFull_all pS
  unfold srcFull at h0
  rw [convert_pieces h0 hT pS pT h.ne hk]
  refine Ends.before (lin_preProcess _ _ _ _) (Ends.after h7 (lin_script kd) ?_ (hF nat))
  simp only [Verif.tgtOk, Bool.and_eq_true, Bool.not_eq_true'] at hT
  obtain ⟨⟨⟨⟨⟨⟨⟨⟨⟨⟨tT, tO⟩, tOm⟩, tOmA⟩, tL⟩, tLA⟩, tN⟩, tP⟩, tF⟩, tF'⟩, tK⟩ := hT
  simp only [Verif.constOk, Bool.and_eq_true] at hC
  obtain ⟨⟨⟨⟨⟨cI, cM⟩, cS⟩, cD⟩, cDepO⟩, cU⟩ := hC
  have hTail : pyIn T GM.IndicScripts = false → (freshAna (onlySet c)).ok (endLL S T).prog = true := by
    intro hTI
    rw [hTI] at tK
    simp only [Bool.and_eq_true, Bool.not_eq_true'] at tK
    unfold endLL
    rw [postFix_class tK.1.1]
    exact List.all_eq_true.1 tK.2 _ (srcClass_classes S T)
  cases kd with
  | II =>
    have hTI : pyIn T GM.IndicScripts = true := by
      unfold kindOf at hk; split at hk <;> simp_all
    rw [hTI] at tK
    simp only [Bool.and_eq_true] at tK
    exact Ends.before (lin_prefixII S) (Ends.after h7 (lin_midII S T)
      (Ends.before (lin_indicOm _ _ _) (Ends.rules (gone_II h))) tK.2)
  | LI =>
    have hSL : pyIn S GM.LatinScripts = true := by
      unfold kindOf at hk; split at hk <;> simp_all
    have hTI : pyIn T GM.IndicScripts = true := by
      unfold kindOf at hk; split at hk <;> simp_all
    rw [hTI] at tK
    simp only [Bool.and_eq_true] at tK
    refine Ends.before (lin_preLI S) (Ends.after h7 (lin_midLI S T) ?_ ((freshAna _).seq (lin_postLI T) tK.1 tK.2))
    refine Ends.before (Lin.omSubs _ _ _) (Ends.before (Lin.omSubs _ _ _)
      (Ends.after h7 (Lin.replaceAll _) (Ends.rules (gone_inter h hSL)) ((freshAna _).seq lin_midInter cM ?_)))
    refine (freshAna _).replaceAll fun p hp => ?_
    obtain ⟨g, hg, h1, h2⟩ := mem_pairsOf hp
    refine ⟨?_, allLetters_mem tLA hg h2⟩
    unfold depVowels at h1
    split at h1
    · obtain ⟨x, hx, hxp⟩ := List.mem_map.1 h1
      rw [← hxp]
      exact (freshAna _).src_append cDepO ((freshAna _).src_tgt (allLetters_mem cI hg hx))
    · exact allLetters_mem cI hg h1
  | IL =>
    have hTI : pyIn T GM.IndicScripts = false := by
      unfold kindOf at hk; split at hk <;> simp_all
    have hTL := hTail hTI
    rw [hTI] at tK
    simp only [Bool.and_eq_true] at tK
    refine Ends.before (lin_prefixII S) (Ends.after h7 (lin_midIL S T)
      (Ends.before (Lin.replace _ _) ?_) ((freshAna _).seq (lin_headIL T) tK.1.2 hTL))
    unfold lettersIL
    rw [hRS', branch_false]
    exact Ends.rules (gone_IL h)
  | LL =>
    have hSL : pyIn S GM.LatinScripts = true := by
      unfold kindOf at hk; split at hk <;> simp_all
    have hTI : pyIn T GM.IndicScripts = false := by
      unfold kindOf at hk
      cases hTI : pyIn T GM.IndicScripts with
      | false => rfl
      | true => rw [hSL, hTI] at hk; simp at hk
    have hTL := hTail hTI
    refine Ends.before (lin_tryFixReverse S) (Ends.after h7 (lin_midLL S T)
      (Ends.after h7 (Lin.replaceAll _) (Ends.rules (gone_inter h hSL)) ?_) hTL)
    refine (freshAna _).replaceAll fun p hp => ?_
    obtain ⟨a, b⟩ := p
    have := List.of_mem_zip hp
    exact ⟨allLetters_inter cI this.1, allLetters_inter tLA this.2⟩

end Verif
