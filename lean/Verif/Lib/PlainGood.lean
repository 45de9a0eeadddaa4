import Verif.Lib.PlainSplit
import Verif.Lib.FnsLin

/-!
# Plain conversions pass the analyses

`srcOk` and `tgtOk` are computed once per script; `plain_good` lifts them to every pair.
-/

namespace Verif

theorem lin_shiftDiacritics (S : PyStr) (b : Bool) : Lin (ConvertFix.ShiftDiacritics S b) := by
  unfold ConvertFix.ShiftDiacritics; lin

theorem lin_removeJoiners : Lin PreProcess.RemoveJoiners := by
  unfold PreProcess.RemoveJoiners; lin

theorem lin_tryFixReverse (S : PyStr) : Lin (tryFixReverse S) := by
  unfold tryFixReverse
  split
  · exact Lin.tryAttr _
  · exact Lin.pure _

theorem lin_prefixII (S : PyStr) : Lin (prefixII S) :=
  Lin.bind lin_removeJoiners fun _ => Lin.bind (lin_shiftDiacritics S true) fun _ => lin_tryFixReverse S

theorem lin_vedicLatinIndic (S : PyStr) : Lin (ConvertFix.VedicSvarasLatinIndic S) := by
  unfold ConvertFix.VedicSvarasLatinIndic; lin

theorem lin_preLI (S : PyStr) : Lin (preLI S) := by
  unfold preLI
  lin
  · exact lin_tryFixReverse S
  · exact lin_vedicLatinIndic S

theorem lin_midInter : Lin midInter := by
  unfold midInter PreProcess.RomanPreFix; lin

theorem lin_postLI (T : PyStr) : Lin (postLI T) := by
  unfold postLI; lin

theorem lin_indicOm (l : List PyStr) (a b : PyStr) : Lin (indicOm l a b) := by
  unfold indicOm
  split
  · exact Lin.omSubs _ _ _
  · exact Lin.replace _ _

theorem lin_midII (S T : PyStr) : Lin (midII S T) :=
  Lin.bind (lin_indicOm _ _ _) fun _ => Lin.replaceAll _

theorem lin_midLI (S T : PyStr) : Lin (midLI S T) :=
  Lin.bind (Lin.omSubs _ _ _) fun _ => Lin.bind (Lin.omSubs _ _ _) fun _ =>
    Lin.bind (Lin.replaceAll _) fun _ => Lin.bind lin_midInter fun _ => Lin.replaceAll _

theorem lin_lettersIL (S T : PyStr) : Lin (lettersIL S T) := by
  unfold lettersIL
  lin
  exact Lin.replaceAll _

theorem lin_midIL (S T : PyStr) : Lin (midIL S T) :=
  Lin.bind (Lin.replace _ _) fun _ => lin_lettersIL S T

theorem lin_midLL (S T : PyStr) : Lin (midLL S T) :=
  Lin.bind (Lin.replaceAll _) fun _ => Lin.replaceAll _

/-- One target of each kind that `PreProcess` distinguishes. -/
def preReps : List PyStr := us!["Devanagari", "Tamil", "IAST", "ISO", "SLP1"]

theorem lin_headIL (T : PyStr) : Lin (headIL T) :=
  Lin.bind (lin_ConvertFix_FixRomanOutput T) fun _ => lin_ConvertFix_VedicSvarsIndicLatin

theorem lin_fixForward (T : PyStr) : Lin (fixForward T) := by
  unfold fixForward
  split
  · rename_i f h
    exact fixIndicFns_lin _ (dictGet?_some h) false
  · exact Lin.pure _

theorem lin_endII (T : PyStr) : Lin (endII T) := by
  unfold endII fixIndicOutput; lin
  · exact lin_fixForward T
  · exact lin_shiftDiacritics T false
  · exact lin_PostProcess_default _

theorem lin_endLL (S T : PyStr) : Lin (endLL S T) :=
  Lin.bind (lin_ConvertFix_PostFixRomanOutput S T) fun _ => lin_PostProcess_default _

/-- The sources whose tails must be looked at for a Roman target. -/
def classesFor (T : PyStr) : List PyStr :=
  (u! "Devanagari") :: (match pyIn T us!["RomanReadable", "RomanColloquial", "IPA"] with
    | true => ownRules
    | false => [])

theorem srcClass_classes (S T : PyStr) : srcClass S T ∈ classesFor T := by
  unfold classesFor
  rcases srcClass_mem S T with h | ⟨h, h'⟩
  · rw [h]; simp
  · rw [h]; exact List.mem_cons_of_mem _ h'

/-- The analyses pass on everything that depends on the source. -/
def srcOk (A : Ana) (S : PyStr) : Bool :=
  hasTbl S && hasHead .OmMap S && allLetters A.src S &&
  preReps.all (fun r => A.ok (PreProcess.PreProcess S r [] []).prog) &&
  (match pyIn S GM.LatinScripts with
    | true =>
      A.ok (preLI S).prog && A.ok (tryFixReverse S).prog &&
      A.ok (omSubs (omPunc (lettersOf S GM.Signs)) (headSec .OmMap S) []).prog &&
      A.ok (omSubs (u! "(\\s)") (headSec .OmMap S) []).prog
    | false =>
      A.ok (prefixII S).prog && A.src (headSec .OmMap S) &&
      (match Nat.beq (headSec .OmMap S).length 1 with
        | true => true
        | false => A.ok (omSubs (omPunc (lettersOf S GM.Signs)) (headSec .OmMap S) []).prog))

/-- The analyses pass on everything that depends on the target. -/
def tgtOk (A : Ana) (T : PyStr) : Bool :=
  hasTbl T && hasHead .OmMap T && tmplPlain (headSec .OmMap T) && A.tgt (headSec .OmMap T) && allLetters noSlash T && allLetters A.tgt T &&
  !(pyEq T (u! "Latn")) && preReps.any (sameForPre T) &&
  A.ok (finishT T true).prog && A.ok (finishT T false).prog &&
  (match pyIn T GM.IndicScripts with
    | true => A.ok (postLI T).prog && A.ok (endII T).prog
    | false =>
      !(pyEq T (u! "Malayalam")) && A.ok (headIL T).prog &&
      (classesFor T).all (fun c => A.ok (endLL c T).prog))

/-- The analyses pass on what depends on neither. -/
def constOk (A : Ana) : Bool :=
  allLetters A.src GM.Inter && A.ok midInter.prog &&
  noSlash Schwa && noSlash DepV && A.src DepV &&
  romanSemiticUnasp.all (fun x => A.ok (reSub (x ++ (u! "(?!(ʰ|̤))")) (u! "")).prog)

theorem noSlash_append {x y : PyStr} (hx : noSlash x = true) (hy : noSlash y = true) :
    noSlash (x ++ y) = true := by
  induction x with
  | nil => exact hy
  | cons c x ih =>
    simp only [List.cons_append, noSlash] at hx ⊢
    cases h1 : Nat.beq c 92 <;> simp_all

theorem pre_good {A : Ana} {S T : PyStr} (hS : srcOk A S = true) (hT : preReps.any (sameForPre T) = true) :
    A.ok (PreProcess.PreProcess S T [] []).prog = true := by
  simp only [srcOk, Bool.and_eq_true] at hS
  obtain ⟨⟨⟨⟨sT, sO⟩, sL⟩, sP⟩, sK⟩ := hS
  obtain ⟨r, hr, hs⟩ := List.any_eq_true.1 hT
  rw [preProcess_tgt hs]
  exact (List.all_eq_true.1 sP) r hr

/-- The checks per script give the analysis of every pair. -/
theorem script_good {A : Ana} {S T : PyStr} (hc : constOk A = true)
    (hS : srcOk A S = true) (hT : tgtOk A T = true) {kd : Kind}
    (hk : kindOf S T = some kd) (hIL : kd = .IL → A.tgt Schwa = true) :
    A.ok (scriptPieces S T kd).prog = true := by
  simp only [constOk, Bool.and_eq_true] at hc
  obtain ⟨⟨⟨⟨⟨cI, cM⟩, cSchP⟩, cDepP⟩, cDepO⟩, cU⟩ := hc
  have cDep := A.src_tgt cDepO
  simp only [srcOk, Bool.and_eq_true] at hS
  obtain ⟨⟨⟨⟨sT, sO⟩, sL⟩, sP⟩, sK⟩ := hS
  simp only [tgtOk, Bool.and_eq_true, Bool.not_eq_true'] at hT
  obtain ⟨⟨⟨⟨⟨⟨⟨⟨⟨⟨tT, tO⟩, tOm⟩, tOmA⟩, tL⟩, tLA⟩, tN⟩, tP⟩, tF⟩, tF'⟩, tK⟩ := hT
  have tFree : ∀ g ∈ scriptAllGroups, ∀ x ∈ lettersOf T g.2, noSlash x = true ∧ A.tgt x = true :=
    fun g hg x hx => ⟨allLetters_mem tL hg hx, allLetters_mem tLA hg hx⟩
  have inter : A.ok (replaceAll (interPairs S)).prog = true := by
    refine A.replaceAll fun p hp => ?_
    have := (sortByKeyDesc_perm _ _).mem_iff.1 hp
    obtain ⟨a, b⟩ := p
    have := List.of_mem_zip this
    exact ⟨allLetters_inter sL this.1, A.src_tgt (allLetters_inter cI this.2)⟩
  have classTail : pyIn T GM.IndicScripts = false → A.ok (endLL S T).prog = true := by
    intro hTI
    rw [hTI] at tK
    simp only [Bool.and_eq_true, Bool.not_eq_true'] at tK
    unfold endLL
    rw [postFix_class tK.1.1]
    exact List.all_eq_true.1 tK.2 _ (srcClass_classes S T)
  have schwaOk : A.tgt Schwa = true → ∀ g ∈ scriptAllGroups, ∀ y ∈ schwaDep g.1 (lettersOf T g.2),
      noSlash y = true ∧ A.tgt y = true := by
    intro cSch g hg y hy
    unfold schwaDep at hy
    split at hy
    · obtain ⟨x, hx, rfl⟩ := List.mem_map.1 hy
      exact ⟨noSlash_append (tFree g hg x hx).1 cSchP, A.tgt_append (tFree g hg x hx).2 cSch⟩
    · obtain ⟨x, hx, rfl⟩ := List.mem_map.1 hy
      exact ⟨noSlash_append cDepP (tFree g hg x hx).1, A.tgt_append cDep (tFree g hg x hx).2⟩
    · exact tFree g hg y hy
  cases kd with
  | II =>
    have hSL : pyIn S GM.LatinScripts = false := by
      unfold kindOf at hk; split at hk <;> simp_all
    have hTI : pyIn T GM.IndicScripts = true := by
      unfold kindOf at hk; split at hk <;> simp_all
    rw [hSL] at sK
    rw [hTI] at tK
    simp only [Bool.and_eq_true] at sK tK
    refine A.seq (lin_prefixII S) sK.1.1
      (A.seq (lin_midII S T) (A.seq (lin_indicOm _ _ _) ?_ ?_) tK.2)
    · unfold indicOm
      have h2 := sK.2
      split
      · rename_i hb
        rw [hb] at h2
        exact A.omSubs tOm tOmA h2
      · exact A.rep sK.1.2 tOmA
    · refine A.replaceAll fun p hp => ?_
      obtain ⟨g, hg, h1, h2⟩ := mem_pairsOf hp
      exact ⟨allLetters_mem sL hg h1, (tFree g hg _ h2).2⟩
  | LI =>
    have hSL : pyIn S GM.LatinScripts = true := by
      unfold kindOf at hk; split at hk <;> simp_all
    have hTI : pyIn T GM.IndicScripts = true := by
      unfold kindOf at hk; split at hk <;> simp_all
    rw [hSL] at sK
    rw [hTI] at tK
    simp only [Bool.and_eq_true] at sK tK
    refine A.seq (lin_preLI S) sK.1.1.1
      (A.seq (lin_midLI S T) (A.seq (Lin.omSubs _ _ _) (A.omSubs tOm tOmA sK.1.2)
        (A.seq (Lin.omSubs _ _ _) (A.omSubs tOm tOmA sK.2)
          (A.seq (Lin.replaceAll _) inter (A.seq lin_midInter cM ?_))))
      (A.seq (lin_postLI T) tK.1 tK.2))
    refine A.replaceAll fun p hp => ?_
    obtain ⟨g, hg, h1, h2⟩ := mem_pairsOf hp
    refine ⟨?_, (tFree g hg _ h2).2⟩
    unfold depVowels at h1
    split at h1
    · obtain ⟨x, hx, hxp⟩ := List.mem_map.1 h1
      rw [← hxp]
      exact A.src_append cDepO (A.src_tgt (allLetters_mem cI hg hx))
    · exact allLetters_mem cI hg h1
  | IL =>
    have hSL : pyIn S GM.LatinScripts = false := by
      unfold kindOf at hk; split at hk <;> simp_all
    have hTI : pyIn T GM.IndicScripts = false := by
      unfold kindOf at hk; split at hk <;> simp_all
    have hTail := classTail hTI
    rw [hSL] at sK
    rw [hTI] at tK
    simp only [Bool.and_eq_true] at sK tK
    refine A.seq (lin_prefixII S) sK.1.1
      (A.seq (lin_midIL S T) (A.seq (Lin.replace _ _)
        (A.rep sK.1.2 tOmA) ?_) (A.seq (lin_headIL T) tK.1.2 hTail))
    have hp2 : ∀ p ∈ pairsOf asIs schwaDep S T, A.src p.1 = true ∧ noSlash p.2 = true ∧ A.tgt p.2 = true := by
      intro p hp
      obtain ⟨g, hg, h1, h2⟩ := mem_pairsOf hp
      exact ⟨allLetters_mem sL hg h1, schwaOk (hIL rfl) g hg _ h2⟩
    unfold lettersIL
    cases pyEq S (u! "RomanSemitic") with
    | false => exact A.replaceAll fun p hp => ⟨(hp2 p hp).1, (hp2 p hp).2.2⟩
    | true =>
      rw [branch_true]
      refine A.forEach (fun p _ => by lin) fun p hp => ?_
      have hp' : p ∈ pairsOf asIs schwaDep S T := by
        rcases List.mem_append.1 hp with h | h <;> exact (List.mem_filter.1 h).1
      obtain ⟨x, y⟩ := p
      show A.ok (branch (pyIn x romanSemiticUnasp) _ _ : Gen Unit).prog = true
      cases hx : pyIn x romanSemiticUnasp with
      | false => exact A.rep (hp2 _ hp').1 (hp2 _ hp').2.2
      | true =>
        exact A.sub_lit (hp2 _ hp').2.1 (hp2 _ hp').2.2 (List.all_eq_true.1 cU x (strMem_iff.1 hx))
  | LL =>
    have hSL : pyIn S GM.LatinScripts = true := by
      unfold kindOf at hk; split at hk <;> simp_all
    have hTI : pyIn T GM.IndicScripts = false := by
      unfold kindOf at hk
      cases hTI : pyIn T GM.IndicScripts with
      | false => rfl
      | true => rw [hSL, hTI] at hk; simp at hk
    have hTail := classTail hTI
    rw [hSL] at sK
    simp only [Bool.and_eq_true] at sK
    refine A.seq (lin_tryFixReverse S) sK.1.1.2
      (A.seq (lin_midLL S T) (A.seq (Lin.replaceAll _) inter ?_) hTail)
    refine A.replaceAll fun p hp => ?_
    obtain ⟨a, b⟩ := p
    have := List.of_mem_zip hp
    exact ⟨allLetters_inter cI this.1, allLetters_inter tLA this.2⟩

theorem kindOf_plain {S T : PyStr} (hS : plainSrc S = true) (hT : plainTgt T = true) :
    ∃ kd, kindOf S T = some kd := by
  simp only [plainSrc, plainTgt, Bool.and_eq_true, Bool.or_eq_true] at hS hT
  have h1 := hS.1.1.1.1.1.1.1.1.1
  have h2 := hT.1.1.1.1.1.1.1.1.1
  unfold kindOf
  cases a : pyIn S GM.LatinScripts <;> cases b : pyIn S GM.IndicScripts <;>
    cases c : pyIn T GM.LatinScripts <;> cases d : pyIn T GM.IndicScripts <;> simp_all

theorem lin_script {S T : PyStr} (kd : Kind) : Lin (scriptPieces S T kd) := by
  cases kd with
  | II => exact Lin.bind (lin_prefixII S) fun _ => Lin.bind (lin_midII S T) fun _ => lin_endII T
  | LI => exact Lin.bind (lin_preLI S) fun _ => Lin.bind (lin_midLI S T) fun _ =>
      Lin.bind (lin_postLI T) fun _ => lin_endII T
  | IL => exact Lin.bind (lin_prefixII S) fun _ => Lin.bind (lin_midIL S T) fun _ =>
      Lin.bind (lin_headIL T) fun _ => lin_endLL S T
  | LL => exact Lin.bind (lin_tryFixReverse S) fun _ => Lin.bind (lin_midLL S T) fun _ => lin_endLL S T

theorem srcOk_tbl {A : Ana} {S : PyStr} (h : srcOk A S = true) : hasTbl S = true ∧ hasHead .OmMap S = true := by
  simp only [srcOk, Bool.and_eq_true] at h
  exact ⟨h.1.1.1.1, h.1.1.1.2⟩

theorem tgtOk_tbl {A : Ana} {T : PyStr} (h : tgtOk A T = true) : hasTbl T = true ∧ hasHead .OmMap T = true ∧
    pyEq T (u! "Latn") = false ∧ preReps.any (sameForPre T) = true ∧ ∀ nat, A.ok (finishT T nat).prog = true := by
  simp only [tgtOk, Bool.and_eq_true, Bool.not_eq_true'] at h
  obtain ⟨⟨⟨⟨⟨⟨⟨⟨⟨⟨tT, tO⟩, tOm⟩, tOmA⟩, tL⟩, tLA⟩, tN⟩, tP⟩, tF⟩, tF'⟩, tK⟩ := h
  exact ⟨tT, tO, tN, tP, fun nat => by cases nat <;> assumption⟩

/-- A plain conversion, in pieces. -/
theorem convert_pieces {A B : Ana} {nat : Bool} {S T : PyStr} (hS : srcOk A S = true) (hT : tgtOk B T = true)
    (pS : plainSrc S = true) (pT : plainTgt T = true) (hne : S ≠ T) {kd : Kind} (hk : kindOf S T = some kd) :
    convert S T nat [] [] = (do PreProcess.PreProcess S T [] []; scriptPieces S T kd; finishT T nat) := by
  obtain ⟨h1, h2⟩ := srcOk_tbl hS
  obtain ⟨h3, h4, h5, -⟩ := tgtOk_tbl hT
  rw [convert_plain pS pT hne, plainConvert_pieces h1 h3 h2 h4 h5 hk]

/-- Every plain conversion between checked scripts passes the analyses. -/
theorem plain_good {A : Ana} {nat : Bool} {S T : PyStr} (hc : constOk A = true)
    (hS : srcOk A S = true) (hT : tgtOk A T = true)
    (pS : plainSrc S = true) (pT : plainTgt T = true) (hne : S ≠ T)
    (hIL : kindOf S T = some .IL → A.tgt Schwa = true) :
    A.ok (convert S T nat [] []).prog = true := by
  obtain ⟨kd, hk⟩ := kindOf_plain pS pT
  obtain ⟨-, -, -, h6, h7⟩ := tgtOk_tbl hT
  rw [convert_pieces hS hT pS pT hne hk]
  exact A.seq (lin_preProcess _ _ _ _) (pre_good hS h6)
    (A.seq (lin_script kd) (script_good hc hS hT hk fun h => hIL (h ▸ hk)) (h7 nat))

/-- A checked script to itself, nativised, passes the analyses. -/
theorem self_good {A : Ana} {S : PyStr} (hc : constOk A = true)
    (hS : srcOk A S = true) (hT : tgtOk A S = true)
    (dS : srcOk A (u! "Devanagari") = true) (dT : tgtOk A (u! "Devanagari") = true)
    (pS : plainSrc S = true) (pT : plainTgt S = true)
    (hIL : kindOf (u! "Devanagari") S = some .IL → A.tgt Schwa = true) :
    A.ok (convert S S true [] []).prog = true := by
  have pD : plainSrc (u! "Devanagari") = true := by decide +kernel
  have pD' : plainTgt (u! "Devanagari") = true := by decide +kernel
  obtain ⟨k1, hk1⟩ := kindOf_plain pS pD'
  obtain ⟨k2, hk2⟩ := kindOf_plain pD pT
  have hk1' : k1 ≠ .IL := by
    intro h
    subst h
    unfold kindOf at hk1
    have : pyIn (u! "Devanagari") GM.LatinScripts = false := by decide +kernel
    rw [this] at hk1
    split at hk1 <;> simp_all
  obtain ⟨h1, h2⟩ := srcOk_tbl hS
  obtain ⟨h3, h4⟩ := srcOk_tbl dS
  obtain ⟨h5, h6, h7, h8, h9⟩ := tgtOk_tbl hT
  obtain ⟨h10, h11, h12, h13, h14⟩ := tgtOk_tbl dT
  rw [convert_self pS pT, convertScript_pieces h1 h10 h2 h11 hk1, convertScript_pieces h3 h5 h4 h6 hk2]
  exact A.seq (lin_preProcess _ _ _ _) (pre_good hS h13)
    (A.seq (lin_script k1) (script_good hc hS dT hk1 fun h => absurd h hk1')
      (A.seq (lin_script k2) (script_good hc dS hT hk2 fun h => hIL (h ▸ hk2)) (h9 true)))

/-! ## Combining analyses -/

/-- Both analyses. -/
def Ana.and (A B : Ana) : Ana where
  ok := fun p => A.ok p && B.ok p
  src := fun x => A.src x && B.src x
  tgt := fun x => A.tgt x && B.tgt x
  done := by simp [A.done, B.done]
  append := by
    intro p q hp hq
    rw [Bool.and_eq_true] at *
    exact ⟨A.append hp.1 hq.1, B.append hp.2 hq.2⟩
  rep := by
    intro x y hx hy
    rw [Bool.and_eq_true] at *
    exact ⟨A.rep hx.1 hy.1, B.rep hx.2 hy.2⟩
  sub_inv := by
    intro a b q h
    rw [Bool.and_eq_true] at h
    rw [Bool.and_eq_true, Bool.and_eq_true]
    exact ⟨⟨(A.sub_inv h.1).1, (B.sub_inv h.2).1⟩, ⟨(A.sub_inv h.1).2, (B.sub_inv h.2).2⟩⟩
  sub_insert := by
    intro p a t b ht hp h
    rw [Bool.and_eq_true] at *
    exact ⟨A.sub_insert ht.1 hp h.1, B.sub_insert ht.2 hp h.2⟩
  tgt_append := by
    intro x y hx hy
    rw [Bool.and_eq_true] at *
    exact ⟨A.tgt_append hx.1 hy.1, B.tgt_append hx.2 hy.2⟩
  src_tgt := by
    intro x hx
    rw [Bool.and_eq_true] at *
    exact ⟨A.src_tgt hx.1, B.src_tgt hx.2⟩
  src_append := by
    intro x y hx hy
    rw [Bool.and_eq_true] at *
    exact ⟨A.src_append hx.1 hy.1, B.src_append hx.2 hy.2⟩

/-- `B` accepts whatever `A` accepts. -/
structure Ana.Le (A B : Ana) : Prop where
  ok : ∀ {p}, A.ok p = true → B.ok p = true
  src : ∀ {x}, A.src x = true → B.src x = true
  tgt : ∀ {x}, A.tgt x = true → B.tgt x = true

theorem Ana.and_left (A B : Ana) : (A.and B).Le A :=
  ⟨fun h => ((Bool.and_eq_true _ _).mp h).1, fun h => ((Bool.and_eq_true _ _).mp h).1,
   fun h => ((Bool.and_eq_true _ _).mp h).1⟩

theorem Ana.and_right (A B : Ana) : (A.and B).Le B :=
  ⟨fun h => ((Bool.and_eq_true _ _).mp h).2, fun h => ((Bool.and_eq_true _ _).mp h).2,
   fun h => ((Bool.and_eq_true _ _).mp h).2⟩

theorem Ana.Le.trans {A B C : Ana} (h : A.Le B) (h' : B.Le C) : A.Le C :=
  ⟨fun x => h'.ok (h.ok x), fun x => h'.src (h.src x), fun x => h'.tgt (h.tgt x)⟩

theorem goodAna_le {N : CharSet} {kp inr kp' inr' : Bool} (h1 : kp' = true → kp = true)
    (h2 : inr' = true → inr = true) : (goodAna N kp inr).Le (goodAna N kp' inr') :=
  ⟨fun h => by
    have := Prog.good_iff.1 h
    exact Prog.good_iff.2 ⟨this.1, fun k => this.2.1 (h1 k), fun k => this.2.2 (h2 k)⟩, id, id⟩

theorem allLetters_mono {f g : PyStr → Bool} (h : ∀ {x}, f x = true → g x = true) {S : PyStr}
    (hf : allLetters f S = true) : allLetters g S = true := by
  unfold allLetters at *
  simp only [List.all_eq_true] at *
  exact fun a ha x hx => h (hf a ha x hx)

theorem srcOk_mono {A B : Ana} (h : A.Le B) {S : PyStr} (hA : srcOk A S = true) : srcOk B S = true := by
  simp only [srcOk, Bool.and_eq_true, List.all_eq_true] at *
  obtain ⟨⟨⟨⟨sT, sO⟩, sL⟩, sP⟩, sK⟩ := hA
  refine ⟨⟨⟨⟨sT, sO⟩, allLetters_mono h.src sL⟩, fun r hr => h.ok (sP r hr)⟩, ?_⟩
  cases hl : pyIn S GM.LatinScripts with
  | true =>
    rw [hl] at sK
    simp only [Bool.and_eq_true] at *
    exact ⟨⟨⟨h.ok sK.1.1.1, h.ok sK.1.1.2⟩, h.ok sK.1.2⟩, h.ok sK.2⟩
  | false =>
    rw [hl] at sK
    simp only [Bool.and_eq_true] at *
    refine ⟨⟨h.ok sK.1.1, h.src sK.1.2⟩, ?_⟩
    have := sK.2
    split
    · rfl
    · rename_i hb
      rw [hb] at this
      exact h.ok this

theorem tgtOk_mono {A B : Ana} (h : A.Le B) {T : PyStr} (hA : tgtOk A T = true) :
    tgtOk B T = true := by
  simp only [tgtOk, Bool.and_eq_true, Bool.not_eq_true'] at *
  obtain ⟨⟨⟨⟨⟨⟨⟨⟨⟨⟨tT, tO⟩, tOm⟩, tOmA⟩, tL⟩, tLA⟩, tN⟩, tP⟩, tF⟩, tF'⟩, tK⟩ := hA
  refine ⟨⟨⟨⟨⟨⟨⟨⟨⟨⟨tT, tO⟩, tOm⟩, h.tgt tOmA⟩, tL⟩, allLetters_mono h.tgt tLA⟩, tN⟩, tP⟩, h.ok tF⟩, h.ok tF'⟩, ?_⟩
  cases hl : pyIn T GM.IndicScripts with
  | true =>
    rw [hl] at tK
    simp only [Bool.and_eq_true] at *
    exact ⟨h.ok tK.1, h.ok tK.2⟩
  | false =>
    rw [hl] at tK
    simp only [Bool.and_eq_true, Bool.not_eq_true', List.all_eq_true] at *
    exact ⟨⟨tK.1.1, h.ok tK.1.2⟩, fun c hc => h.ok (tK.2 c hc)⟩

theorem constOk_mono {A B : Ana} (h : A.Le B) (hA : constOk A = true) : constOk B = true := by
  simp only [constOk, Bool.and_eq_true, List.all_eq_true] at *
  obtain ⟨⟨⟨⟨⟨cI, cM⟩, cSchP⟩, cDepP⟩, cDepO⟩, cU⟩ := hA
  exact ⟨⟨⟨⟨⟨allLetters_mono h.src cI, h.ok cM⟩, cSchP⟩, cDepP⟩, h.src cDepO⟩, fun x hx => h.ok (cU x hx)⟩

end Verif
