import Verif.Lib.Calm

/-!
# Conversions work part by part, if the checks per script pass
-/

namespace Verif

/-! ## Working part by part around several characters, as an analysis -/

/-- The program treats the parts around each of the characters independently. -/
def Prog.apartL (zs : List Nat) : Prog → Bool
  | .done => true
  | .rep x _ k => cond (zs.all fun z => lacks z x) (cond x.isEmpty false (k.apartL zs)) false
  | .sub p t k =>
    match compileSub p t with
    | none => false
    | some (r, _) => cond (zs.all fun z => r.apart z) (k.apartL zs) false
  | .ite c t e k =>
    cond (match c.words with
      | none => false
      | some [] => e.apartL zs
      | some ws => e.isDone && t.onlyOn ws && t.apartL zs) (k.apartL zs) false
  | .attempt p k => p.safe false && p.apartL zs && k.apartL zs
  | .host h k => h.isUnicode && k.apartL zs
  | _ => false

theorem Prog.apartL_apart {zs : List Nat} {z : Nat} (hz : z ∈ zs) {p : Prog} (h : p.apartL zs = true) :
    p.apart z = true := by
  induction p with
  | done => rfl
  | rep x y k ih =>
    simp only [Prog.apart, Prog.apartL, Bool.cond_false_right, Bool.cond_false_left, Bool.and_eq_true] at *
    exact ⟨List.all_eq_true.1 h.1 z hz, h.2.1, ih h.2.2⟩
  | sub p t k ih =>
    simp only [Prog.apart, Prog.apartL] at *
    cases hc : compileSub p t with
    | none => rw [hc] at h; cases h
    | some rt =>
      rw [hc] at h
      simp only [Bool.cond_false_right, Bool.and_eq_true] at *
      exact ⟨List.all_eq_true.1 h.1 z hz, ih h.2⟩
  | ite c t e k iht ihe ihk =>
    simp only [Prog.apart, Prog.apartL, Bool.cond_false_right, Bool.and_eq_true] at *
    refine ⟨?_, ihk h.2⟩
    cases hw : c.words with
    | none => rw [hw] at h; simp at h
    | some ws =>
      rw [hw] at h
      cases ws with
      | nil => exact ihe h.1
      | cons w ws =>
        simp only [Bool.and_eq_true] at *
        exact ⟨h.1.1, iht h.1.2⟩
  | attempt p k ihp ihk =>
    simp only [Prog.apart, Prog.apartL, Bool.and_eq_true] at *
    exact ⟨⟨h.1.1, ihp h.1.2⟩, ihk h.2⟩
  | host g k ih =>
    simp only [Prog.apart, Prog.apartL, Bool.and_eq_true] at *
    exact ⟨h.1, ih h.2⟩
  | _ => cases h

theorem Prog.apartL_append {zs : List Nat} {p q : Prog} (hp : p.apartL zs = true) (hq : q.apartL zs = true) :
    (p.append q).apartL zs = true := by
  induction p with
  | done => exact hq
  | rep x y k ih =>
    simp only [Prog.append, Prog.apartL, Bool.cond_false_right, Bool.cond_false_left, Bool.and_eq_true] at *
    exact ⟨hp.1, hp.2.1, ih hp.2.2⟩
  | sub x y k ih =>
    simp only [Prog.append, Prog.apartL] at *
    cases hc : compileSub x y with
    | none => rw [hc] at hp; cases hp
    | some rt =>
      rw [hc] at hp
      simp only [Bool.cond_false_right, Bool.and_eq_true] at *
      exact ⟨hp.1, ih hp.2⟩
  | ite c t e k iht ihe ihk =>
    simp only [Prog.append, Prog.apartL, Bool.cond_false_right, Bool.and_eq_true] at *
    exact ⟨hp.1, ihk hp.2⟩
  | attempt p k ihp ihk =>
    simp only [Prog.append, Prog.apartL, Bool.and_eq_true] at *
    exact ⟨hp.1, ihk hp.2⟩
  | host g k ih =>
    simp only [Prog.append, Prog.apartL, Bool.and_eq_true] at *
    exact ⟨hp.1, ih hp.2⟩
  | _ => cases hp

theorem lacks_append {z : Nat} {x y : PyStr} : lacks z (x ++ y) = true ↔ lacks z x = true ∧ lacks z y = true := by
  simp [lacks_iff]

/-- Working part by part around each of the characters. -/
def linesAna (zs : List Nat) : Ana where
  ok := fun p => p.apartL zs
  src := fun x => cond x.isEmpty false (zs.all fun z => lacks z x)
  tgt := fun x => zs.all fun z => lacks z x
  done := rfl
  append := Prog.apartL_append
  rep := by
    intro x y hx _
    simp only [Prog.apartL, Bool.cond_false_right, Bool.cond_false_left, Bool.and_eq_true, and_true] at *
    exact ⟨hx.2, hx.1⟩
  sub_inv := by
    intro a b q h
    simp only [Prog.apartL] at h ⊢
    cases hc : compileSub a b with
    | none => rw [hc] at h; cases h
    | some rt =>
      rw [hc] at h
      simp only [Bool.cond_false_right, Bool.and_eq_true, and_true] at *
      exact h
  sub_insert := by
    intro p a t b _ hpt h
    simp only [Prog.apartL, compileSub] at h ⊢
    cases hp : parseRe p with
    | none => rw [hp] at h; cases h
    | some r =>
      rw [hp] at h
      simp only at h ⊢
      obtain ⟨A, hA⟩ := hpt r.2
      rcases hA with hA | ⟨B, hA, hB⟩
      · rw [hA] at h; cases h
      · rw [hA] at h
        rw [hB]
        exact h
  tgt_append := by
    intro x y hx hy
    simp only [List.all_eq_true, lacks_append] at *
    exact fun z hz => ⟨hx z hz, hy z hz⟩
  src_tgt := by
    intro x hx
    simp only [Bool.cond_false_left, Bool.and_eq_true] at hx
    exact hx.2
  src_append := by
    intro x y hx hy
    simp only [Bool.cond_false_left, Bool.and_eq_true, List.all_eq_true, lacks_append] at *
    refine ⟨?_, fun z hz => ⟨hx.2 z hz, hy z hz⟩⟩
    cases x with
    | nil => simp at hx
    | cons c x => rfl

theorem linesAna_le {zs : List Nat} {z : Nat} (hz : z ∈ zs) : (linesAna zs).Le (linesAna [z]) where
  ok := by
    intro p h
    induction p with
    | done => rfl
    | rep x y k ih =>
      simp only [linesAna, Prog.apartL, Bool.cond_false_right, Bool.cond_false_left, Bool.and_eq_true, List.all_eq_true,
        List.mem_singleton, forall_eq] at *
      exact ⟨h.1 z hz, h.2.1, ih h.2.2⟩
    | sub p t k ih =>
      simp only [linesAna, Prog.apartL] at *
      cases hc : compileSub p t with
      | none => rw [hc] at h; cases h
      | some rt =>
        rw [hc] at h
        simp only [Bool.cond_false_right, Bool.and_eq_true, List.all_eq_true, List.mem_singleton, forall_eq] at *
        exact ⟨h.1 z hz, ih h.2⟩
    | ite c t e k iht ihe ihk =>
      simp only [linesAna, Prog.apartL, Bool.cond_false_right, Bool.and_eq_true] at *
      refine ⟨?_, ihk h.2⟩
      cases hw : c.words with
      | none => rw [hw] at h; simp at h
      | some ws =>
        rw [hw] at h
        cases ws with
        | nil => exact ihe h.1
        | cons w ws =>
          simp only [Bool.and_eq_true] at *
          exact ⟨h.1.1, iht h.1.2⟩
    | attempt p k ihp ihk =>
      simp only [linesAna, Prog.apartL, Bool.and_eq_true] at *
      exact ⟨⟨h.1.1, ihp h.1.2⟩, ihk h.2⟩
    | host g k ih =>
      simp only [linesAna, Prog.apartL, Bool.and_eq_true] at *
      exact ⟨h.1, ih h.2⟩
    | _ => cases h
  src := by
    intro x h
    simp only [linesAna, Bool.cond_false_left, Bool.and_eq_true, List.all_eq_true, List.mem_singleton, forall_eq] at *
    exact ⟨h.1, h.2 z hz⟩
  tgt := by
    intro x h
    simp only [linesAna, List.all_eq_true, List.mem_singleton, forall_eq] at *
    exact h z hz

/-! ## The three stages of a conversion -/

/-- The source's own rules. -/
def headPieces (S : PyStr) : Kind → Gen Unit
  | .II => prefixII S
  | .IL => prefixII S
  | .LI => preLI S
  | .LL => tryFixReverse S

/-- The syllable Om where it stands alone. -/
def omPieces (S T : PyStr) : Kind → Gen Unit
  | .II => indicOm (lettersOf S GM.Signs) (headSec .OmMap S) (headSec .OmMap T)
  | .LI => do
    omSubs (omPunc (lettersOf S GM.Signs)) (headSec .OmMap S) (headSec .OmMap T)
    omSubs (u! "(\\s)") (headSec .OmMap S) (headSec .OmMap T)
  | _ => pure ()

/-- The letters and the target's rules. -/
def restPieces (S T : PyStr) : Kind → Gen Unit
  | .II => do replaceAll (pairsOf asIs asIs S T); endII T
  | .LI => do
    replaceAll (interPairs S)
    midInter
    replaceAll (pairsOf depVowels asIs GM.Inter T)
    postLI T
    endII T
  | .IL => do midIL S T; headIL T; endLL S T
  | .LL => do midLL S T; endLL S T

theorem scriptPieces_stages (S T : PyStr) (kd : Kind) : scriptPieces S T kd =
    (do headPieces S kd; omPieces S T kd; restPieces S T kd) := by
  cases kd <;> simp only [scriptPieces, headPieces, omPieces, restPieces, midII, midLI, bind_assoc, pure_bind]

theorem lin_headPieces (S : PyStr) (kd : Kind) : Lin (headPieces S kd) := by
  cases kd
  · exact lin_prefixII S
  · exact lin_preLI S
  · exact lin_prefixII S
  · exact lin_tryFixReverse S

theorem lin_omPieces (S T : PyStr) (kd : Kind) : Lin (omPieces S T kd) := by
  cases kd
  · exact lin_indicOm _ _ _
  · exact Lin.bind (Lin.omSubs _ _ _) fun _ => Lin.omSubs _ _ _
  · exact Lin.pure _
  · exact Lin.pure _

theorem lin_restPieces (S T : PyStr) (kd : Kind) : Lin (restPieces S T kd) := by
  cases kd
  · exact Lin.bind (Lin.replaceAll _) fun _ => lin_endII T
  · exact Lin.bind (Lin.replaceAll _) fun _ => Lin.bind lin_midInter fun _ =>
      Lin.bind (Lin.replaceAll _) fun _ => Lin.bind (lin_postLI T) fun _ => lin_endII T
  · exact Lin.bind (lin_midIL S T) fun _ => Lin.bind (lin_headIL T) fun _ => lin_endLL S T
  · exact Lin.bind (lin_midLL S T) fun _ => lin_endLL S T

/-- The checks per script give the analysis of the last stage of every pair. -/
theorem rest_good {A : Ana} {S T : PyStr} (hc : constOk A = true)
    (sL : allLetters A.src S = true) (sO : pyIn S GM.LatinScripts = false → A.src (headSec .OmMap S) = true)
    (hT : tgtOk A T = true) {kd : Kind}
    (hk : kindOf S T = some kd) (cSch : A.tgt Schwa = true) :
    A.ok (restPieces S T kd).prog = true := by
  simp only [constOk, Bool.and_eq_true] at hc
  obtain ⟨⟨⟨⟨⟨cI, cM⟩, cSchP⟩, cDepP⟩, cDepO⟩, cU⟩ := hc
  have cDep := A.src_tgt cDepO
  simp only [tgtOk, Bool.and_eq_true, Bool.not_eq_true'] at hT
  obtain ⟨⟨⟨⟨⟨⟨⟨⟨⟨⟨tT, tO⟩, tOm⟩, tOmA⟩, tL⟩, tLA⟩, tN⟩, tP⟩, tF⟩, tF'⟩, tK⟩ := hT
  have tFree : ∀ g ∈ scriptAllGroups, ∀ x ∈ lettersOf T g.2, noSlash x = true ∧ A.tgt x = true :=
    fun g hg x hx => ⟨allLetters_mem tL hg hx, allLetters_mem tLA hg hx⟩
  have inter : A.ok (replaceAll (interPairs S)).prog = true := by
    refine A.replaceAll fun p hp => ?_
    have := (sortByKeyDesc_perm _ _).mem_iff.1 hp
    obtain ⟨a, b⟩ := p
    have := List.of_mem_zip this
    exact ⟨allLetters_inter sL this.1, A.src_tgt (allLetters_inter cI this.2)⟩
  have classTail : pyIn T GM.IndicScripts = false → A.ok (endLL S T).prog = true := by
    intro hTI
    rw [hTI] at tK
    simp only [Bool.and_eq_true, Bool.not_eq_true'] at tK
    unfold endLL
    rw [postFix_class tK.1.1]
    exact List.all_eq_true.1 tK.2 _ (srcClass_classes S T)
  have schwaOk : ∀ g ∈ scriptAllGroups, ∀ y ∈ schwaDep g.1 (lettersOf T g.2),
      noSlash y = true ∧ A.tgt y = true := by
    intro g hg y hy
    unfold schwaDep at hy
    split at hy
    · obtain ⟨x, hx, rfl⟩ := List.mem_map.1 hy
      exact ⟨noSlash_append (tFree g hg x hx).1 cSchP, A.tgt_append (tFree g hg x hx).2 cSch⟩
    · obtain ⟨x, hx, rfl⟩ := List.mem_map.1 hy
      exact ⟨noSlash_append cDepP (tFree g hg x hx).1, A.tgt_append cDep (tFree g hg x hx).2⟩
    · exact tFree g hg y hy
  cases kd with
  | II =>
    have hTI : pyIn T GM.IndicScripts = true := by
      unfold kindOf at hk; split at hk <;> simp_all
    rw [hTI] at tK
    simp only [Bool.and_eq_true] at tK
    refine A.seq (Lin.replaceAll _) ?_ tK.2
    refine A.replaceAll fun p hp => ?_
    obtain ⟨g, hg, h1, h2⟩ := mem_pairsOf hp
    exact ⟨allLetters_mem sL hg h1, (tFree g hg _ h2).2⟩
  | LI =>
    have hTI : pyIn T GM.IndicScripts = true := by
      unfold kindOf at hk; split at hk <;> simp_all
    rw [hTI] at tK
    simp only [Bool.and_eq_true] at tK
    refine A.seq (Lin.replaceAll _) inter (A.seq lin_midInter cM (A.seq (Lin.replaceAll _) ?_
      (A.seq (lin_postLI T) tK.1 tK.2)))
    refine A.replaceAll fun p hp => ?_
    obtain ⟨g, hg, h1, h2⟩ := mem_pairsOf hp
    refine ⟨?_, (tFree g hg _ h2).2⟩
    unfold depVowels at h1
    split at h1
    · obtain ⟨x, hx, hxp⟩ := List.mem_map.1 h1
      rw [← hxp]
      exact A.src_append cDepO (A.src_tgt (allLetters_mem cI hg hx))
    · exact allLetters_mem cI hg h1
  | IL =>
    have hSL : pyIn S GM.LatinScripts = false := by
      unfold kindOf at hk; split at hk <;> simp_all
    have hTI : pyIn T GM.IndicScripts = false := by
      unfold kindOf at hk; split at hk <;> simp_all
    have hTail := classTail hTI
    rw [hTI] at tK
    simp only [Bool.and_eq_true] at tK
    refine A.seq (lin_midIL S T) (A.seq (Lin.replace _ _)
        (A.rep (sO hSL) tOmA) ?_) (A.seq (lin_headIL T) tK.1.2 hTail)
    have hp2 : ∀ p ∈ pairsOf asIs schwaDep S T, A.src p.1 = true ∧ noSlash p.2 = true ∧ A.tgt p.2 = true := by
      intro p hp
      obtain ⟨g, hg, h1, h2⟩ := mem_pairsOf hp
      exact ⟨allLetters_mem sL hg h1, schwaOk g hg _ h2⟩
    unfold lettersIL
    cases pyEq S (u! "RomanSemitic") with
    | false => exact A.replaceAll fun p hp => ⟨(hp2 p hp).1, (hp2 p hp).2.2⟩
    | true =>
      rw [branch_true]
      refine A.forEach (fun p _ => by lin) fun p hp => ?_
      have hp' : p ∈ pairsOf asIs schwaDep S T := by
        rcases List.mem_append.1 hp with h | h <;> exact (List.mem_filter.1 h).1
      obtain ⟨x, y⟩ := p
      show A.ok (branch (pyIn x romanSemiticUnasp) _ _ : Gen Unit).prog = true
      cases hx : pyIn x romanSemiticUnasp with
      | false => exact A.rep (hp2 _ hp').1 (hp2 _ hp').2.2
      | true =>
        exact A.sub_lit (hp2 _ hp').2.1 (hp2 _ hp').2.2 (List.all_eq_true.1 cU x (strMem_iff.1 hx))
  | LL =>
    have hSL : pyIn S GM.LatinScripts = true := by
      unfold kindOf at hk; split at hk <;> simp_all
    have hTI : pyIn T GM.IndicScripts = false := by
      unfold kindOf at hk
      cases hTI : pyIn T GM.IndicScripts with
      | false => rfl
      | true => rw [hSL, hTI] at hk; simp at hk
    refine A.seq (lin_midLL S T) (A.seq (Lin.replaceAll _) inter ?_) (classTail hTI)
    refine A.replaceAll fun p hp => ?_
    obtain ⟨a, b⟩ := p
    have := List.of_mem_zip hp
    exact ⟨allLetters_inter cI this.1, allLetters_inter tLA this.2⟩

/-! ## Putting the stages together -/

/-- A conversion whose stages pass works part by part on texts without the watched characters. -/
theorem stages_apart {E : Env} {W zs ys : List Nat} {z : Nat} (hzs : z ∈ zs) (hys : z ∈ ys) (hN : E.NfcPlain) (ht : E.Total) (hU : E.uni.Apart z)
    (hE : E.SplitsAt z) (hz : z ∉ W) (hctl : ∀ c, 7 ≤ c → c ≤ 13 → c ∉ W) {p1 p2 p3 : Prog}
    (h1 : p1.dropLower.calm W zs = true) (h2 : p2.dormant W = true ∨ p2.apartL ys = true) (h3 : p3.apartL ys = true)
    {a b a' b' : PyStr} (wa : AllC (fun c => c ∉ W) a) (wb : AllC (fun c => c ∉ W) b)
    (la : ∀ l, E.host .lower a = .ok l → AllC (fun c => c ∉ W) l)
    (lb : ∀ l, E.host .lower b = .ok l → AllC (fun c => c ∉ W) l)
    (ha : (p1.append (p2.append p3)).run E a = .ok a') (hb : (p1.append (p2.append p3)).run E b = .ok b') :
    (p1.append (p2.append p3)).run E (a ++ z :: b) = .ok (a' ++ z :: b') := by
  rw [Prog.run_append] at ha hb ⊢
  cases ha1 : p1.run E a with
  | error e => rw [ha1] at ha; cases ha
  | ok a1 =>
    cases hb1 : p1.run E b with
    | error e => rw [hb1] at hb; cases hb
    | ok b1 =>
      rw [ha1] at ha
      rw [hb1] at hb
      obtain ⟨e1, wa1, wb1⟩ := Prog.calm_lower hzs hN ht hU hE hz hctl h1 wa wb la lb ha1 hb1
      rw [e1]
      simp only at ha hb ⊢
      rcases h2 with h2 | h2
      · have w : AllC (fun c => c ∉ W) (a1 ++ z :: b1) := by
          intro c hc
          rcases List.mem_append.1 hc with h | h
          · exact wa1 c h
          · rcases List.mem_cons.1 h with rfl | h
            · exact hz
            · exact wb1 c h
        rw [Prog.run_append, Prog.dormant_sound h2 wa1] at ha
        rw [Prog.run_append, Prog.dormant_sound h2 wb1] at hb
        rw [Prog.run_append, Prog.dormant_sound h2 w]
        exact Prog.apart_sound ht hU hE (Prog.apartL_apart hys h3) ha hb
      · exact Prog.apart_sound ht hU hE (Prog.apartL_apart hys (Prog.apartL_append h2 h3)) ha hb

end Verif
