import Verif.Lib.PlainAll
import Verif.Lib.SampleEnv
import Verif.Spec.TextOps
import Verif.Spec.Scripts

/-!
# From the checks to statements about `process`
-/

namespace Verif

set_option maxRecDepth 1000000

theorem sourceScripts_plain : sourceScripts.all plainSrc = true := by decide +kernel
theorem targetScripts_plain : targetScripts.all plainTgt = true := by decide +kernel

theorem src_plain {S : PyStr} (h : S ∈ sourceScripts) : plainSrc S = true :=
  List.all_eq_true.1 sourceScripts_plain S h
theorem tgt_plain {T : PyStr} (h : T ∈ targetScripts) : plainTgt T = true :=
  List.all_eq_true.1 targetScripts_plain T h

/-! ## Names -/

theorem find_congr {α : Type} {f g : α → Bool} {l : List α} (h : ∀ x ∈ l, f x = g x) : l.find? f = l.find? g := by
  induction l with
  | nil => rfl
  | cons a l ih =>
    simp only [List.find?_cons]
    rw [h a (List.mem_cons_self ..), ih fun x hx => h x (List.mem_cons_of_mem _ hx)]

theorem names_ascii : (GM.IndicScripts ++ GM.LatinScripts).all (fun s => s.all (fun c => Nat.blt c 128)) = true := by
  decide +kernel

/-- No listed name is found under another listed name. -/
theorem names_apart : (GM.IndicScripts ++ GM.LatinScripts).all (fun a =>
    match (GM.IndicScripts ++ GM.LatinScripts).find? (fun s => strEq (asciiLower a) (asciiLower s)) with
    | some s => strEq s a
    | none => false) = true := by decide +kernel

theorem resolveName_listed {E : Env} (hE : E.TextOps) {S : PyStr} (hS : S ∈ GM.IndicScripts ++ GM.LatinScripts) :
    resolveName E S = S := by
  have hl : ∀ s ∈ GM.IndicScripts ++ GM.LatinScripts, E.lower s = asciiLower s := by
    intro s hs
    refine hE.lower_ascii s fun c hc => ?_
    have := List.all_eq_true.1 (List.all_eq_true.1 names_ascii s hs) c hc
    rwa [Nat.blt_eq] at this
  have hf : (GM.IndicScripts ++ GM.LatinScripts).find? (fun s => strEq (E.lower S) (E.lower s))
      = (GM.IndicScripts ++ GM.LatinScripts).find? (fun s => strEq (asciiLower S) (asciiLower s)) := by
    rw [hl S hS]
    apply find_congr
    intro s hs
    rw [hl s hs]
  unfold resolveName
  rw [hf]
  have := List.all_eq_true.1 names_apart S hS
  split at this
  · rename_i s hs
    rw [hs]
    exact strEq_iff.1 this
  · cases this

theorem src_listed {S : PyStr} (h : plainSrc S = true) : S ∈ GM.IndicScripts ++ GM.LatinScripts := by
  simp only [plainSrc, Bool.and_eq_true, Bool.or_eq_true] at h
  exact List.mem_append.2 (h.1.1.1.1.1.1.1.1.1.imp strMem_iff.1 strMem_iff.1)

theorem tgt_listed {S : PyStr} (h : plainTgt S = true) : S ∈ GM.IndicScripts ++ GM.LatinScripts := by
  simp only [plainTgt, Bool.and_eq_true, Bool.or_eq_true] at h
  exact List.mem_append.2 (h.1.1.1.1.1.1.1.1.1.imp strMem_iff.1 strMem_iff.1)

/-- `process` without options, on listed names. -/
theorem process_listed {E : Env} (hE : E.TextOps) {S T : PyStr} (hS : S ∈ GM.IndicScripts ++ GM.LatinScripts)
    (hT : T ∈ GM.IndicScripts ++ GM.LatinScripts) (text : PyStr) (nat : Bool) :
    process E S T text nat [] [] (u! "default") = ((convert S T nat [] []).prog.run E text).map some := by
  have ha : strEq S (u! "autodetect") = false := by
    rw [strEq_false]
    rintro rfl
    revert hS
    rw [← strMem_iff]
    decide +kernel
  show (processDefault E S T text nat [] []).map some = _
  simp only [processDefault, ha, resolveName_listed hE hS, resolveName_listed hE hT, convertDefault,
    matchOptions, List.flatMap_nil]

theorem process_plain {E : Env} (hE : E.TextOps) {S T : PyStr} (hS : S ∈ sourceScripts)
    (hT : T ∈ targetScripts) (text : PyStr) (nat : Bool) :
    process E S T text nat [] [] (u! "default") = ((convert S T nat [] []).prog.run E text).map some :=
  process_listed hE (src_listed (src_plain hS)) (tgt_listed (tgt_plain hT)) text nat

/-! ## The analyses -/

theorem constOk_main : constOk (mainAna true true) = true := by decide +kernel

theorem mainAna_le {kp inr kp' inr' : Bool} (h1 : kp' = true → kp = true) (h2 : inr' = true → inr = true) :
    (mainAna kp inr).Le (mainAna kp' inr') :=
  ⟨fun h => by
      have := (Bool.and_eq_true _ _).mp h
      exact (Bool.and_eq_true _ _).mpr ⟨(goodAna_le h1 h2).ok this.1, this.2⟩,
    id, id⟩

theorem guard_sub (p : Bool) : ∀ c, (guardSet p).mem c = true → (guardSet true).mem c = true := by
  intro c h
  simp only [guardSet, guardMem_eq] at *
  simp only [Bool.or_eq_true, Bool.and_eq_true] at *
  exact h.imp id fun h => ⟨trivial, h.2⟩

theorem guard_numerals (p : Bool) : numeralsOut (guardSet p) = true := by cases p <;> decide

/-- The source from which the last step of the conversion starts. -/
def via (S T : PyStr) : PyStr := match strEq S T with
  | true => u! "Devanagari"
  | false => S

/-- Any of the analyses that follow from the combined one. -/
theorem convert_ok {A : Ana}
    {S T : PyStr} {kp inr : Bool} (hle : (mainAna kp inr).Le A)
    (hS : S ∈ sourceScripts) (hT : T ∈ targetScripts)
    (kS : kp = true → S ∉ loseSrc) (kT : kp = true → T ∉ loseTgt)
    {nat : Bool} (hne : S ≠ T ∨ nat = true) (hIL : kindOf (via S T) T = some .IL → A.tgt Schwa = true) :
    A.ok (convert S T nat [] []).prog = true := by
  have pS := src_plain hS
  have pT := tgt_plain hT
  have sOk : ∀ X, plainSrc X = true → (kp = true → X ∉ loseSrc) → srcOk A X = true := by
    intro X hX hk
    have h := srcFull_all hX
    unfold srcFull at h
    refine srcOk_mono ((mainAna_le (fun hk' => ?_) (fun _ => rfl)).trans hle) h
    simp [strMem_false.2 (hk hk')]
  have tOk : ∀ X, plainTgt X = true → (kp = true → X ∉ loseTgt) → tgtOk A X = true := by
    intro X hX hk
    have h := tgtFull_all hX
    unfold tgtFull at h
    simp only [Bool.and_eq_true] at h
    refine tgtOk_mono ((mainAna_le (fun hk' => ?_) (fun _ => rfl)).trans hle) h.1.1.1.1
    simp [strMem_false.2 (hk hk')]
  have cOk : constOk A = true :=
    constOk_mono ((mainAna_le (fun _ => rfl) (fun _ => rfl)).trans hle) constOk_main
  by_cases hST : S = T
  · subst hST
    rcases hne with h | h
    · exact absurd rfl h
    subst h
    have hv : via S S = (u! "Devanagari") := by simp [via]
    rw [hv] at hIL
    have dS : (u! "Devanagari") ∉ loseSrc := by rw [← strMem_false]; decide
    have dT : (u! "Devanagari") ∉ loseTgt := by rw [← strMem_false]; decide
    exact self_good cOk (sOk S pS kS) (tOk S pT kT) (sOk _ (by decide +kernel) fun _ => dS)
      (tOk _ (by decide +kernel) (fun _ => dT)) pS pT hIL
  · have hv : via S T = S := by simp only [via, strEq_false.2 hST]
    rw [hv] at hIL
    exact plain_good cOk (sOk S pS kS) (tOk T pT kT) pS pT hST hIL

/-! ## The end of the conversion -/

theorem run_seq {g h : Gen Unit} (hl : Lin g) {E : Env} {s r : PyStr} (hr : (g >>= fun _ => h).prog.run E s = .ok r) :
    ∃ s1, g.prog.run E s = .ok s1 ∧ h.prog.run E s1 = .ok r := by
  rw [hl.prog_seq, Prog.run_append] at hr
  cases h1 : g.prog.run E s with
  | ok s1 => rw [h1] at hr; exact ⟨s1, rfl, hr⟩
  | error e => rw [h1] at hr; cases hr

/-- Every conversion ends with `convertScript` from some script, and the final adjustments. -/
theorem convert_shape {S T : PyStr} (hS : S ∈ sourceScripts) (hT : T ∈ targetScripts) {nat : Bool}
    (hne : S ≠ T ∨ nat = true) : ∃ (pre : Gen Unit) (kd : Kind), Lin pre ∧ kindOf (via S T) T = some kd ∧
      convert S T nat [] [] = (pre >>= fun _ => scriptPieces (via S T) T kd >>= fun _ => finishT T nat) := by
  have pS := src_plain hS
  have pT := tgt_plain hT
  have hsS := srcFull_all pS
  have htT := tgtFull_all pT
  unfold srcFull at hsS
  unfold tgtFull at htT
  simp only [Bool.and_eq_true] at htT
  obtain ⟨h5, h6, h7, h8, h9⟩ := tgtOk_tbl htT.1.1.1.1
  obtain ⟨h1, h2⟩ := srcOk_tbl hsS
  by_cases hST : S = T
  · subst hST
    rcases hne with h | h
    · exact absurd rfl h
    subst h
    have hv : via S S = (u! "Devanagari") := by simp [via]
    have pD : plainSrc (u! "Devanagari") = true := by decide +kernel
    have pD' : plainTgt (u! "Devanagari") = true := by decide +kernel
    obtain ⟨k1, hk1⟩ := kindOf_plain pS pD'
    obtain ⟨k2, hk2⟩ := kindOf_plain pD pT
    have hsD := srcFull_all pD
    have htD := tgtFull_all pD'
    unfold srcFull at hsD
    unfold tgtFull at htD
    simp only [Bool.and_eq_true] at htD
    obtain ⟨h3, h4⟩ := srcOk_tbl hsD
    obtain ⟨h10, h11, -⟩ := tgtOk_tbl htD.1.1.1.1
    refine ⟨(PreProcess.PreProcess S (u! "Devanagari") [] [] >>= fun _ => scriptPieces S (u! "Devanagari") k1), k2,
      Lin.bind (lin_preProcess _ _ _ _) fun _ => lin_script k1, hv ▸ hk2, ?_⟩
    rw [hv, convert_self pS pT, convertScript_pieces h1 h10 h2 h11 hk1, convertScript_pieces h3 h5 h4 h6 hk2]
    simp only [bind_assoc]
    rfl
  · have hv : via S T = S := by simp only [via, strEq_false.2 hST]
    obtain ⟨kd, hk⟩ := kindOf_plain pS pT
    exact ⟨_, kd, lin_preProcess _ _ _ _, by rw [hv]; exact hk, by rw [hv]; exact convert_pieces hsS htT.1.1.1.1 pS pT hST hk⟩

/-- `convertScript` ends with `PostProcess.default`. -/
theorem script_default (S T : PyStr) (kd : Kind) :
    ∃ g : Gen Unit, Lin g ∧ scriptPieces S T kd = (g >>= fun _ => PostProcess.default) := by
  have hfix : Lin (fixIndicOutput T) := by
    unfold fixIndicOutput; lin
    · exact lin_fixForward T
    · exact lin_shiftDiacritics T false
  have hpost := lin_ConvertFix_PostFixRomanOutput S T
  cases kd with
  | II =>
    refine ⟨(do prefixII S; midII S T; fixIndicOutput T), Lin.bind (lin_prefixII S) fun _ =>
      Lin.bind (lin_midII S T) fun _ => hfix, ?_⟩
    simp only [scriptPieces, endII, bind_assoc]
  | LI =>
    refine ⟨(do preLI S; midLI S T; postLI T; fixIndicOutput T), Lin.bind (lin_preLI S) fun _ =>
      Lin.bind (lin_midLI S T) fun _ => Lin.bind (lin_postLI T) fun _ => hfix, ?_⟩
    simp only [scriptPieces, endII, bind_assoc]
  | IL =>
    refine ⟨(do prefixII S; midIL S T; headIL T; ConvertFix.PostFixRomanOutput S T),
      Lin.bind (lin_prefixII S) fun _ => Lin.bind (lin_midIL S T) fun _ => Lin.bind (lin_headIL T) fun _ => hpost, ?_⟩
    simp only [scriptPieces, endLL, bind_assoc]
  | LL =>
    refine ⟨(do tryFixReverse S; midLL S T; ConvertFix.PostFixRomanOutput S T),
      Lin.bind (lin_tryFixReverse S) fun _ => Lin.bind (lin_midLL S T) fun _ => hpost, ?_⟩
    simp only [scriptPieces, endLL, bind_assoc]

theorem cleans_sound {l : List Nat} (hctl : ∀ c ∈ l, c < 7 ∨ 13 < c) {p : Prog} {d : List Nat}
    (h : cleans l p d = true) {E : Env} {s r : PyStr} (hs : ∀ c ∈ s, c ∈ l → c ∈ d) (hr : p.run E s = .ok r) :
    ∀ c ∈ r, c ∉ l := by
  have hM : ∀ c, natMem c l = true → c ∈ l := fun c => natMem_iff.1
  have := Prog.dirt_sound (M := fun c => natMem c l) (Ml := l) hM (fun c h1 h2 => ?_) (d := d)
    (fun c hc hm => hs c hc (hM c hm)) hr
  · intro c hc hl
    have h2 := this c hc (natMem_iff.2 hl)
    simp only [cleans, List.isEmpty_iff] at h
    rw [h] at h2
    cases h2
  · cases hn : natMem c l with
    | false => rfl
    | true => have := hctl c (natMem_iff.1 hn); omega

theorem default_cleans : cleans otherMarkers PostProcess.default.prog otherMarkers = true := by decide +kernel

end Verif
