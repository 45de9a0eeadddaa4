import Verif.Lib.NoFail

/-!
# Conversions that raise no exception: `convert` and `process`
-/

namespace Verif

set_option maxRecDepth 1000000

variable {kp : Bool}

theorem USafe.host {h : Host} (hu : h.isUnicode = true) : USafe kp (host h) := by
  refine USafe.lit (Lin.host h) (optOk_iff.2 ?_)
  show (Prog.host h .done).safe false = true ∧ (_ → (Prog.host h .done).keeps neu = true) ∧
    (Prog.host h .done).noNew (guardSet false) = true
  simp [Prog.safe, Prog.keeps, Prog.noNew, hu]

theorem USafe.reSub {p t : PyStr} (h : (optAna true).ok (.sub p t .done) = true) : USafe kp (reSub p t) :=
  USafe.lit (Lin.reSub p t) h

/-- Replacements of letters. -/
def plainLetter (x : PyStr) : Bool := freeOf neu.mem x && freeOf (guardSet false).mem x

theorem plainLetter_append {x y : PyStr} (hx : plainLetter x = true) (hy : plainLetter y = true) : plainLetter (x ++ y) = true := by
  simp only [plainLetter, Bool.and_eq_true] at *
  exact ⟨freeOf_append.2 ⟨hx.1, hy.1⟩, freeOf_append.2 ⟨hx.2, hy.2⟩⟩

theorem USafe.replaceLetter {x y : PyStr} (hx : plainLetter x = true) (hy : plainLetter y = true) : USafe kp (Verif.replace x y) := by
  simp only [plainLetter, Bool.and_eq_true] at hx hy
  refine USafe.lit (Lin.replace x y) (optOk_iff.2 ?_)
  show (Prog.rep x y .done).safe false = true ∧ (_ → (Prog.rep x y .done).keeps neu = true) ∧
    (Prog.rep x y .done).noNew (guardSet false) = true
  simp [Prog.safe, Prog.keeps, Prog.noNew, hx.1, hy.1, hy.2]

theorem GSafe.crunchList (s : Sec) (S : PyStr) : GSafe kp (fun l => l = modAttr S s) (crunchList s S) := by
  unfold Verif.crunchList modAttr
  cases tblOf S <;> exact fun k hk => hk _ rfl

theorem GSafe.index {α : Type} {l : List α} (i : Nat) (h : i < l.length) : GSafe kp (fun a => a ∈ l) (index l (i : Int)) := by
  have hp : pyIndex? l (i : Int) = some l[i] := by
    simp [pyIndex?, List.getElem?_eq_getElem h]
  unfold Verif.index
  rw [hp]
  exact GSafe.pure (List.getElem_mem h)

theorem USafe.crunchListBind {s : Sec} {S : PyStr} {f : List PyStr → Gen Unit} (h : USafe kp (f (modAttr S s))) :
    USafe kp (Verif.crunchList s S >>= f) := GSafe.bind (GSafe.crunchList s S) fun _ e => e ▸ h

theorem USafe.indexBind {l : List PyStr} {f : PyStr → Gen Unit} (hl : l ≠ []) (h : ∀ a ∈ l, USafe kp (f a)) :
    USafe kp (Verif.index l 0 >>= f) :=
  GSafe.bind (GSafe.index 0 (List.length_pos_iff.2 hl)) h

open Lean Parser Tactic in
/-- Safety by structure. -/
macro "usafe" : tactic => `(tactic| repeat' (with_reducible first
  | exact USafe.skip
  | exact USafe.replace (by decide +kernel)
  | exact USafe.append (by decide +kernel)
  | exact USafe.prepend (by decide +kernel)
  | apply USafe.crunchListBind
  | apply USafe.indexBind
  | refine GSafe.bind (P := fun _ => True) ?_ ?_
  | refine GSafe.branch (fun _ => ?_) (fun _ => ?_)
  | apply USafe.whenDyn
  | exact USafe.lit (Lin.forEach fun _ => Lin.replace _ _) (by decide +kernel)
  | apply USafe.forEach
  | exact USafe.host rfl
  | exact USafe.reSub (by decide +kernel)
  | intro _ ))

/-- The tables have an avagraha. -/
def preSigns (S T : PyStr) : Prop :=
  pyIn S GM.IndicScripts = true → pyIn T GM.Transliteration = true →
    ((modAttr S .SignMap) ≠ [] ∧ ∀ x ∈ modAttr S .SignMap, plainLetter x = true) ∧ (modAttr T .SignMap) ≠ []

theorem normalize_safe (S : PyStr) : USafe kp (PreProcess.normalize S) := by
  unfold PreProcess.normalize
  usafe

theorem preProcess_safe {S T : PyStr} (hI : S ≠ u! "Itrans") (h : preSigns S T) (a b : List PyStr) :
    USafe kp (PreProcess.PreProcess S T a b) := by
  have hI' : pyEq S (u! "Itrans") = false := by rw [pyEq_eq]; exact strEq_false.2 hI
  unfold PreProcess.PreProcess ConvertFix.VedicSvarasNonDiacritic
  simp only [hI', branch_false]
  usafe
  · exact normalize_safe S
  · rename_i hb
    rw [Bool.and_eq_true] at hb
    exact (h hb.1 hb.2).1.1
  · rename_i hb _ _
    rw [Bool.and_eq_true] at hb
    exact (h hb.1 hb.2).2
  · rename_i hb x hx _ _ _
    rw [Bool.and_eq_true] at hb
    have := (h hb.1 hb.2).1.2 x hx
    exact USafe.replaceLetter (plainLetter_append (by decide) this) (plainLetter_append (by decide) this)

/-- A name in each class of targets `PreProcess` tells apart. -/
def allReps : List PyStr := preReps ++ us!["Hebr", "Syrj", "IPA"]

theorem allReps_all : anyTgt.all (fun T => allReps.any (sameForPre T)) = true := by decide +kernel

theorem itransPre_safe : allReps.all (fun T => (optAna true).ok (PreProcess.PreProcess (u! "Itrans") T [] []).prog) = true := by
  decide +kernel

/-- Every source with letters has signs, as every romanisation. -/
theorem signs_all : anySrc.all (fun S => !(pyIn S GM.IndicScripts) || !(modAttr S .SignMap).isEmpty &&
      (modAttr S .SignMap).all plainLetter) = true ∧
    anyTgt.all (fun S => !(pyIn S GM.Transliteration) || !(modAttr S .SignMap).isEmpty) = true := by
  constructor <;> decide +kernel

theorem pre_safe {S T : PyStr} (hS : S ∈ anySrc) (hT : T ∈ anyTgt) (a b : List PyStr) :
    USafe kp (PreProcess.PreProcess S T a b) := by
  by_cases hI : S = u! "Itrans"
  · subst hI
    obtain ⟨r, hr, hs⟩ := List.any_eq_true.1 (List.all_eq_true.1 allReps_all T hT)
    show USafe kp (PreProcess.PreProcess (u! "Itrans") T [] [])
    rw [preProcess_tgt hs]
    exact USafe.lit (lin_preProcess _ _ _ _) (List.all_eq_true.1 itransPre_safe r hr)
  · refine preProcess_safe hI (fun h1 h2 => ?_) a b
    have a1 := List.all_eq_true.1 signs_all.1 S hS
    have a2 := List.all_eq_true.1 signs_all.2 T hT
    rw [h1] at a1
    rw [h2] at a2
    simp only [Bool.not_true, Bool.false_or, Bool.not_eq_true', List.isEmpty_eq_false_iff, Bool.and_eq_true,
      List.all_eq_true] at a1 a2
    exact ⟨a1, a2⟩

/-! ## Options and the end of a conversion -/

/-- An option that can be called. -/
def okPre (o : PyStr) : Prop := o ∈ names preFns ∧ o ∉ failingPre ∧ o ∉ externalPre
/-- See `okPre`. -/
def okPost (kp : Bool) (o : PyStr) : Prop :=
  o ∈ names postFns ∧ o ∉ failingPost ∧ o ∉ externalPost ∧ (kp = true → o ∉ movingPost)

theorem dictGet?_names {fns : List (PyStr × Gen Unit)} {o : PyStr} (h : o ∈ names fns) :
    ∃ g, dictGet? fns o = some g ∧ (o, g) ∈ fns := by
  cases e : dictGet? fns o with
  | some g => exact ⟨g, rfl, dictGet?_some e⟩
  | none =>
    obtain ⟨p, hp, rfl⟩ := List.mem_map.1 h
    exact absurd rfl (dictGet?_none.1 e p hp)

theorem callPre_safe {o : PyStr} (h : okPre o) : USafe kp (callOption preFns o) := by
  obtain ⟨g, hg, hm⟩ := dictGet?_names h.1
  have := List.all_eq_true.1 preFns_safe _ hm
  simp only [preFnsOk, strMem_false.2 h.2.1, strMem_false.2 h.2.2] at this
  unfold callOption
  rw [hg]
  exact USafe.lit (preFns_lin _ hm) this

theorem callPost_safe {o : PyStr} (h : okPost kp o) : USafe kp (callOption postFns o) := by
  obtain ⟨g, hg, hm⟩ := dictGet?_names h.1
  have := List.all_eq_true.1 postFns_safe _ hm
  simp only [postFnsOk, strMem_false.2 h.2.1, strMem_false.2 h.2.2.1] at this
  unfold callOption
  rw [hg]
  refine USafe.of_lin (postFns_lin _ hm) ((opt_le fun e => ?_).ok this)
  simp [strMem_false.2 (h.2.2.2 e)]

/-- `applyScriptDefaults` asks one question about the options. -/
theorem defaults_post (S T : PyStr) (post : List PyStr) : applyScriptDefaults S T post =
    applyScriptDefaults S T (match pyIn (u! "BengaliRaBa") post with | true => us!["BengaliRaBa"] | false => []) := by
  cases h : pyIn (u! "BengaliRaBa") post with
  | true =>
    unfold applyScriptDefaults
    rw [h]
    rfl
  | false =>
    unfold applyScriptDefaults
    rw [h]
    rfl

theorem defaults_src {S T : PyStr} (hT : pyEq T (u! "Latn") = false) (p : List PyStr) :
    applyScriptDefaults S T p = applyScriptDefaults T T p := by
  unfold applyScriptDefaults
  simp only [hT, branch_false]

theorem defaults_all : anyTgt.all (fun T => (optAna true).ok (applyScriptDefaults T T []).prog &&
    (optAna true).ok (applyScriptDefaults T T us!["BengaliRaBa"]).prog) = true := by decide +kernel

theorem defaults_latn : anySrc.all (fun S => (optAna true).ok (applyScriptDefaults S (u! "Latn") []).prog &&
    (optAna true).ok (applyScriptDefaults S (u! "Latn") us!["BengaliRaBa"]).prog) = true := by decide +kernel

theorem nativization_safe {S T : PyStr} (hS : S ∈ anySrc) (hT : T ∈ anyTgt) (post : List PyStr) :
    USafe kp (nativization S T post) := by
  unfold nativization
  refine GSafe.bind (P := fun _ => True) ?_ fun _ _ => ?_
  · rw [defaults_post]
    refine USafe.lit (lin_applyScriptDefaults _ _ _) ?_
    cases h : pyEq T (u! "Latn") with
    | true =>
      have := List.all_eq_true.1 defaults_latn S hS
      rw [Bool.and_eq_true] at this
      rw [pyEq_eq, strEq_iff] at h
      subst h
      cases pyIn (u! "BengaliRaBa") post
      · exact this.1
      · exact this.2
    | false =>
      have := List.all_eq_true.1 defaults_all T hT
      rw [Bool.and_eq_true] at this
      rw [defaults_src h]
      cases pyIn (u! "BengaliRaBa") post
      · exact this.1
      · exact this.2
  · refine GSafe.branch (fun _ => GSafe.branch (fun _ => ?_) fun _ => ?_) fun _ => USafe.skip
    · unfold PostProcess.RemoveDiacritics; usafe
    · unfold PostProcess.RemoveDiacriticsTamil; usafe

/-- Targets with a table of signs under their own name. -/
theorem stops_all : letterTgt.all (fun T => (optAna true).ok (PostProcess.RetainDandasIndic T true).prog) = true := by
  decide +kernel

theorem numerals_all : anyTgt.all (fun T => (optAna true).ok (PostProcess.RetainIndicNumerals T false).prog &&
    (optAna true).ok (PostProcess.RetainIndicNumerals T true).prog) = true := by
  decide +kernel

theorem lin_retainNumerals (T : PyStr) (r : Bool) : Lin (PostProcess.RetainIndicNumerals T r) := by
  unfold PostProcess.RetainIndicNumerals; lin
theorem lin_retainDandas (T : PyStr) (r : Bool) : Lin (PostProcess.RetainDandasIndic T r) := by
  unfold PostProcess.RetainDandasIndic; lin

theorem defaultPost_safe {S T : PyStr} {nat : Bool} {pre post : List PyStr} (hT : T ∈ anyTgt)
    (hs : (u! "romanFullStop") ∈ post → T ∈ letterTgt) : USafe kp (PostProcess.defaultPost S T nat pre post) := by
  unfold PostProcess.defaultPost
  usafe
  · exact USafe.lit (lin_retainNumerals _ _) ((Bool.and_eq_true _ _).mp (List.all_eq_true.1 numerals_all T hT)).2
  · exact USafe.lit (lin_retainNumerals _ _) ((Bool.and_eq_true _ _).mp (List.all_eq_true.1 numerals_all T hT)).1
  · rename_i h
    exact USafe.lit (lin_retainDandas _ _) (List.all_eq_true.1 stops_all T (hs (strMem_iff.1 h)))

/-! ## `convert` without the romanisation standards -/

/-- The scripts of a conversion that keeps neutral characters. -/
def Keeping (kp : Bool) (S T : PyStr) : Prop := kp = true → S ∉ lossySrc ∧ T ∉ lossyTgt ∧ KeepPair S T

/-- What makes a conversion raise nothing. -/
structure OkCfg (kp : Bool) (c : Cfg) : Prop where
  src : c.src ∈ anySrc
  tgt : c.tgt ∈ anyTgt
  pre : ∀ o ∈ c.pre, okPre o
  post : ∀ o ∈ c.post, okPost kp o
  stop : (u! "romanFullStop") ∈ c.post → c.tgt ∈ letterTgt
  ipa : c.src = u! "Tamil" → c.tgt ≠ u! "IPA"
  keep : Keeping kp c.src c.tgt

theorem any_facts {S : PyStr} (h : S ∈ anySrc ∨ S ∈ anyTgt) : pyEq S (u! "Hiragana") = false ∧ pyEq S (u! "Katakana") = false ∧
    pyEq S (u! "") = false ∧ pyEq S (u! "Ignore") = false ∧ pyEq S (u! "RomanLoC") = false ∧
    hasKey GM.semiticISO S = false := by
  have h' : S ∈ letterSrc ++ letterTgt ∨ S ∈ semiticScripts := by
    rcases h with h | h <;> rcases List.mem_append.1 h with h | h
    · exact Or.inl (List.mem_append_left _ h)
    · exact Or.inr h
    · exact Or.inl (List.mem_append_right _ h)
    · exact Or.inr h
  rcases h' with h | h
  · have := List.all_eq_true.1 letterName_all S h
    simp only [letterName, Bool.and_eq_true, Bool.not_eq_true'] at this
    obtain ⟨⟨⟨⟨⟨⟨⟨a, b⟩, c⟩, d⟩, e⟩, f⟩, g⟩, i⟩ := this
    exact ⟨e, f, g, i, c, d⟩
  · have := List.all_eq_true.1 semiticName_all S h
    simp only [semiticName, Bool.and_eq_true, Bool.not_eq_true'] at this
    obtain ⟨⟨⟨⟨⟨⟨⟨⟨a, a'⟩, b⟩, c⟩, d⟩, e⟩, f⟩, g⟩, i⟩ := this
    exact ⟨e, f, g, i, c, d⟩

theorem signs2_all : letterSrc.all (fun S => Nat.blt 1 (modAttr S .SignMap).length) = true := by decide +kernel

theorem okPre_danda : okPre (u! "RetainDevangariDanda") :=
  ⟨strMem_iff.1 (by decide +kernel), strMem_false.1 (by decide +kernel), strMem_false.1 (by decide +kernel)⟩
theorem okPost_dandas : okPost kp (u! "Dot2Dandas") :=
  ⟨strMem_iff.1 (by decide +kernel), strMem_false.1 (by decide +kernel), strMem_false.1 (by decide +kernel),
    fun _ => strMem_false.1 (by decide +kernel)⟩
theorem okPost_pipes : okPost kp (u! "Dot2Pipes") :=
  ⟨strMem_iff.1 (by decide +kernel), strMem_false.1 (by decide +kernel), strMem_false.1 (by decide +kernel),
    fun _ => strMem_false.1 (by decide +kernel)⟩
theorem okPost_tamil : okPost kp (u! "RemoveDiacriticsTamil") :=
  ⟨strMem_iff.1 (by decide +kernel), strMem_false.1 (by decide +kernel), strMem_false.1 (by decide +kernel),
    fun _ => strMem_false.1 (by decide +kernel)⟩

theorem mem_snoc {l : List PyStr} {x y : PyStr} (h : x ∈ l ++ [y]) (hne : x ≠ y) : x ∈ l := by
  rcases List.mem_append.1 h with h | h
  · exact h
  · exact absurd (List.mem_singleton.1 h) hne

theorem dandas_safe {c : Cfg} (h : OkCfg kp c) (hd : (u! "indicDandas") ∈ c.post → c.src ∈ letterSrc) :
    GSafe kp (OkCfg kp) (indicDandas c) := by
  unfold indicDandas
  cases hb : pyIn (u! "indicDandas") c.post with
  | false => exact GSafe.pure h
  | true =>
    have hS := hd (strMem_iff.1 hb)
    have hE : GSafe kp (OkCfg kp) (indicDandasElse c) := by
      have hl := List.all_eq_true.1 signs2_all _ hS
      rw [Nat.blt_eq] at hl
      refine GSafe.bind (GSafe.crunchList _ _) fun l e => GSafe.bind (GSafe.index 1 (e ▸ hl)) fun d _ => ?_
      refine GSafe.branch (fun _ => GSafe.pure ?_) fun _ => GSafe.branch (fun _ => GSafe.pure ?_) fun _ => GSafe.pure ?_
      · refine ⟨h.src, h.tgt, fun o ho => ?_, h.post, h.stop, h.ipa, h.keep⟩
        rcases List.mem_append.1 ho with ho | ho
        · exact h.pre o ho
        · rw [List.mem_singleton.1 ho]; exact okPre_danda
      · refine ⟨h.src, h.tgt, h.pre, fun o ho => ?_, fun ho => h.stop (mem_snoc ho (by decide)), h.ipa, h.keep⟩
        rcases List.mem_append.1 ho with ho | ho
        · exact h.post o ho
        · rw [List.mem_singleton.1 ho]; exact okPost_dandas
      · refine ⟨h.src, h.tgt, h.pre, fun o ho => ?_, fun ho => h.stop (mem_snoc ho (by decide)), h.ipa, h.keep⟩
        rcases List.mem_append.1 ho with ho | ho
        · exact h.post o ho
        · rw [List.mem_singleton.1 ho]; exact okPost_pipes
    cases hp : pyIn c.src GM.pipeScripts with
    | false => exact hE
    | true =>
      intro k hk
      have h1 : (optAna kp).ok (PreProcess.RetainPipeDanda c.src fun _ => k c) = true := by
        refine (show USafe kp (PreProcess.RetainPipeDanda c.src) from ?_) _ fun _ _ => hk c h
        unfold PreProcess.RetainPipeDanda; usafe
      exact optOk_ite h1 (hE k hk) (optAna kp).done

/-- The scripts that options switch to. -/
def switched : List PyStr := us!["SiddhamDevanagari", "Lao2", "GranthaGrantamil", "Devanagari", "Tibetan", "BengaliRaBa",
  "BalineseSimpleRomanLoC", "JavaneseSimpleRomanLoC"]

theorem switched_all : switched.all (fun x => strMem x letterSrc && strMem x letterTgt && !(strEq x (u! "Tamil"))
    && !(strEq x (u! "IPA")) && !(strMem x lossySrc) && !(strMem x lossyTgt) && !(strMem x semiticScripts)) = true := by
  decide +kernel

/-- The names that options replace are not Semitic. -/
def replacedNames : List PyStr := us!["Siddham", "Lao", "Grantha", "Newa", "Ranjana", "Bengali", "Soyombo", "Balinese", "Javanese"]

theorem replaced_all : semiticScripts.all (fun x => replacedNames.all fun n => !(pyEq x n)) = true := by decide +kernel

theorem replaced_semitic {x : PyStr} (h : x ∈ semiticScripts) : ∀ n ∈ replacedNames, pyEq x n = false := by
  intro n hn
  have := List.all_eq_true.1 (List.all_eq_true.1 replaced_all x h) n hn
  simpa using this

theorem switch_mem {x y : PyStr} (b : Bool) {P : PyStr → Prop} (hy : y ∈ switched) (hx : P x) (hP : ∀ y ∈ switched, P y) :
    P (match b with | true => y | false => x) := by
  cases b
  · exact hx
  · exact hP y hy

theorem switches_safe {c : Cfg} (h : OkCfg kp c) : GSafe kp (OkCfg kp) (optionSwitches c) := by
  have hsw : ∀ y ∈ switched, y ∈ letterSrc ∧ y ∈ letterTgt ∧ y ≠ u! "Tamil" ∧ y ≠ u! "IPA" ∧
      y ∉ lossySrc ∧ y ∉ lossyTgt ∧ y ∉ semiticScripts := by
    intro y hy
    have := List.all_eq_true.1 switched_all y hy
    simp only [Bool.and_eq_true, strMem_iff, Bool.not_eq_true', strEq_false, strMem_false] at this
    obtain ⟨⟨⟨⟨⟨⟨a, b⟩, c⟩, d⟩, e⟩, f⟩, g⟩ := this
    exact ⟨a, b, c, d, e, f, g⟩
  by_cases hsem : kp = true ∧ c.src ∈ semiticScripts
  · have f1 := replaced_semitic hsem.2
    have f2 := replaced_semitic ((h.keep hsem.1).2.2.1 hsem.2)
    simp only [replacedNames, List.forall_mem_cons] at f1 f2
    unfold optionSwitches
    simp only [f1.1, f1.2, f2.1, f2.2, Bool.and_false, branch_false]
    exact GSafe.bind (P := fun _ => True) USafe.skip fun _ _ =>
      GSafe.pure ⟨h.src, h.tgt, h.pre, h.post, h.stop, h.ipa, h.keep⟩
  have hns : kp = true → c.src ∉ semiticScripts := fun hk he => hsem ⟨hk, he⟩
  let Ps : PyStr → Prop := fun x => x ∈ anySrc ∧ (x = u! "Tamil" → x = c.src) ∧
    (kp = true → x ∉ lossySrc ∧ x ∉ semiticScripts)
  let Pt : PyStr → Prop := fun x => x ∈ anyTgt ∧ ((u! "romanFullStop") ∈ c.post → x ∈ letterTgt) ∧ (x = u! "IPA" → x = c.tgt) ∧
    (kp = true → x ∉ lossyTgt ∧ (x ∈ semiticScripts → x ∈ doublingSemitic))
  have s0 : Ps c.src := ⟨h.src, fun _ => rfl, fun hk => ⟨(h.keep hk).1, hns hk⟩⟩
  have t0 : Pt c.tgt := ⟨h.tgt, h.stop, fun _ => rfl, fun hk => ⟨(h.keep hk).2.1, (h.keep hk).2.2.2 (hns hk)⟩⟩
  have sS : ∀ y ∈ switched, Ps y := fun y hy =>
    ⟨List.mem_append_left _ (hsw y hy).1, fun e => absurd e (hsw y hy).2.2.1, fun _ => ⟨(hsw y hy).2.2.2.2.1, (hsw y hy).2.2.2.2.2.2⟩⟩
  have tS : ∀ y ∈ switched, Pt y := fun y hy =>
    ⟨List.mem_append_left _ (hsw y hy).2.1, fun _ => (hsw y hy).2.1, fun e => absurd e (hsw y hy).2.2.2.1,
      fun _ => ⟨(hsw y hy).2.2.2.2.2.1, fun e => absurd e (hsw y hy).2.2.2.2.2.2⟩⟩
  have fin : ∀ {S T : PyStr} {n : Bool}, Ps S → Pt T → OkCfg kp ⟨S, T, n, c.pre, c.post⟩ := by
    intro S T n hS hT
    exact ⟨hS.1, hT.1, h.pre, h.post, hT.2.1, fun e1 e2 => h.ipa ((hS.2.1 e1) ▸ e1) ((hT.2.2.1 e2) ▸ e2),
      fun hk => ⟨(hS.2.2 hk).1, (hT.2.2.2 hk).1, fun e => absurd e (hS.2.2 hk).2, fun _ => (hT.2.2.2 hk).2⟩⟩
  unfold optionSwitches
  simp only []
  refine GSafe.bind (P := fun _ => True) (GSafe.branch (fun _ => USafe.prepend (by decide +kernel)) fun _ => USafe.skip) fun _ _ =>
    GSafe.pure (fin ?_ ?_)
  · refine switch_mem _ (strMem_iff.1 (by decide +kernel)) (switch_mem _ (strMem_iff.1 (by decide +kernel)) s0 sS) sS
  · repeat' first
      | exact t0
      | exact tS
      | exact strMem_iff.1 (by decide +kernel)
      | refine switch_mem _ ?_ ?_ ?_

theorem retainLatin_safe (b : Bool) : USafe kp (PreProcess.retainLatin b) :=
  USafe.lit (lin_PreProcess_retainLatin b) (by cases b <;> decide +kernel)

theorem before_safe {c : Cfg} (h : OkCfg kp c) : GSafe kp (fun p => p = (false, c.src)) (beforeConversion c) := by
  obtain ⟨h1, h2, -⟩ := any_facts (Or.inl h.src)
  unfold beforeConversion
  refine GSafe.bind (USafe.forEach fun o ho => callPre_safe (h.pre o ho)) fun _ _ => ?_
  refine GSafe.bind (P := fun _ => True) (GSafe.branch (fun _ => USafe.replace (by decide +kernel)) fun _ => USafe.skip) fun _ _ => ?_
  refine GSafe.bind (P := fun _ => True) (GSafe.branch (fun _ => retainLatin_safe _) fun _ => USafe.skip) fun _ _ => ?_
  rw [h1, h2, Bool.or_false, branch_false]
  exact GSafe.pure rfl

theorem deva_src : (u! "Devanagari") ∈ anySrc := strMem_iff.1 (by decide +kernel)
theorem deva_tgt : (u! "Devanagari") ∈ letterTgt := strMem_iff.1 (by decide +kernel)

theorem deva_keeps : (u! "Devanagari") ∉ lossySrc ∧ (u! "Devanagari") ∉ lossyTgt ∧ (u! "Devanagari") ∉ semiticScripts :=
  ⟨strMem_false.1 (by decide +kernel), strMem_false.1 (by decide +kernel), strMem_false.1 (by decide +kernel)⟩

theorem conversion_safe {S T : PyStr} (hS : S ∈ anySrc) (hT : T ∈ anyTgt) (hK : Keeping kp S T) :
    USafe kp (conversion S T) := by
  have h := convertScript_safe hS hT (fun e => (hK e).1) (fun e => (hK e).2.1) (fun e => (hK e).2.2)
  unfold conversion
  exact GSafe.branch (fun _ => USafe.whenDyn _ (USafe.onEvens (by decide) h) h) fun _ => h

/-- `mainPart` after the target is settled. -/
def mainT (c : Cfg) (same : Bool) (T : PyStr) : Gen Unit := do
  branch (pyEq c.src (u! "Oriya") && pyEq c.tgt (u! "IPA")) ConvertFix.OriyaIPAFixPre (pure ())
  conversion c.src c.tgt
  branch same (convertScript (u! "Devanagari") T) (pure ())
  branch ((!(pyIn c.src GM.SemiticScripts) && pyEq T (u! "Arab") && c.nativize)
      || pyIn (u! "arabicRemoveAdditionsPhonetic") c.post)
    PostProcess.arabicRemoveAdditionsPhonetic (pure ())
  branch c.nativize (nativization c.src T c.post) (pure ())
  let tamil := pyIn (u! "RemoveDiacritics") c.post && pyEq T (u! "Tamil")
  let post := match tamil with
    | true => c.post.map fun x => match pyEq x (u! "RemoveDiacritics") with
      | true => u! "RemoveDiacriticsTamil"
      | false => x
    | false => c.post
  forEach post fun o => callOption postFns o
  branch (pyEq c.src (u! "Tamil") && pyEq T (u! "IPA")) (host .tamilIPA) (pure ())
  branch (pyEq c.src (u! "Oriya") && pyEq T (u! "IPA")) ConvertFix.OriyaIPAFix (pure ())
  PreProcess.retainLatin true
  PostProcess.defaultPost c.src T c.nativize c.pre (match tamil with
    | true => []
    | false => c.post)

theorem mainPart_eq {c : Cfg} {old : PyStr} (h1 : pyEq c.tgt (u! "Hiragana") = false) (h2 : pyEq c.tgt (u! "Katakana") = false) :
    mainPart c old false c.src = mainT c (pyEq c.src old) (match pyEq c.src old with | true => old | false => c.tgt) := by
  unfold mainPart mainT
  rw [h1, h2]
  cases pyEq c.src old <;> rfl

theorem mainT_safe {c : Cfg} (h : OkCfg kp c) (same : Bool) {T : PyStr} (hT : T ∈ anyTgt ∧
      ((u! "romanFullStop") ∈ c.post → T ∈ letterTgt) ∧ (c.src = u! "Tamil" → T ≠ u! "IPA"))
    (hK : same = true → Keeping kp (u! "Devanagari") T) : USafe kp (mainT c same T) := by
  unfold mainT
  refine GSafe.bind (P := fun _ => True) (GSafe.branch (fun _ => ?_) fun _ => USafe.skip) fun _ _ => ?_
  · unfold ConvertFix.OriyaIPAFixPre; usafe
  refine GSafe.bind (conversion_safe h.src h.tgt h.keep) fun _ _ => ?_
  refine GSafe.bind (P := fun _ => True) (GSafe.branch (fun e => convertScript_safe deva_src hT.1
    (fun e' => (hK e e').1) (fun e' => (hK e e').2.1) (fun e' => (hK e e').2.2)) fun _ => USafe.skip) fun _ _ => ?_
  refine GSafe.bind (P := fun _ => True) (GSafe.branch (fun _ => ?_) fun _ => USafe.skip) fun _ _ => ?_
  · unfold PostProcess.arabicRemoveAdditionsPhonetic; usafe
  refine GSafe.bind (P := fun _ => True) (GSafe.branch (fun _ => nativization_safe h.src hT.1 _) fun _ => USafe.skip) fun _ _ => ?_
  cases pyIn (u! "RemoveDiacritics") c.post && pyEq T (u! "Tamil")
  all_goals
    refine GSafe.bind (P := fun _ => True) (USafe.forEach fun o ho => callPost_safe ?_) fun _ _ => ?_
    rotate_left
    refine GSafe.bind (P := fun _ => True) (GSafe.branch (fun hb => ?_) fun _ => USafe.skip) fun _ _ => ?_
    · rw [Bool.and_eq_true, pyEq_eq, pyEq_eq, strEq_iff, strEq_iff] at hb
      exact absurd hb.2 (hT.2.2 hb.1)
    refine GSafe.bind (P := fun _ => True) (GSafe.branch (fun _ => ?_) fun _ => USafe.skip) fun _ _ => ?_
    · unfold ConvertFix.OriyaIPAFix; usafe
    refine GSafe.bind (retainLatin_safe _) fun _ _ => defaultPost_safe hT.1 ?_
  · exact hT.2.1
  · exact h.post o ho
  · intro h; cases h
  · obtain ⟨x, hx, rfl⟩ := List.mem_map.1 ho
    cases pyEq x (u! "RemoveDiacritics")
    · exact h.post x hx
    · exact okPost_tamil

theorem main_safe {c : Cfg} (h : OkCfg kp c) {old : PyStr} (ho : old = [] ∨ (old ∈ letterTgt ∧ (kp = true → old ∉ lossyTgt))) :
    USafe kp (mainPart c old false c.src) := by
  obtain ⟨-, -, s3, -⟩ := any_facts (Or.inl h.src)
  obtain ⟨t1, t2, -⟩ := any_facts (Or.inr h.tgt)
  rw [mainPart_eq t1 t2]
  cases e : pyEq c.src old with
  | false => exact mainT_safe h _ ⟨h.tgt, h.stop, h.ipa⟩ fun e => by cases e
  | true =>
    rw [pyEq_eq, strEq_iff] at e
    have : old ∈ letterTgt ∧ (kp = true → old ∉ lossyTgt) := by
      rcases ho with ho | ho
      · rw [e, ho] at s3
        cases s3
      · exact ho
    refine mainT_safe h _ ⟨List.mem_append_left _ this.1, fun _ => this.1, fun e1 => ?_⟩ fun _ hk =>
      ⟨deva_keeps.1, this.2 hk, fun e => absurd e deva_keeps.2.2, fun _ e => ?_⟩
    · show old ≠ _
      rw [← e, e1]
      decide
    · have h1 := (semitic_facts e).2.2
      rw [(letter_facts (List.mem_append_right _ this.1)).2] at h1
      cases h1

theorem tail_safe {c : Cfg} (h : OkCfg kp c) (hd : (u! "indicDandas") ∈ c.post → c.src ∈ letterSrc) :
    USafe kp (convertTail c) := by
  have hss : ((sameScript c).1 = [] ∨ ((sameScript c).1 ∈ letterTgt ∧ (kp = true → (sameScript c).1 ∉ lossyTgt))) ∧ OkCfg kp (sameScript c).2 ∧
      ((u! "indicDandas") ∈ (sameScript c).2.post → (sameScript c).2.src ∈ letterSrc) := by
    unfold sameScript
    split
    · rename_i hb
      simp only [Bool.and_eq_true, Bool.not_eq_true'] at hb
      have ht : c.tgt ∈ letterTgt := by
        rcases List.mem_append.1 h.tgt with ht | ht
        · exact ht
        · have e := hb.1.1.1
          rw [pyEq_eq, strEq_iff] at e
          have := (semitic_facts ht).2.2
          rw [← e, hb.2] at this
          cases this
      have hsrc : c.src ∉ semiticScripts := by
        intro hx
        rw [(semitic_facts hx).2.2] at hb
        exact Bool.noConfusion hb.2
      exact ⟨Or.inr ⟨ht, fun hk => (h.keep hk).2.1⟩, ⟨h.src, List.mem_append_left _ deva_tgt, h.pre, h.post, fun _ => deva_tgt,
        fun _ => by show (u! "Devanagari") ≠ (u! "IPA"); decide, fun hk => ⟨(h.keep hk).1, deva_keeps.2.1,
          fun e => absurd e hsrc, fun _ e => absurd e deva_keeps.2.2⟩⟩, hd⟩
    · exact ⟨Or.inl rfl, h, hd⟩
  unfold convertTail
  refine GSafe.bind (P := fun _ => True) ?_ fun _ _ => ?_
  · unfold markers; usafe
  revert hss
  generalize sameScript c = p
  obtain ⟨old, c'⟩ := p
  intro hss
  simp only at hss ⊢
  refine GSafe.bind (dandas_safe hss.2.1 hss.2.2) fun c1 h1 => ?_
  refine GSafe.bind (pre_safe h1.src h1.tgt _ _) fun _ _ => ?_
  refine GSafe.bind (switches_safe h1) fun c2 h2 => ?_
  refine GSafe.bind (before_safe h2) fun q hq => ?_
  rw [hq]
  exact main_safe h2 hss.1

/-- The pairs of scripts for which neutral characters are kept. -/
structure Keeps (S T : PyStr) : Prop where
  src : S ∉ loseSrc
  tgt : T ∉ lossyTgt
  sem : S ∈ semiticScripts ++ dualScripts → T ∈ semiticScripts ++ dualScripts
  dbl : S ∉ semiticScripts ++ dualScripts → T ∈ semiticScripts → T ∈ doublingSemitic

/-- What makes a conversion raise nothing, before the switch to Semitic names. -/
structure UserOk (kp : Bool) (c : Cfg) : Prop where
  src : c.src ∈ anySrc
  tgt : c.tgt ∈ anyTgt
  pre : ∀ o ∈ c.pre, okPre o
  post : ∀ o ∈ c.post, okPost kp o
  dan : (u! "indicDandas") ∈ c.post → c.src ∈ letterSrc ∧ c.src ∉ dualScripts
  stop : (u! "romanFullStop") ∈ c.post → c.tgt ∈ letterTgt ∧ c.tgt ∉ dualScripts
  ipa : c.src = u! "Tamil" → c.tgt ≠ u! "IPA"
  keep : kp = true → Keeps c.src c.tgt

theorem map_all : (indicSemiticMapping.map Prod.fst) = dualScripts ∧
    indicSemiticMapping.all (fun p => strMem p.2 semiticScripts) = true := by
  constructor <;> decide +kernel

theorem mapName_or (x : PyStr) : mapName indicSemiticMapping x = x ∨
    (x ∈ dualScripts ∧ mapName indicSemiticMapping x ∈ semiticScripts) := by
  unfold mapName
  cases h : dictGet? indicSemiticMapping x with
  | none => exact Or.inl rfl
  | some y =>
    have hm := dictGet?_some h
    refine Or.inr ⟨?_, strMem_iff.1 (List.all_eq_true.1 map_all.2 _ hm)⟩
    rw [← map_all.1]
    exact List.mem_map.2 ⟨_, hm, rfl⟩

theorem semitic_keeps {x : PyStr} (h : x ∈ semiticScripts) : x ∉ lossyTgt := by
  intro hx
  have := List.all_eq_true.1 (show lossyTgt.all (fun x => !(strMem x semiticScripts)) = true by decide +kernel) x hx
  rw [strMem_iff.2 h] at this
  cases this

theorem semitic_srcKeeps {x : PyStr} (h : x ∈ semiticScripts) : x ∉ lossySrc := by
  have := List.all_eq_true.1 (show semiticScripts.all (fun x => !(strMem x lossySrc)) = true by
    decide +kernel) x h
  simpa only [Bool.not_eq_true', strMem_false] using this

/-- Two Semitic names lead to two Semitic names. -/
theorem switch_names : semiticScripts.all (fun x => pyIn x GM.SemiticScripts && !(hasKey indicSemiticMapping x)) = true ∧
    dualScripts.all (fun x => hasKey indicSemiticMapping x && !(pyIn x GM.SemiticScripts) && !(hasKey GM.semiticISO x)
      && strMem (mapName indicSemiticMapping x) semiticScripts) = true := by
  constructor <;> decide +kernel

/-- See `switch_names`. -/
theorem switch_semitic {S T : PyStr} {n : Bool} {p q : List PyStr} (hS : S ∈ semiticScripts ++ dualScripts)
    (hT : T ∈ semiticScripts ++ dualScripts) : (semiticSwitch ⟨S, T, n, p, q⟩).src ∈ semiticScripts ∧
    (semiticSwitch ⟨S, T, n, p, q⟩).tgt ∈ semiticScripts := by
  have sem : ∀ {x}, x ∈ semiticScripts → pyIn x GM.SemiticScripts = true ∧ hasKey indicSemiticMapping x = false ∧
      mapName indicSemiticMapping x = x := by
    intro x hx
    have := List.all_eq_true.1 switch_names.1 x hx
    simp only [Bool.and_eq_true, Bool.not_eq_true'] at this
    exact ⟨this.1, this.2, by unfold mapName; rw [hasKey_false this.2]⟩
  have dual : ∀ {x}, x ∈ dualScripts → hasKey indicSemiticMapping x = true ∧ pyIn x GM.SemiticScripts = false ∧
      hasKey GM.semiticISO x = false ∧ mapName indicSemiticMapping x ∈ semiticScripts := by
    intro x hx
    have := List.all_eq_true.1 switch_names.2 x hx
    simp only [Bool.and_eq_true, Bool.not_eq_true', strMem_iff] at this
    exact ⟨this.1.1.1, this.1.1.2, this.1.2, this.2⟩
  rcases List.mem_append.1 hS with hS | hS <;> rcases List.mem_append.1 hT with hT | hT
  · obtain ⟨a1, a2, a3⟩ := sem hS
    obtain ⟨b1, b2, b3⟩ := sem hT
    unfold semiticSwitch
    cases n <;> simp only [a1, a2, a3, b1, b3, Bool.true_or, Bool.false_and] <;> exact ⟨hS, hT⟩
  · obtain ⟨a1, a2, a3⟩ := sem hS
    obtain ⟨b1, b2, b3, b4⟩ := dual hT
    unfold semiticSwitch
    cases n <;> simp only [a1, a2, a3, b2, b3, Bool.true_or, Bool.or_false, Bool.false_and] <;> exact ⟨hS, b4⟩
  · obtain ⟨b1, b2, b3, b4⟩ := dual hS
    obtain ⟨c1, c2, c3⟩ := sem b4
    obtain ⟨a1, a2, a3⟩ := sem hT
    unfold semiticSwitch
    cases n <;> simp only [a1, a3, c1, c2, c3, Bool.true_or, Bool.false_and] <;> exact ⟨b4, hT⟩
  · obtain ⟨b1, b2, b3, b4⟩ := dual hS
    obtain ⟨c1, c2, c3⟩ := sem b4
    obtain ⟨d1, d2, d3, d4⟩ := dual hT
    unfold semiticSwitch
    cases n <;> simp only [b1, b2, b3, c3, d1, d2, d3, Bool.or_false, Bool.and_true] <;> exact ⟨b4, d4⟩

theorem switch_keep {c : Cfg} (h : UserOk kp c) (hk : Keeps c.src c.tgt) :
    Keeping true (semiticSwitch c).src (semiticSwitch c).tgt := by
  intro _
  by_cases hs : c.src ∈ semiticScripts ++ dualScripts
  · have := switch_semitic (n := c.nativize) (p := c.pre) (q := c.post) hs (hk.sem hs)
    have hx : (semiticSwitch c).src ∈ semiticScripts := this.1
    have hy : (semiticSwitch c).tgt ∈ semiticScripts := this.2
    exact ⟨semitic_srcKeeps hx, semitic_keeps hy, fun _ => hy, fun h => absurd hx h⟩
  · have hd : c.src ∉ dualScripts := fun e => hs (List.mem_append_right _ e)
    have hn : c.src ∉ semiticScripts := fun e => hs (List.mem_append_left _ e)
    have h1 : dictGet? indicSemiticMapping c.src = none := by
      rw [dictGet?_none]
      intro p hp e
      refine hd ?_
      rw [← map_all.1, ← e]
      exact List.mem_map.2 ⟨p, hp, rfl⟩
    have h2 : mapName indicSemiticMapping c.src = c.src := by unfold mapName; rw [h1]
    have h3 : hasKey indicSemiticMapping c.src = false := by unfold hasKey; rw [h1]
    have h4 : pyIn c.src GM.SemiticScripts = false := by
      rcases List.mem_append.1 h.src with hl | hl
      · exact (letter_facts (List.mem_append_left _ hl)).2
      · exact absurd hl hn
    have h5 := (any_facts (Or.inl h.src)).2.2.2.2.2
    have e : (semiticSwitch c).tgt = c.tgt ∧ (semiticSwitch c).src = c.src := by
      unfold semiticSwitch
      cases hb : pyIn c.tgt GM.SemiticScripts || hasKey GM.semiticISO c.tgt <;> cases hc : c.nativize <;>
        simp only [h2, h4, h5, h3, Bool.or_false, Bool.false_and, and_self]
    rw [e.1, e.2]
    refine ⟨fun hx => ?_, hk.tgt, fun e => absurd e hn, fun _ => hk.dbl hs⟩
    rcases List.mem_append.1 hx with hx | hx
    · exact hk.src hx
    · refine hd (strMem_iff.1 ?_)
      exact List.all_eq_true.1 (show us!["Urdu", "Shahmukhi"].all (fun x => strMem x dualScripts) = true by decide +kernel) _ hx

theorem switch_ok {c : Cfg} (h : UserOk kp c) : OkCfg kp (semiticSwitch c) ∧
    ((u! "indicDandas") ∈ (semiticSwitch c).post → (semiticSwitch c).src ∈ letterSrc) := by
  let Ps : PyStr → Prop := fun x => x ∈ anySrc ∧
    ((u! "indicDandas") ∈ c.post → x ∈ letterSrc ∧ x ∉ dualScripts) ∧ (x = u! "Tamil" → x = c.src)
  let Pt : PyStr → Prop := fun x => x ∈ anyTgt ∧
    ((u! "romanFullStop") ∈ c.post → x ∈ letterTgt ∧ x ∉ dualScripts) ∧ (x = u! "IPA" → x = c.tgt)
  have nt : (u! "Tamil") ∉ semiticScripts := strMem_false.1 (by decide +kernel)
  have ni : (u! "IPA") ∉ semiticScripts := strMem_false.1 (by decide +kernel)
  have s0 : Ps c.src := ⟨h.src, h.dan, fun _ => rfl⟩
  have t0 : Pt c.tgt := ⟨h.tgt, h.stop, fun _ => rfl⟩
  have sM : ∀ x, Ps x → Ps (mapName indicSemiticMapping x) := by
    intro x hx
    rcases mapName_or x with e | ⟨e1, e2⟩
    · rw [e]; exact hx
    · exact ⟨List.mem_append_right _ e2, fun hd => absurd e1 (hx.2.1 hd).2, fun e => absurd (e ▸ e2) nt⟩
  have tM : ∀ x, Pt x → Pt (mapName indicSemiticMapping x) := by
    intro x hx
    rcases mapName_or x with e | ⟨e1, e2⟩
    · rw [e]; exact hx
    · exact ⟨List.mem_append_right _ e2, fun hd => absurd e1 (hx.2.1 hd).2, fun e => absurd (e ▸ e2) ni⟩
  have sel : ∀ {P : PyStr → Prop} (b : Bool) {x y : PyStr}, P x → P y → P (match b with | true => x | false => y) := by
    intro P b x y hx hy
    cases b
    · exact hy
    · exact hx
  have sel' : ∀ {P : PyStr → Prop} (b : Bool) {x y : PyStr}, P x → P y → P (match b with | false => x | true => y) := by
    intro P b x y hx hy
    cases b
    · exact hx
    · exact hy
  have hs : Ps (semiticSwitch c).src := by
    unfold semiticSwitch
    simp only
    have a1 := sel (pyIn c.tgt GM.SemiticScripts || hasKey GM.semiticISO c.tgt) (sM _ s0) s0
    have a2 := sel (P := Ps) (hasKey indicSemiticMapping (match pyIn c.tgt GM.SemiticScripts || hasKey GM.semiticISO c.tgt with
      | true => mapName indicSemiticMapping c.src
      | false => c.src) && hasKey indicSemiticMapping (match pyIn (match pyIn c.tgt GM.SemiticScripts || hasKey GM.semiticISO c.tgt with
      | true => mapName indicSemiticMapping c.src
      | false => c.src) GM.SemiticScripts || hasKey GM.semiticISO (match pyIn c.tgt GM.SemiticScripts || hasKey GM.semiticISO c.tgt with
      | true => mapName indicSemiticMapping c.src
      | false => c.src) with
      | true => mapName indicSemiticMapping c.tgt
      | false => c.tgt)) (sM _ a1) a1
    exact sel' c.nativize (sM _ a2) a2
  have ht : Pt (semiticSwitch c).tgt := by
    unfold semiticSwitch
    simp only
    refine sel _ (tM _ ?_) ?_ <;> exact sel _ (tM _ t0) t0
  exact ⟨⟨hs.1, ht.1, h.pre, h.post, fun e => (ht.2.1 e).1, fun e1 e2 => h.ipa ((hs.2.2 e1) ▸ e1) ((ht.2.2 e2) ▸ e2),
    fun hk => switch_keep h (h.keep hk) rfl⟩,
    fun e => (hs.2.1 e).1⟩

theorem finish_safe {c : Cfg} (h : UserOk kp c) :
    USafe kp (branch (earlyReturn c) (pure ()) (convertTail (semiticSwitch c))) :=
  GSafe.branch (fun _ => USafe.skip) fun _ => tail_safe (switch_ok h).1 (switch_ok h).2

theorem loc_none {c : Cfg} (hs : pyEq c.src (u! "RomanLoC") = false) (ht : pyEq c.tgt (u! "RomanLoC") = false) :
    locTargetOther (locTarget c) = c ∧ locSource c = pure c ∧ locSourceOther c = c := by
  refine ⟨?_, ?_, ?_⟩
  · simp only [locTarget, locTargetOther, ht, Bool.false_and]
  · simp only [locSource, hs, Bool.false_and]
  · simp only [locSourceOther, hs, Bool.false_and]

/-- Names that are no standards. -/
theorem body_safe {c : Cfg} (h : UserOk kp c) (self : Cfg → Gen Unit) : USafe kp (convertBody self c) := by
  obtain ⟨-, -, -, -, s5, s6⟩ := any_facts (Or.inl h.src)
  obtain ⟨-, -, -, -, t5, t6⟩ := any_facts (Or.inr h.tgt)
  obtain ⟨e1, e2, e3⟩ := loc_none s5 t5
  have e4 : isoTarget self c = pure c := by simp only [isoTarget, hasKey_false t6]
  have e5 : isoSource self c = pure c := by simp only [isoSource, hasKey_false s6]
  unfold convertBody
  simp only [e1, e2, e3, e4, e5, pure_bind]
  exact finish_safe h

/-! ## The romanisation standards -/

/-- No option that needs a table of signs. -/
def noTable (post : List PyStr) : Prop := (u! "indicDandas") ∉ post ∧ (u! "romanFullStop") ∉ post

theorem standards_all : GM.semiticISO.all (fun p => strMem p.2 anySrc && strMem p.2 anyTgt && !(strEq p.2 (u! "Tamil"))
    && !(strEq p.2 (u! "IPA")) && !(hasKey GM.semiticISO p.2)
    && strMem p.2 (semiticScripts ++ dualScripts) && !(strMem p.2 lossyTgt) && !(strMem p.2 loseSrc)
    && (!(strMem p.2 semiticScripts) || strMem p.2 doublingSemitic)) = true := by decide +kernel

theorem written_all : standardsWritten.all (fun x => hasKey GM.semiticISO x &&
    strMem (x ++ (u! "Target")) (names preFns) && !(strMem (x ++ (u! "Target")) failingPre) && !(strMem (x ++ (u! "Target")) externalPre) &&
    strMem (x ++ (u! "Target")) (names postFns) && !(strMem (x ++ (u! "Target")) failingPost) && !(strMem (x ++ (u! "Target")) externalPost) &&
    !(strMem (x ++ (u! "Target")) movingPost) &&
    !(strEq (x ++ (u! "Target")) (u! "indicDandas")) && !(strEq (x ++ (u! "Target")) (u! "romanFullStop"))
    && !(pyEq x (u! "RomanLoC"))) = true := by decide +kernel

theorem read_all : standardsRead.all (fun x => hasKey GM.semiticISO x &&
    strMem (x ++ (u! "Source")) (names preFns) && !(strMem (x ++ (u! "Source")) failingPre) && !(strMem (x ++ (u! "Source")) externalPre) &&
    strMem (x ++ (u! "Source")) (names postFns) && !(strMem (x ++ (u! "Source")) failingPost) && !(strMem (x ++ (u! "Source")) externalPost) &&
    !(strMem (x ++ (u! "Source")) movingPost) &&
    !(strEq (x ++ (u! "Source")) (u! "indicDandas")) && !(strEq (x ++ (u! "Source")) (u! "romanFullStop"))
    && !(pyEq x (u! "RomanLoC"))) = true := by decide +kernel

theorem hasKey_some {β : Type} {d : List (PyStr × β)} {x : PyStr} (h : hasKey d x = true) : ∃ y, dictGet? d x = some y := by
  unfold hasKey at h
  split at h
  · exact ⟨_, by assumption⟩
  · cases h

theorem standard_base {x y : PyStr} (h : dictGet? GM.semiticISO x = some y) : y ∈ anySrc ∧ y ∈ anyTgt ∧
    y ≠ u! "Tamil" ∧ y ≠ u! "IPA" ∧ hasKey GM.semiticISO y = false ∧
    y ∈ semiticScripts ++ dualScripts ∧ y ∉ lossyTgt ∧ y ∉ loseSrc ∧ (y ∈ semiticScripts → y ∈ doublingSemitic) := by
  have := List.all_eq_true.1 standards_all _ (dictGet?_some h)
  simp only [Bool.and_eq_true, Bool.or_eq_true, strMem_iff, Bool.not_eq_true', strEq_false, strMem_false] at this
  obtain ⟨⟨⟨⟨⟨⟨⟨⟨a, b⟩, c⟩, d⟩, e⟩, f⟩, g⟩, i⟩, j⟩ := this
  exact ⟨a, b, c, d, e, f, g, i, fun h => j.resolve_left fun h' => h' h⟩

/-- Options that can be called and need no table. -/
structure OkOpts (kp : Bool) (pre post : List PyStr) : Prop where
  hpre : ∀ o ∈ pre, okPre o
  hpost : ∀ o ∈ post, okPost kp o
  tab : noTable post

theorem OkOpts.add {pre post : List PyStr} (h : OkOpts kp pre post) {o : PyStr} (h1 : okPre o) (h2 : okPost kp o)
    (h3 : (u! "indicDandas") ≠ o ∧ (u! "romanFullStop") ≠ o) : OkOpts kp ([o] ++ pre) ([o] ++ post) := by
  refine ⟨fun x hx => ?_, fun x hx => ?_, ?_, ?_⟩
  · rcases List.mem_append.1 hx with hx | hx
    · rw [List.mem_singleton.1 hx]; exact h1
    · exact h.hpre x hx
  · rcases List.mem_append.1 hx with hx | hx
    · rw [List.mem_singleton.1 hx]; exact h2
    · exact h.hpost x hx
  · intro hx
    rcases List.mem_append.1 hx with hx | hx
    · exact h3.1 (List.mem_singleton.1 hx)
    · exact h.tab.1 hx
  · intro hx
    rcases List.mem_append.1 hx with hx | hx
    · exact h3.2 (List.mem_singleton.1 hx)
    · exact h.tab.2 hx

theorem written_ok {x : PyStr} (h : x ∈ standardsWritten) {pre post : List PyStr} (ho : OkOpts kp pre post) :
    (∃ y, dictGet? GM.semiticISO x = some y) ∧ OkOpts kp ([x ++ (u! "Target")] ++ pre) ([x ++ (u! "Target")] ++ post) ∧
    pyEq x (u! "RomanLoC") = false := by
  have := List.all_eq_true.1 written_all x h
  simp only [Bool.and_eq_true, strMem_iff, Bool.not_eq_true', strEq_false, strMem_false] at this
  obtain ⟨⟨⟨⟨⟨⟨⟨⟨⟨⟨a, b⟩, c⟩, d⟩, e⟩, f⟩, g⟩, m⟩, i⟩, j⟩, l⟩ := this
  exact ⟨hasKey_some a, ho.add ⟨b, c, d⟩ ⟨e, f, g, fun _ => m⟩ ⟨Ne.symm i, Ne.symm j⟩, l⟩

theorem read_ok {x : PyStr} (h : x ∈ standardsRead) {pre post : List PyStr} (ho : OkOpts kp pre post) :
    (∃ y, dictGet? GM.semiticISO x = some y) ∧ OkOpts kp ([x ++ (u! "Source")] ++ pre) ([x ++ (u! "Source")] ++ post) ∧
    pyEq x (u! "RomanLoC") = false := by
  have := List.all_eq_true.1 read_all x h
  simp only [Bool.and_eq_true, strMem_iff, Bool.not_eq_true', strEq_false, strMem_false] at this
  obtain ⟨⟨⟨⟨⟨⟨⟨⟨⟨⟨a, b⟩, c⟩, d⟩, e⟩, f⟩, g⟩, m⟩, i⟩, j⟩, l⟩ := this
  exact ⟨hasKey_some a, ho.add ⟨b, c, d⟩ ⟨e, f, g, fun _ => m⟩ ⟨Ne.symm i, Ne.symm j⟩, l⟩

theorem OkOpts.user {c : Cfg} (h : OkOpts kp c.pre c.post) (hS : c.src ∈ anySrc) (hT : c.tgt ∈ anyTgt)
    (hi : c.src = u! "Tamil" → c.tgt ≠ u! "IPA") (hk : kp = true → Keeps c.src c.tgt) : UserOk kp c :=
  ⟨hS, hT, h.hpre, h.hpost, fun hx => absurd hx h.tab.1, fun hx => absurd hx h.tab.2, hi, hk⟩

theorem latn_keeps : (u! "Latn") ∉ loseSrc ∧ (u! "Latn") ∉ lossyTgt :=
  ⟨strMem_false.1 (by decide +kernel), strMem_false.1 (by decide +kernel)⟩
theorem latn_doubling : (u! "Latn") ∈ doublingSemitic := strMem_iff.1 (by decide +kernel)
theorem latn_src : (u! "Latn") ∈ anySrc := List.mem_append_right _ latn_semitic
theorem latn_tgt : (u! "Latn") ∈ anyTgt := List.mem_append_right _ latn_semitic

/-- From a standard to the script it romanises. -/
theorem read_base {S T : PyStr} {nat : Bool} {pre post : List PyStr} (hS : S ∈ standardsRead)
    (hT : dictGet? GM.semiticISO S = some T) (ho : OkOpts kp pre post) (self : Cfg → Gen Unit) :
    USafe kp (convertBody self ⟨S, T, nat, pre, post⟩) := by
  obtain ⟨-, ho', hl⟩ := read_ok hS ho
  obtain ⟨-, b2, b3, b4, b5, b6, b7, b8, b9⟩ := standard_base hT
  obtain ⟨-, -, -, -, t5, t6⟩ := any_facts (Or.inr b2)
  obtain ⟨e1, e2, e3⟩ := loc_none (c := ⟨S, T, nat, pre, post⟩) hl t5
  have e4 : isoTarget self ⟨S, T, nat, pre, post⟩ = pure ⟨S, T, nat, pre, post⟩ := by
    simp only [isoTarget, hasKey_false b5]
  have hTT : pyEq T T = true := strEq_iff.2 rfl
  unfold convertBody
  simp only [e1, e2, e3, e4, pure_bind]
  simp only [isoSource, hT, hTT, branch_true, pure_bind]
  exact finish_safe (ho'.user (c := ⟨u! "Latn", T, nat, _, _⟩) latn_src b2
    (fun e => absurd e (by show (u! "Latn") ≠ (u! "Tamil"); decide)) fun _ => ⟨latn_keeps.1, b7, fun _ => b6,
      fun e => absurd (List.mem_append_left _ latn_semitic) e⟩)

/-- From a standard to any script. -/
theorem read_safe {S T : PyStr} {nat : Bool} {pre post : List PyStr} (hS : S ∈ standardsRead) (hT : T ∈ anyTgt)
    (ho : OkOpts kp pre post) (hk : kp = true → T ∉ lossyTgt ∧ T ∈ semiticScripts ++ dualScripts)
    (n : Nat) : USafe kp (convertN (n + 2) ⟨S, T, nat, pre, post⟩) := by
  obtain ⟨⟨B, hB⟩, -, hl⟩ := read_ok hS ho
  cases hBT : pyEq B T with
  | true =>
    rw [pyEq_eq, strEq_iff] at hBT
    subst hBT
    exact read_base hS hB ho _
  | false =>
    obtain ⟨b1, b2, b3, b4, b5, b6, b7, b8, b9⟩ := standard_base hB
    obtain ⟨-, -, -, -, t5, t6⟩ := any_facts (Or.inr hT)
    obtain ⟨e1, e2, e3⟩ := loc_none (c := ⟨S, T, nat, pre, post⟩) hl t5
    have e4 : isoTarget (convertN (n + 1)) ⟨S, T, nat, pre, post⟩ = pure ⟨S, T, nat, pre, post⟩ := by
      simp only [isoTarget, hasKey_false t6]
    show USafe kp (convertBody (convertN (n + 1)) _)
    unfold convertBody
    simp only [e1, e2, e3, e4, pure_bind]
    simp only [isoSource, hB, hBT, branch_false, bind_assoc, pure_bind]
    refine GSafe.bind (read_base hS hB ho _) fun _ _ => ?_
    exact finish_safe (c := ⟨B, T, nat, pre, post⟩) (ho.user (c := ⟨B, T, nat, pre, post⟩) b1 hT (fun e => absurd e b3)
      fun e => ⟨b8, (hk e).1, fun _ => (hk e).2, fun e' => absurd b6 e'⟩)

/-- To a standard. -/
theorem write_safe {S T : PyStr} {nat : Bool} {pre post : List PyStr} (hS : S ∈ anySrc ∨ S ∈ standardsRead)
    (hT : T ∈ standardsWritten) (ho : OkOpts kp pre post)
    (hk : kp = true → S ∉ loseSrc) : USafe kp (convertN 3 ⟨S, T, nat, pre, post⟩) := by
  obtain ⟨⟨B, hB⟩, ho', hl⟩ := written_ok hT ho
  obtain ⟨b1, b2, b3, b4, b5, b6, b7, b8, b9⟩ := standard_base hB
  have hSl : pyEq S (u! "RomanLoC") = false := by
    rcases hS with hS | hS
    · exact (any_facts (Or.inl hS)).2.2.2.2.1
    · exact (read_ok hS ho).2.2
  obtain ⟨e1, e2, e3⟩ := loc_none (c := ⟨S, T, nat, pre, post⟩) hSl hl
  have fin : ∀ S' ∈ anySrc, S' ∉ loseSrc → USafe kp (branch (earlyReturn ⟨S', u! "Latn", false, [T ++ (u! "Target")] ++ pre, [T ++ (u! "Target")] ++ post⟩)
      (pure ()) (convertTail (semiticSwitch ⟨S', u! "Latn", false, [T ++ (u! "Target")] ++ pre, [T ++ (u! "Target")] ++ post⟩))) :=
    fun S' hS' hs' => finish_safe (ho'.user (c := ⟨S', u! "Latn", false, _, _⟩) hS' latn_tgt
      (fun _ => by show (u! "Latn") ≠ (u! "IPA"); decide) fun _ => ⟨hs', latn_keeps.2, fun _ =>
        List.mem_append_left _ latn_semitic, fun _ _ => latn_doubling⟩)
  have hInner : USafe kp (convertN 2 ⟨S, B, nat, pre, post⟩) := by
    rcases hS with hS | hS
    · exact body_safe (ho.user (c := ⟨S, B, nat, pre, post⟩) hS b2 (fun _ => b4) fun e =>
        ⟨hk e, b7, fun _ => b6, fun _ => b9⟩) _
    · exact read_safe hS b2 ho (fun _ => ⟨b7, b6⟩) 0
  show USafe kp (convertBody (convertN 2) _)
  unfold convertBody
  simp only [e1, e2, e3, pure_bind]
  simp only [isoTarget, hB]
  cases hBS : pyEq B S with
  | true =>
    rw [pyEq_eq, strEq_iff] at hBS
    subst hBS
    simp only [Bool.not_true, branch_false, pure_bind, isoSource, hasKey_false b5]
    exact fin _ b1 b8
  | false =>
    simp only [Bool.not_false, branch_true, bind_assoc, pure_bind, isoSource, hasKey_false b5]
    exact GSafe.bind hInner fun _ _ => fin _ b1 b8

theorem standard_not_any {x : PyStr} (hx : x ∈ standardsWritten) : x ∉ anyTgt := by
  intro h
  have := (any_facts (Or.inr h)).2.2.2.2.2
  obtain ⟨y, hy⟩ := (hasKey_some (List.all_eq_true.1 (show standardsWritten.all (fun x => hasKey GM.semiticISO x) = true by
    decide +kernel) x hx))
  rw [hasKey_false this] at hy
  cases hy

/-- **The conversion raises nothing.** -/
theorem convert_usafe {S T : PyStr} {nat : Bool} {pre post : List PyStr} (hS : S ∈ anySrc ∨ S ∈ standardsRead)
    (hT : T ∈ anyTgt ∨ T ∈ standardsWritten) (hpre : ∀ o ∈ pre, okPre o) (hpost : ∀ o ∈ post, okPost kp o)
    (hd : (u! "indicDandas") ∈ post → S ∈ letterSrc ∧ S ∉ dualScripts ∧ T ∈ anyTgt)
    (hs : (u! "romanFullStop") ∈ post → T ∈ letterTgt ∧ T ∉ dualScripts ∧ S ∈ anySrc)
    (hi : S = u! "Tamil" → T ≠ u! "IPA")
    (kS : kp = true → S ∉ loseSrc) (kT : kp = true → T ∈ anyTgt → T ∉ lossyTgt)
    (kP : kp = true → T ∈ anyTgt → S ∈ semiticScripts ++ dualScripts ++ standardsRead → T ∈ semiticScripts ++ dualScripts)
    (kD : kp = true → S ∉ semiticScripts ++ dualScripts → T ∈ semiticScripts → T ∈ doublingSemitic) : USafe kp (convert S T nat pre post) := by
  have nS : ∀ {x : PyStr}, x ∈ standardsRead → x ∉ anySrc := by
    intro x hx h
    have := (any_facts (Or.inl h)).2.2.2.2.2
    obtain ⟨y, hy⟩ := (hasKey_some (List.all_eq_true.1 (show standardsRead.all (fun x => hasKey GM.semiticISO x) = true by
      decide +kernel) x hx))
    rw [hasKey_false this] at hy
    cases hy
  have nT : ∀ {x : PyStr}, x ∈ standardsWritten → x ∉ anyTgt := standard_not_any
  show USafe kp (convertN 3 _)
  rcases hT with hT | hT
  · rcases hS with hS | hS
    · exact body_safe ⟨hS, hT, hpre, hpost, fun h => ⟨(hd h).1, (hd h).2.1⟩, fun h => ⟨(hs h).1, (hs h).2.1⟩, hi,
        fun e => ⟨kS e, kT e hT, fun h => kP e hT (List.mem_append_left _ h), kD e⟩⟩ _
    · refine read_safe hS hT ⟨hpre, hpost, fun h => ?_, fun h => ?_⟩ (fun e => ⟨kT e hT, kP e hT (List.mem_append_right _ hS)⟩) 1
      · exact nS hS (List.mem_append_left _ (hd h).1)
      · exact nS hS (hs h).2.2
  · refine write_safe hS hT ⟨hpre, hpost, fun h => ?_, fun h => ?_⟩ kS
    · exact nT hT (hd h).2.2
    · exact nT hT (List.mem_append_left _ (hs h).1)

/-- See `convert_usafe`. -/
theorem convert_safe {S T : PyStr} {nat : Bool} {pre post : List PyStr} (hS : S ∈ anySrc ∨ S ∈ standardsRead)
    (hT : T ∈ anyTgt ∨ T ∈ standardsWritten) (hpre : ∀ o ∈ pre, okPre o) (hpost : ∀ o ∈ post, okPost kp o)
    (hd : (u! "indicDandas") ∈ post → S ∈ letterSrc ∧ S ∉ dualScripts ∧ T ∈ anyTgt)
    (hs : (u! "romanFullStop") ∈ post → T ∈ letterTgt ∧ T ∉ dualScripts ∧ S ∈ anySrc)
    (hi : S = u! "Tamil" → T ≠ u! "IPA")
    (kS : kp = true → S ∉ loseSrc) (kT : kp = true → T ∈ anyTgt → T ∉ lossyTgt)
    (kP : kp = true → T ∈ anyTgt → S ∈ semiticScripts ++ dualScripts ++ standardsRead → T ∈ semiticScripts ++ dualScripts)
    (kD : kp = true → S ∉ semiticScripts ++ dualScripts → T ∈ semiticScripts → T ∈ doublingSemitic) : (optAna kp).ok (convert S T nat pre post).prog = true :=
  USafe.prog (convert_usafe hS hT hpre hpost hd hs hi kS kT kP kD)

end Verif
