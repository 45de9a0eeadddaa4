import Verif.Props.Codes
import Verif.Lib.Absent
import Verif.Spec.TextOps

/-!
# C38: the language codes of the script data
-/

namespace Verif

/-- A string without its leading blanks. -/
def unblank : PyStr → PyStr
  | 32 :: s => unblank s
  | s => s

/-- The language codes listed for a script, as a reader of the data file takes them: "bn, ben" lists
`bn` and `ben`. -/
def Lists (s : Yaml.Script) (code : PyStr) : Prop :=
  ∃ l, s.lang = some l ∧ ∃ x ∈ pySplit l (u! ","), unblank x = code

/-- The first code of the list. -/
def ListsFirst (s : Yaml.Script) (code : PyStr) : Prop :=
  ∃ l, s.lang = some l ∧ (pySplit l (u! ",")).head? = some code

/-! ## Lower-casing ASCII names -/

def Asc (s : PyStr) : Prop := AllC (fun c => c < 128) s

def isAsc (s : PyStr) : Bool := s.all fun c => Nat.blt c 128

theorem asc_of {s : PyStr} (h : isAsc s = true) : Asc s := fun c hc => by
  have := List.all_eq_true.1 h c hc
  rwa [Nat.blt_eq] at this

theorem asc_split {s sep : PyStr} (h : Asc s) : ∀ x ∈ pySplit s sep, Asc x :=
  splitGo_all (acc := []) (fun _ h => (List.not_mem_nil h).elim) h

def ascData : Bool := Yaml.scripts.all fun s => isAsc s.tag && (match s.lang with | some l => isAsc l | none => true)

theorem ascData_ok : ascData = true := by decide +kernel

theorem asc_tagLang {t : PyStr} (h : Asc t) : Asc (tagLang t) := by
  unfold tagLang
  split
  · rename_i x _ e
    exact asc_split h _ (by rw [e]; exact List.mem_cons_self)
  · exact fun _ h => (List.not_mem_nil h).elim

theorem asc_tagScript {t : PyStr} (h : Asc t) : Asc (tagScript t) := by
  unfold tagScript
  split
  · rename_i y x _ e
    exact asc_split h _ (by rw [e]; exact List.mem_cons_of_mem _ List.mem_cons_self)
  · exact fun _ h => (List.not_mem_nil h).elim

theorem langsOf_asc {E : Env} (hE : E.TextOps) {s : Yaml.Script} (h : ∀ l, s.lang = some l → Asc l) :
    langsOf E s = langsOf sampleEnv s := by
  unfold langsOf
  cases hl : s.lang with
  | none => rfl
  | some l =>
    have := asc_split (sep := u! ",") (h l hl)
    simp only [Option.map_some]
    congr 1
    exact List.map_congr_left fun x hx => hE.lower_ascii x (this x hx)

theorem langTagMatches_asc {E : Env} (hE : E.TextOps) {t : PyStr} (ht : Asc t) (L : List Yaml.Script)
    (hL : ∀ s ∈ L, Asc s.tag ∧ ∀ l, s.lang = some l → Asc l) : langTagMatches E t L = langTagMatches sampleEnv t L := by
  induction L with
  | nil => rfl
  | cons s L ih =>
    have h := hL s List.mem_cons_self
    simp only [langTagMatches, langsOf_asc hE h.2, ih fun x hx => hL x (List.mem_cons_of_mem _ hx),
      hE.lower_ascii t ht, hE.lower_ascii _ h.1, hE.lower_ascii _ (asc_tagScript ht), hE.lower_ascii _ (asc_tagLang ht)]
    rfl

theorem lastWithTag_asc {E : Env} (hE : E.TextOps) {t : PyStr} (ht : Asc t) (L : List Yaml.Script)
    (hL : ∀ s ∈ L, Asc s.tag) : lastWithTag E t L = lastWithTag sampleEnv t L := by
  induction L with
  | nil => rfl
  | cons s L ih =>
    simp only [lastWithTag, ih fun x hx => hL x (List.mem_cons_of_mem _ hx), hE.lower_ascii t ht,
      hE.lower_ascii _ (hL s List.mem_cons_self)]
    rfl

/-- Code resolution depends on lower-casing of ASCII strings only. -/
theorem langTagPick_asc {E : Env} (hE : E.TextOps) {t : PyStr} (ht : Asc t) : langTagPick E t = langTagPick sampleEnv t := by
  have hd : ∀ s ∈ Yaml.scripts, Asc s.tag ∧ ∀ l, s.lang = some l → Asc l := by
    intro s hs
    have := List.all_eq_true.1 ascData_ok s hs
    rw [Bool.and_eq_true] at this
    refine ⟨asc_of this.1, fun l hl => ?_⟩
    rw [hl] at this
    exact asc_of this.2
  have e : langTagCandidates E t = langTagCandidates sampleEnv t := by
    simp only [langTagCandidates, lowerIn, langTagMatches_asc hE ht _ hd,
      lastWithTag_asc hE (asc_tagScript ht) _ fun s hs => (hd s hs).1, hE.lower_ascii t ht,
      hE.lower_ascii _ (asc_tagLang ht)]
    rfl
  unfold langTagPick
  rw [e]

/-! ## The codes -/

def firstOk : Bool := Yaml.scripts.all fun s =>
  match s.lang with
  | none => true
  | some l =>
    match pySplit l (u! ",") with
    | [] => true
    | c :: _ => match langTagPick sampleEnv c with | .ok _ => true | .error _ => false

theorem firstOk_all : firstOk = true := by decide +kernel

/-- **C38 fails**: `ben` is listed for Bengali ("bn, ben"), and no text can be converted from or to it. -/
theorem C38_violated : ∃ s ∈ Yaml.scripts, Lists s (u! "ben") ∧
    ∀ (E : Env), E.TextOps → ∀ (src text : PyStr) (nativize : Bool) (post pre : List PyStr), src ≠ u! "autodetect" →
      (∃ x, process E (u! "ben") src text nativize post pre (u! "lang_code") = .error x) ∧
      (∃ x, process E src (u! "ben") text nativize post pre (u! "lang_code") = .error x) := by
  refine ⟨⟨u! "Bengali", u! "Beng", some (u! "bn, ben")⟩, by simp [Yaml.scripts], ⟨_, rfl, u! " ben", by decide +kernel, by decide +kernel⟩, ?_⟩
  intro E hE src text nat post pre hauto
  have hp : langTagPick E (u! "ben") = .error .exception := by
    rw [langTagPick_asc hE (asc_of (by decide))]
    decide +kernel
  have ha : strEq (u! "ben") (u! "autodetect") = false := by decide
  constructor
  · exact ⟨.exception, by
      show (processLangTag E _ _ text nat post pre).map some = _
      simp only [processLangTag, ha, hp, Except.map]⟩
  · show ∃ x, (processLangTag E _ _ text nat post pre).map some = _
    simp only [processLangTag, strEq_false.2 hauto, hp]
    cases langTagPick E src with
    | error x => exact ⟨x, rfl⟩
    | ok y => exact ⟨.exception, rfl⟩

/-- C38 for the first code of each entry: it names a script (and then C06 applies).  Missing: the
other codes, for which the claim fails. -/
theorem C38_first_codes_partial (E : Env) (hE : E.TextOps) (s : Yaml.Script) (hs : s ∈ Yaml.scripts) (code : PyStr)
    (hc : ListsFirst s code) : ∃ n, LangNames E code n := by
  obtain ⟨l, hl, hh⟩ := hc
  have hd := List.all_eq_true.1 ascData_ok s hs
  rw [Bool.and_eq_true, hl] at hd
  have hk := List.all_eq_true.1 firstOk_all s hs
  simp only [hl] at hk
  cases hx : pySplit l (u! ",") with
  | nil => rw [hx] at hh; cases hh
  | cons c r =>
    rw [hx] at hh hk
    cases hh
    have ha : Asc code := asc_split (asc_of hd.2) _ (by rw [hx]; exact List.mem_cons_self)
    have hk : (match langTagPick sampleEnv code with | .ok _ => true | .error _ => false) = true := hk
    rw [← langTagPick_asc hE ha] at hk
    rcases langTagPick_names E code with ⟨n, _, h⟩ | ⟨h, _⟩
    · exact ⟨n, (h n).2 rfl⟩
    · rw [h] at hk; cases hk

/-- The same for two codes and a text. -/
theorem C38_first_codes_convert_partial (E : Env) (hE : E.TextOps) (s t : Yaml.Script) (hs : s ∈ Yaml.scripts)
    (ht : t ∈ Yaml.scripts) (a b : PyStr) (ha : ListsFirst s a) (hb : ListsFirst t b) (hauto : a ≠ u! "autodetect") :
    ∃ S T, ∀ (text : PyStr) (nativize : Bool) (post pre : List PyStr),
      process E a b text nativize post pre (u! "lang_code") = process E S T text nativize post pre (u! "default") := by
  obtain ⟨S, hS⟩ := C38_first_codes_partial E hE s hs a ha
  obtain ⟨T, hT⟩ := C38_first_codes_partial E hE t ht b hb
  exact ⟨S, T, fun text nat post pre => C06_known_codes_resolve E a b S T text nat post pre hauto hS hT⟩

example : ∃ s ∈ Yaml.scripts, ListsFirst s (u! "bn") :=
  ⟨⟨u! "Bengali", u! "Beng", some (u! "bn, ben")⟩, by simp [Yaml.scripts], _, rfl, by decide +kernel⟩

end Verif
