import Verif.Lib.Pieces

/-!
# Conversions between plain scripts, in pieces
-/

namespace Verif

/-! ## Table look-ups -/

/-- All letters of the sections, in the table of the script. -/
def lettersOf (S : PyStr) (secs : List Sec) : List PyStr :=
  match tblOf S with
  | some t => t.crunch secs
  | none => []

/-- The script has a table. -/
def hasTbl (S : PyStr) : Bool :=
  match tblOf S with
  | some _ => true
  | none => false

theorem crunchSymbols_eq {S : PyStr} (h : hasTbl S = true) (secs : List Sec) :
    crunchSymbols secs S = pure (lettersOf S secs) := by
  unfold hasTbl at h
  unfold crunchSymbols lettersOf
  cases ht : tblOf S with
  | none => rw [ht] at h; cases h
  | some t => rfl

theorem Tbl.mem_crunch {t : Tbl} {secs : List Sec} {x : PyStr} :
    x ∈ t.crunch secs ↔ ∃ s ∈ secs, x ∈ t.get s := by
  induction secs with
  | nil => simp [Tbl.crunch]
  | cons s l ih => simp [Tbl.crunch, ih]

theorem mem_lettersOf {S : PyStr} {secs : List Sec} {x : PyStr} :
    x ∈ lettersOf S secs ↔ ∃ s ∈ secs, x ∈ modAttr S s := by
  unfold lettersOf modAttr
  cases tblOf S with
  | none => simp
  | some t => exact Tbl.mem_crunch

/-- The first letter of a section (empty if there is none). -/
def headSec (s : Sec) (S : PyStr) : PyStr :=
  match modAttr S s with
  | x :: _ => x
  | [] => []

/-- The section has a first letter. -/
def hasHead (s : Sec) (S : PyStr) : Bool :=
  match modAttr S s with
  | _ :: _ => true
  | [] => false

theorem crunchList_eq (s : Sec) (S : PyStr) : crunchList s S = pure (modAttr S s) := by
  unfold crunchList modAttr
  cases tblOf S <;> rfl

theorem index_head {s : Sec} {S : PyStr} (h : hasHead s S = true) :
    index (modAttr S s) 0 = pure (headSec s S) := by
  unfold hasHead at h
  unfold headSec
  cases hm : modAttr S s with
  | nil => rw [hm] at h; cases h
  | cons x l => rfl

/-! ## Pairs of letters -/

theorem pmap_pure {α β : Type} (l : List α) (f : α → β) :
    pmap l (fun a => (pure (f a) : Gen β)) = pure (l.map f) := by
  induction l with
  | nil => rfl
  | cons a l ih =>
    funext k
    show pmap l (fun a => (pure (f a) : Gen β)) (fun bs => k (f a :: bs)) = k (f a :: l.map f)
    rw [ih]
    rfl

/-- The pairs of `charPairs`. -/
def pairsOf (src tgt : PyStr → List PyStr → List PyStr) (S T : PyStr) : List (PyStr × PyStr) :=
  sortPairsByLenDesc (scriptAllGroups.map fun g =>
    sortPairsDesc (pyZip (src g.1 (lettersOf S g.2)) (tgt g.1 (lettersOf T g.2)))).flatten

theorem charPairs_eq {S T : PyStr} (hS : hasTbl S = true) (hT : hasTbl T = true)
    (src tgt : PyStr → List PyStr → List PyStr) :
    charPairs src tgt S T = pure (pairsOf src tgt S T) := by
  have e : (fun (g : PyStr × List Sec) => (do
      let s ← crunchSymbols g.2 S
      let t ← crunchSymbols g.2 T
      pure (sortPairsDesc (pyZip (src g.1 s) (tgt g.1 t))) : Gen _)) = fun g =>
      pure (sortPairsDesc (pyZip (src g.1 (lettersOf S g.2)) (tgt g.1 (lettersOf T g.2)))) := by
    funext g
    rw [crunchSymbols_eq hS, crunchSymbols_eq hT]
    rfl
  unfold charPairs
  simp only [e]
  rw [pmap_pure]
  rfl

theorem mem_pairsOf {src tgt : PyStr → List PyStr → List PyStr} {S T : PyStr} {p : PyStr × PyStr}
    (h : p ∈ pairsOf src tgt S T) :
    ∃ g ∈ scriptAllGroups, p.1 ∈ src g.1 (lettersOf S g.2) ∧ p.2 ∈ tgt g.1 (lettersOf T g.2) := by
  have h1 := (sortByKeyDesc_perm _ _).mem_iff.1 h
  obtain ⟨l, hl, hp⟩ := List.mem_flatten.1 h1
  obtain ⟨g, hg, rfl⟩ := List.mem_map.1 hl
  have h2 := (stableSort_perm _ _).mem_iff.1 hp
  obtain ⟨a, b⟩ := p
  have := List.of_mem_zip h2
  exact ⟨g, hg, this.1, this.2⟩

/-- Every letter of the script passes the test. -/
def allLetters (f : PyStr → Bool) (S : PyStr) : Bool :=
  scriptAllGroups.all fun g => (lettersOf S g.2).all f

theorem allLetters_mem {f : PyStr → Bool} {S : PyStr} (h : allLetters f S = true)
    {g : PyStr × List Sec} (hg : g ∈ scriptAllGroups) {x : PyStr} (hx : x ∈ lettersOf S g.2) :
    f x = true := by
  unfold allLetters at h
  rw [List.all_eq_true] at h
  have := h g hg
  rw [List.all_eq_true] at this
  exact this x hx

theorem allLetters_inter {f : PyStr → Bool} {S : PyStr} (h : allLetters f S = true)
    {x : PyStr} (hx : x ∈ lettersOf S interSecs) : f x = true := by
  obtain ⟨s, hs, hx⟩ := mem_lettersOf.1 hx
  have : ∀ s ∈ interSecs, ∃ g ∈ scriptAllGroups, s ∈ g.2 := by decide
  obtain ⟨g, hg, hs⟩ := this s hs
  exact allLetters_mem h hg (mem_lettersOf.2 ⟨s, hs, hx⟩)

/-! ## Pieces -/

/-- Indic source: everything before the letters are replaced. -/
def prefixII (S : PyStr) : Gen Unit := do
  PreProcess.RemoveJoiners
  ConvertFix.ShiftDiacritics S true
  tryFixReverse S

/-- After `convertScript`. -/
def finishT (T : PyStr) (nat : Bool) : Gen Unit := do
  branch nat (nativization T T []) (pure ())
  PreProcess.retainLatin true
  PostProcess.defaultPost T T nat [] []

/-- Indic target: the end of `convertScript`, after the letters have been replaced. -/
def endII (T : PyStr) : Gen Unit := do
  fixIndicOutput T
  PostProcess.default

/-- Roman source, Indic target: before the letters are replaced. -/
def preLI (S : PyStr) : Gen Unit := do
  tryFixReverse S
  branch (pyIn S us!["IAST", "ISO", "ISOPali", "Titus"]) (replace (u! "ŭ") (u! "u×")) (pure ())
  replace (u! "{}") (u! "‌")
  replace (u! "()") (u! "‍")
  ConvertFix.VedicSvarasLatinIndic S

/-- Between the two letter replacements of Roman to Indic. -/
def midInter : Gen Unit := do
  PreProcess.RomanPreFix GM.Inter
  replace (u! "ṿ×_") (u! "ṿ")
  replace (u! "ṿ×_") (u! "ṿ")

/-- Roman source, Indic target: after the letters have been replaced. -/
def postLI (Target : PyStr) : Gen Unit := do
  let tv ← crunchSymbols GM.Vowels Target
  let i ← index tv 2
  replace ((u! "_") ++ i) i
  let u ← index tv 4
  replace ((u! "_") ++ u) u
  let v ← crunchList .ViramaMap Target
  let vir ← index v 0
  replace (vir ++ (u! "[]")) ((u! "‍") ++ vir)
  replace (u! "×") vir

/-- Roman target: the end of `convertScript`. -/
def endLL (S T : PyStr) : Gen Unit := do
  ConvertFix.PostFixRomanOutput S T
  PostProcess.default

/-- Indic source, Roman target: the part after the letters and before `endLL`. -/
def headIL (T : PyStr) : Gen Unit := do
  ConvertFix.FixRomanOutput T
  ConvertFix.VedicSvarsIndicLatin

/-! ## What depends on what -/

/-- Sources with their own rules for some Roman target. -/
def ownRules : List PyStr := us!["Tamil", "Oriya", "Bengali", "Sinhala"]

/-- Sources treated alike by the rules for the target. -/
def srcClass (S T : PyStr) : PyStr :=
  match pyIn T us!["RomanReadable", "RomanColloquial", "IPA"] with
  | false => u! "Devanagari"
  | true => match pyIn S ownRules with
    | true => S
    | false => u! "Devanagari"

theorem postFix_class {T : PyStr} (hM : pyEq T (u! "Malayalam") = false) (S : PyStr) :
    ConvertFix.PostFixRomanOutput S T = ConvertFix.PostFixRomanOutput (srcClass S T) T := by
  unfold srcClass
  cases h : pyIn T us!["RomanReadable", "RomanColloquial", "IPA"] with
  | false =>
    simp only [pyIn_eq, strMem_false, List.mem_cons, List.not_mem_nil, or_false, not_or] at h
    have h1 : pyEq T (u! "RomanReadable") = false := strEq_false.2 h.1
    have h2 : pyEq T (u! "RomanColloquial") = false := strEq_false.2 h.2.1
    have h3 : pyEq T (u! "IPA") = false := strEq_false.2 h.2.2
    unfold ConvertFix.PostFixRomanOutput
    simp only [h1, h2, h3, hM, Bool.and_false, branch_false]
  | true =>
    cases hS : pyIn S ownRules with
    | true => rfl
    | false =>
      simp only [pyIn_eq, strMem_false, ownRules, List.mem_cons, List.not_mem_nil, or_false, not_or] at hS
      have h1 : pyEq S (u! "Tamil") = false := strEq_false.2 hS.1
      have h2 : pyEq S (u! "Oriya") = false := strEq_false.2 hS.2.1
      have h3 : pyEq S (u! "Bengali") = false := strEq_false.2 hS.2.2.1
      have h4 : pyEq S (u! "Sinhala") = false := strEq_false.2 hS.2.2.2
      have d1 : pyEq (u! "Devanagari") (u! "Tamil") = false := by decide
      have d2 : pyEq (u! "Devanagari") (u! "Oriya") = false := by decide
      have d3 : pyEq (u! "Devanagari") (u! "Bengali") = false := by decide
      have d4 : pyEq (u! "Devanagari") (u! "Sinhala") = false := by decide
      unfold ConvertFix.PostFixRomanOutput
      simp only [h1, h2, h3, h4, hM, d1, d2, d3, d4, Bool.and_false]

theorem srcClass_mem (S T : PyStr) :
    srcClass S T = (u! "Devanagari") ∨
      (pyIn T us!["RomanReadable", "RomanColloquial", "IPA"] = true ∧ srcClass S T ∈ ownRules) := by
  unfold srcClass
  cases h : pyIn T us!["RomanReadable", "RomanColloquial", "IPA"] with
  | false => exact Or.inl rfl
  | true =>
    cases hS : pyIn S ownRules with
    | false => exact Or.inl rfl
    | true => exact Or.inr ⟨rfl, strMem_iff.1 hS⟩

theorem nativization_src {S T : PyStr} (hT : pyEq T (u! "Latn") = false) (p : List PyStr) :
    nativization S T p = nativization T T p := by
  unfold nativization applyScriptDefaults
  simp only [hT, branch_false]

theorem defaultPost_src (S S' T : PyStr) (nat : Bool) (a b : List PyStr) :
    PostProcess.defaultPost S T nat a b = PostProcess.defaultPost S' T nat a b := rfl

/-- The first sign (avagraha) of the target is `'` (second component), or there is none. -/
def avagrahaKind (T : PyStr) : Option Bool :=
  match modAttr T .SignMap with
  | x :: _ => some (pyEq x (u! "'"))
  | [] => none

/-- `PreProcess` looks at the target only through these five questions. -/
def sameForPre (T T' : PyStr) : Bool :=
  (pyEq T (u! "Tamil") == pyEq T' (u! "Tamil")) &&
  (pyIn (u! "Syr") T == pyIn (u! "Syr") T') &&
  (pyIn T GM.IndicScripts == pyIn T' GM.IndicScripts) &&
  (pyIn T GM.LatinScripts == pyIn T' GM.LatinScripts) &&
  (pyIn T GM.Transliteration == pyIn T' GM.Transliteration) &&
  (!(pyIn T GM.Transliteration) || (avagrahaKind T == avagrahaKind T'))

theorem preProcess_tgt {T T' : PyStr} (h : sameForPre T T' = true) (S : PyStr) :
    PreProcess.PreProcess S T [] [] = PreProcess.PreProcess S T' [] [] := by
  simp only [sameForPre, Bool.and_eq_true, Bool.or_eq_true, Bool.not_eq_true', beq_iff_eq] at h
  obtain ⟨⟨⟨⟨⟨h1, h2⟩, h3⟩, h4⟩, h5⟩, h6⟩ := h
  unfold PreProcess.PreProcess
  rcases h6 with h6 | h6
  · simp only [h1, h2, h3, h4, h5 ▸ h6, h6, Bool.and_false, branch_false]
  simp only [h1, h2, h3, h4, h5, crunchList_eq, pure_bind]
  have : ∀ (a : PyStr), (do
      let t5 ← index (modAttr T .SignMap) 0
      branch (pyEq t5 (u! "'")) (do replace ((u! "॑") ++ a) (((u! "॑") ++ (u! "​")) ++ a); pure ()) (do pure ())
      pure () : Gen Unit) = (do
      let t5 ← index (modAttr T' .SignMap) 0
      branch (pyEq t5 (u! "'")) (do replace ((u! "॑") ++ a) (((u! "॑") ++ (u! "​")) ++ a); pure ()) (do pure ())
      pure () : Gen Unit) := by
    intro a
    unfold avagrahaKind at h6
    cases ha : modAttr T .SignMap with
    | nil =>
      cases hb : modAttr T' .SignMap with
      | nil => rfl
      | cons y l' => rw [ha, hb] at h6; simp at h6
    | cons x l =>
      cases hb : modAttr T' .SignMap with
      | nil => rw [ha, hb] at h6; simp at h6
      | cons y l' =>
        rw [ha, hb] at h6
        simp only [Option.some.injEq] at h6
        show (do branch (pyEq x (u! "'")) _ _; pure () : Gen Unit) = (do branch (pyEq y (u! "'")) _ _; pure ())
        rw [h6]
  simp only [this]

end Verif
