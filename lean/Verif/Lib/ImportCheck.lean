import Verif.Lib.Basic
import Verif.Model.Import

/-!
# The extended tables are what importing the modules computes
-/

namespace Verif

/-- Equality of lists of strings. -/
def strsEq : List PyStr → List PyStr → Bool
  | [], [] => true
  | a :: l, b :: m =>
    match strEq a b with
    | true => strsEq l m
    | false => false
  | _, _ => false

theorem strsEq_sound {a b : List PyStr} (h : strsEq a b = true) : a = b := by
  induction a generalizing b with
  | nil => cases b with
    | nil => rfl
    | cons _ _ => cases h
  | cons x l ih =>
    cases b with
    | nil => cases h
    | cons y m =>
      simp only [strsEq] at h
      cases he : strEq x y with
      | true => rw [he] at h; rw [strEq_iff.1 he, ih h]
      | false => rw [he] at h; cases h

/-- All sections. -/
def allSecs : List Sec := [.VowelMap, .SouthVowelMap, .ModernVowelMap, .SinhalaVowelMap, .VowelSignMap,
  .SouthVowelSignMap, .ModernVowelSignMap, .SinhalaVowelSignMap, .ViramaMap, .AyogavahaMap, .NuktaMap,
  .ConsonantMap, .SouthConsonantMap, .NuktaConsonantMap, .SinhalaConsonantMap, .SignMap, .NumeralMap,
  .Aytham, .OmMap]

theorem mem_allSecs (s : Sec) : s ∈ allSecs := by cases s <;> decide

theorem Tbl.ext_get {a b : Tbl} (h : ∀ s, a.get s = b.get s) : a = b := by
  cases a; cases b
  have h1 := h .VowelMap
  have h2 := h .SouthVowelMap
  have h3 := h .ModernVowelMap
  have h4 := h .SinhalaVowelMap
  have h5 := h .VowelSignMap
  have h6 := h .SouthVowelSignMap
  have h7 := h .ModernVowelSignMap
  have h8 := h .SinhalaVowelSignMap
  have h9 := h .ViramaMap
  have h10 := h .AyogavahaMap
  have h11 := h .NuktaMap
  have h12 := h .ConsonantMap
  have h13 := h .SouthConsonantMap
  have h14 := h .NuktaConsonantMap
  have h15 := h .SinhalaConsonantMap
  have h16 := h .SignMap
  have h17 := h .NumeralMap
  have h18 := h .Aytham
  have h19 := h .OmMap
  simp only [Tbl.get] at *
  subst h1 h2 h3 h4 h5 h6 h7 h8 h9 h10 h11 h12 h13 h14 h15 h16 h17 h18 h19
  rfl

/-- The table is what executing the module gives, and it has no letter too many or too few. -/
def importedOk (p : PyStr × Tbl) : Bool :=
  match executeModule p.1 with
  | some t => allSecs.all fun s => strsEq (t.get s) (p.2.get s) && Nat.beq (p.2.get s).length (Ext.Inter.get s).length
  | none => false

theorem importedOk_sound {p : PyStr × Tbl} (h : importedOk p = true) :
    executeModule p.1 = some p.2 ∧ ∀ s, (p.2.get s).length = (Ext.Inter.get s).length := by
  unfold importedOk at h
  cases he : executeModule p.1 with
  | none => rw [he] at h; cases h
  | some t =>
    rw [he] at h
    simp only [List.all_eq_true, Bool.and_eq_true] at h
    refine ⟨congrArg some (Tbl.ext_get fun s => strsEq_sound (h s (mem_allSecs s)).1), fun s => ?_⟩
    exact Nat.eq_of_beq_eq_true (h s (mem_allSecs s)).2

/-! The check is made in ten parts, so that no one of them needs much memory. -/

theorem imported_part0 : ((scriptTables.drop 0).take 15).all importedOk = true := by decide +kernel
theorem imported_part1 : ((scriptTables.drop 15).take 15).all importedOk = true := by decide +kernel
theorem imported_part2 : ((scriptTables.drop 30).take 15).all importedOk = true := by decide +kernel
theorem imported_part3 : ((scriptTables.drop 45).take 15).all importedOk = true := by decide +kernel
theorem imported_part4 : ((scriptTables.drop 60).take 15).all importedOk = true := by decide +kernel
theorem imported_part5 : ((scriptTables.drop 75).take 15).all importedOk = true := by decide +kernel
theorem imported_part6 : ((scriptTables.drop 90).take 15).all importedOk = true := by decide +kernel
theorem imported_part7 : ((scriptTables.drop 105).take 15).all importedOk = true := by decide +kernel
theorem imported_part8 : ((scriptTables.drop 120).take 15).all importedOk = true := by decide +kernel
theorem imported_part9 : (scriptTables.drop 135).all importedOk = true := by decide +kernel

theorem all_take_drop {α : Type} {f : α → Bool} {l : List α} (n m : Nat)
    (h : ((l.drop n).take m).all f = true) (h' : (l.drop (n + m)).all f = true) : (l.drop n).all f = true := by
  rw [← List.take_append_drop m (l.drop n), List.all_append, h, List.drop_drop, h', Bool.true_and]

theorem imported_all : scriptTables.all importedOk = true :=
  all_take_drop 0 15 imported_part0 <| all_take_drop 15 15 imported_part1 <|
  all_take_drop 30 15 imported_part2 <| all_take_drop 45 15 imported_part3 <|
  all_take_drop 60 15 imported_part4 <| all_take_drop 75 15 imported_part5 <|
  all_take_drop 90 15 imported_part6 <| all_take_drop 105 15 imported_part7 <|
  all_take_drop 120 15 imported_part8 imported_part9

/-- The two registries have the same names. -/
theorem registries_agree : strsEq (scriptTables.map Prod.fst) (baseTables.map Prod.fst) = true := by decide +kernel

theorem dictGet?_isSome_congr {β γ : Type} {d : List (PyStr × β)} {e : List (PyStr × γ)}
    (h : d.map Prod.fst = e.map Prod.fst) (k : PyStr) : dictGet? d k = none ↔ dictGet? e k = none := by
  rw [dictGet?_none, dictGet?_none]
  have key : ∀ {δ : Type} (f : List (PyStr × δ)), (∀ p ∈ f, p.1 ≠ k) ↔ k ∉ f.map Prod.fst := by
    intro δ f
    rw [List.mem_map]
    constructor
    · rintro h ⟨p, hp, e⟩; exact h p hp e
    · intro h p hp e; exact h ⟨p, hp, e⟩
  rw [key, key, h]

/-- Executing a module gives the table used everywhere in the model. -/
theorem executeModule_eq (script : PyStr) : executeModule script = tblOf script := by
  unfold tblOf
  cases h : dictGet? scriptTables script with
  | some t =>
    exact (importedOk_sound (List.all_eq_true.1 imported_all _ (dictGet?_some h))).1
  | none =>
    have h2 := (dictGet?_isSome_congr (strsEq_sound registries_agree) script).1 h
    simp only [executeModule, h2]

end Verif
