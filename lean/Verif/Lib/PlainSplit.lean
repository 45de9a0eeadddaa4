import Verif.Lib.PlainPieces

/-!
# Splitting the four kinds of plain conversion
-/

namespace Verif

/-- A letter decoration that keeps the list. -/
def asIs : PyStr → List PyStr → List PyStr := fun _ l => l

/-- `charPairs` decorations of Roman to Indic (Convert.py:110-124) -/
def depVowels : PyStr → List PyStr → List PyStr := fun n l =>
  match pyEq n (u! "VowelSigns") with
  | true => l.map (fun x => DepV ++ x)
  | false => l

/-- `charPairs` decorations of Indic to Roman (Convert.py:241-258) -/
def schwaDep : PyStr → List PyStr → List PyStr := fun n l =>
  match pyEq n (u! "Consonants"), pyEq n (u! "Vowels") with
  | true, _ => l.map (fun x => x ++ Schwa)
  | false, true => l.map (fun x => DepV ++ x)
  | false, false => l

/-- The pairs of `convertInter`. -/
def interPairs (S : PyStr) : List (PyStr × PyStr) :=
  sortPairsByLenDesc (pyZip (lettersOf S interSecs) (lettersOf GM.Inter interSecs))

/-- Om and letters, Indic to Indic. -/
def midII (S T : PyStr) : Gen Unit := do
  indicOm (lettersOf S GM.Signs) (headSec .OmMap S) (headSec .OmMap T)
  replaceAll (pairsOf asIs asIs S T)

/-- Om and letters, Roman to Indic. -/
def midLI (S T : PyStr) : Gen Unit := do
  omSubs (omPunc (lettersOf S GM.Signs)) (headSec .OmMap S) (headSec .OmMap T)
  omSubs (u! "(\\s)") (headSec .OmMap S) (headSec .OmMap T)
  replaceAll (interPairs S)
  midInter
  replaceAll (pairsOf depVowels asIs GM.Inter T)

/-- The letters of Indic to Roman, with the exceptions for `RomanSemitic`. -/
def lettersIL (S T : PyStr) : Gen Unit :=
  branch (pyEq S (u! "RomanSemitic"))
    (forEach ((pairsOf asIs schwaDep S T).filter (fun p => !(isInfix (u! "ʰ") p.1))
        ++ (pairsOf asIs schwaDep S T).filter (fun p => isInfix (u! "ʰ") p.1))
      fun (x, y) =>
        branch (pyIn x romanSemiticUnasp)
          (reSub (x ++ (u! "(?!(ʰ|̤))")) y)
          (replace x y))
    (replaceAll (pairsOf asIs schwaDep S T))

/-- Om and letters, Indic to Roman. -/
def midIL (S T : PyStr) : Gen Unit := do
  replace (headSec .OmMap S) (headSec .OmMap T)
  lettersIL S T

/-- Letters, Roman to Roman. -/
def midLL (S T : PyStr) : Gen Unit := do
  replaceAll (interPairs S)
  replaceAll (pyZip (lettersOf GM.Inter interSecs) (lettersOf T interSecs))

theorem indicToIndic_eq {S T : PyStr} (hS : hasTbl S = true) (hT : hasTbl T = true)
    (oS : hasHead .OmMap S = true) (oT : hasHead .OmMap T = true) :
    indicToIndic S T = (do prefixII S; midII S T; fixIndicOutput T) := by
  unfold indicToIndic prefixII midII
  simp only [crunchSymbols_eq hS, crunchList_eq, pure_bind, index_head oS, index_head oT, bind_assoc]
  simp only [show (fun (_ : PyStr) (l : List PyStr) => l) = asIs from rfl, charPairs_eq hS hT, pure_bind]

theorem hasTbl_inter : hasTbl GM.Inter = true := by decide +kernel

theorem convertInter_eq {S : PyStr} (hS : hasTbl S = true) :
    convertInter S = replaceAll (interPairs S) := by
  unfold convertInter
  rw [crunchSymbols_eq hS, crunchSymbols_eq hasTbl_inter, pure_bind, pure_bind]
  rfl

theorem index_inter_ha : ∃ x, index (lettersOf GM.Inter GM.Consonants) 32 = pure x := by
  have h : ∃ x, pyIndex? (lettersOf GM.Inter GM.Consonants) 32 = some x :=
    Option.isSome_iff_exists.1 (by decide +kernel)
  obtain ⟨x, hx⟩ := h
  refine ⟨x, ?_⟩
  unfold index
  rw [hx]
  rfl

theorem latinToIndic_eq {S T : PyStr} (hS : hasTbl S = true) (hT : hasTbl T = true)
    (oS : hasHead .OmMap S = true) (oT : hasHead .OmMap T = true) :
    latinToIndic S T = (do preLI S; midLI S T; postLI T; fixIndicOutput T) := by
  obtain ⟨ha, hha⟩ := index_inter_ha
  unfold latinToIndic preLI midLI postLI midInter
  simp only [convertInter_eq hS, crunchSymbols_eq hS, crunchSymbols_eq hT, crunchSymbols_eq hasTbl_inter,
    crunchList_eq, pure_bind, index_head oS, index_head oT, bind_assoc, hha]
  simp only [charPairs_eq hasTbl_inter hT, pure_bind]
  rfl

theorem indicToLatin_eq {S T : PyStr} (hS : hasTbl S = true) (hT : hasTbl T = true)
    (oS : hasHead .OmMap S = true) (oT : hasHead .OmMap T = true) :
    indicToLatin S T = (do
      prefixII S
      midIL S T
      ConvertFix.FixRomanOutput T
      ConvertFix.VedicSvarsIndicLatin
      ConvertFix.PostFixRomanOutput S T) := by
  unfold indicToLatin prefixII midIL lettersIL
  simp only [crunchList_eq, pure_bind, index_head oS, index_head oT, bind_assoc]
  simp only [charPairs_eq hS hT, pure_bind]
  rfl

theorem latinToLatin_eq {S T : PyStr} (hS : hasTbl S = true) (hT : hasTbl T = true) :
    latinToLatin S T = (do tryFixReverse S; midLL S T; ConvertFix.PostFixRomanOutput S T) := by
  unfold latinToLatin midLL
  simp only [convertInter_eq hS, crunchSymbols_eq hT, crunchSymbols_eq hasTbl_inter, pure_bind, bind_assoc]

/-- Which of the four branches of `convertScript` is taken. -/
inductive Kind
  | II | LI | IL | LL
  deriving DecidableEq

/-- The branch for two Indic or Roman scripts (Convert.py:61-284). -/
def kindOf (S T : PyStr) : Option Kind :=
  match pyIn S GM.LatinScripts, pyIn S GM.IndicScripts, pyIn T GM.LatinScripts, pyIn T GM.IndicScripts with
  | true, _, _, true => some .LI
  | true, _, true, _ => some .LL
  | _, true, _, true => some .II
  | _, true, true, _ => some .IL
  | _, _, _, _ => none

theorem convertIndic_kind (S T : PyStr) : convertIndic S T = (match kindOf S T with
    | some .LI => some (latinToIndic S T)
    | some .LL => some (latinToLatin S T)
    | some .II => some (indicToIndic S T)
    | some .IL => some (indicToLatin S T)
    | none => none) := by
  unfold convertIndic kindOf
  cases pyIn S GM.LatinScripts <;> cases pyIn S GM.IndicScripts <;> cases pyIn T GM.LatinScripts <;>
    cases pyIn T GM.IndicScripts <;> rfl

/-- `convertScript`, in pieces. -/
def scriptPieces (S T : PyStr) : Kind → Gen Unit
  | .II => do prefixII S; midII S T; endII T
  | .LI => do preLI S; midLI S T; postLI T; endII T
  | .IL => do prefixII S; midIL S T; headIL T; endLL S T
  | .LL => do tryFixReverse S; midLL S T; endLL S T

theorem convertScript_pieces {S T : PyStr} (hS : hasTbl S = true) (hT : hasTbl T = true)
    (oS : hasHead .OmMap S = true) (oT : hasHead .OmMap T = true) {kd : Kind} (hk : kindOf S T = some kd) :
    convertScript S T = scriptPieces S T kd := by
  unfold convertScript
  rw [convertIndic_kind, hk]
  cases kd with
  | II => simp only [indicToIndic_eq hS hT oS oT, scriptPieces, endII, bind_assoc]
  | LI => simp only [latinToIndic_eq hS hT oS oT, scriptPieces, endII, bind_assoc]
  | IL => simp only [indicToLatin_eq hS hT oS oT, scriptPieces, headIL, endLL, bind_assoc]
  | LL => simp only [latinToLatin_eq hS hT, scriptPieces, endLL, bind_assoc]

theorem finishT_src {S T : PyStr} (hL : pyEq T (u! "Latn") = false) (nat : Bool) : (do
    branch nat (nativization S T []) (pure ())
    PreProcess.retainLatin true
    PostProcess.defaultPost S T nat [] [] : Gen Unit) = finishT T nat := by
  rw [nativization_src hL]
  rfl

/-- A plain conversion, in pieces. -/
theorem plainConvert_pieces {S T : PyStr} (hS : hasTbl S = true) (hT : hasTbl T = true)
    (oS : hasHead .OmMap S = true) (oT : hasHead .OmMap T = true)
    (hL : pyEq T (u! "Latn") = false) {kd : Kind} (hk : kindOf S T = some kd) (nat : Bool) :
    plainConvert S T nat = (do PreProcess.PreProcess S T [] []; scriptPieces S T kd; finishT T nat) := by
  unfold plainConvert
  rw [convertScript_pieces hS hT oS oT hk, finishT_src hL]

end Verif
