import Verif.Lib.NumeralText
import Verif.Props.Spelling

/-!
# C33, C34: Kharoshthi and Old Persian numerals

A text is a list of pieces, characters and numbers (`Verif.Spec.Numerals`).  The theorems say that
the conversion spells the text letter by letter and writes every number as a numeral, for any
source script of `coreTable`, any text and any numbers, and that the numeral is read as the number.
The divisions of the code are exact for numbers below 8·10¹⁵ only (it divides floats), so the
theorems are about the code for texts with numbers below that bound.
-/

namespace Verif

/-- C33: there is a way of writing numbers that is read as the number, and every conversion to
Kharoshthi writes all numbers that way and leaves the characters between them alone. -/
theorem C33_kharoshthi_numerals :
    ∃ f : Nat → PyStr, (∀ n, khValue (f n) = some n) ∧
      ∀ (E : Env), E.TextOps → E.uni.AsciiDigits → ∀ (a : CoreEntry), a ∈ coreTable → a.script ≠ u! "Kharoshthi" →
        Agree a.script (u! "Kharoshthi") → ∀ (s : PyStr) (l : List Piece) (nativize : Bool), CoreText a s →
        respell a.script (u! "Kharoshthi") s = Piece.write pyStrNat l →
        Piece.spaced l → Piece.NoDigit (fun c => E.uni.isDigit c = false) l →
        CoreText (withDigits coreKharoshthi) (Piece.write pyStrNat l) →
        process E a.script (u! "Kharoshthi") s nativize [] [] (u! "default") = .ok (some (Piece.write f l)) := by
  refine ⟨kharoshthiNumber, fun n => ?_, ?_⟩
  · have := khRead_number (n + 1) n (by omega) []
    rw [List.append_nil] at this
    unfold khValue kharoshthiNumber
    rw [this]
    show some (n / 1000 * 1000 + n % 1000) = some n
    congr 1
    omega
  · intro E hE hU a ha hne hag s l nat hs hw hsp hnd hct
    have hb : coreKharoshthi ∈ coreTable := by simp [coreTable]
    obtain ⟨fa⟩ := facts ha
    obtain ⟨fb⟩ := facts hb
    obtain ⟨r, hr⟩ := C09_no_exception E hE _ (u! "Kharoshthi") fa.src fb.tgt s nat
    rw [hr]
    rw [process_plain hE fa.src (show (u! "Kharoshthi") ∈ targetScripts from fb.tgt)] at hr
    cases hc : (convert a.script (u! "Kharoshthi") nat [] []).prog.run E s with
    | error x => rw [hc] at hr; cases hr
    | ok r' =>
      rw [hc] at hr
      cases hr
      rw [num_convert (e := coreKharoshthi) (f := kharoshthiNumber) hU fa fb numOk_kharoshthi (fun _ => rfl)
        (fun n => kharoshthiNumberF_signs _ n) (by decide) hne
        (compatible_withDigits (compatible_of_agree ha hb hne hag) (List.all_eq_true.1 digitsAgree_kharoshthi a ha))
        hs (by rw [show coreKharoshthi.script = u! "Kharoshthi" from rfl, hw]; exact hct) hw hsp hnd hc]

/-- C34: the same for Old Persian. -/
theorem C34_oldPersian_numerals :
    ∃ f : Nat → PyStr, (∀ n, opValue (f n) = some n) ∧
      ∀ (E : Env), E.TextOps → E.uni.AsciiDigits → ∀ (a : CoreEntry), a ∈ coreTable → a.script ≠ u! "OldPersian" →
        Agree a.script (u! "OldPersian") → ∀ (s : PyStr) (l : List Piece) (nativize : Bool), CoreText a s →
        respell a.script (u! "OldPersian") s = Piece.write pyStrNat l →
        Piece.spaced l → Piece.NoDigit (fun c => E.uni.isDigit c = false) l →
        CoreText (withDigits coreOldPersian) (Piece.write pyStrNat l) →
        process E a.script (u! "OldPersian") s nativize [] [] (u! "default") = .ok (some (Piece.write f l)) := by
  refine ⟨oldPersianNumber, opValue_number, ?_⟩
  intro E hE hU a ha hne hag s l nat hs hw hsp hnd hct
  have hb : coreOldPersian ∈ coreTable := by simp [coreTable]
  obtain ⟨fa⟩ := facts ha
  obtain ⟨fb⟩ := facts hb
  obtain ⟨r, hr⟩ := C09_no_exception E hE _ (u! "OldPersian") fa.src fb.tgt s nat
  rw [hr]
  rw [process_plain hE fa.src (show (u! "OldPersian") ∈ targetScripts from fb.tgt)] at hr
  cases hc : (convert a.script (u! "OldPersian") nat [] []).prog.run E s with
  | error x => rw [hc] at hr; cases hr
  | ok r' =>
    rw [hc] at hr
    cases hr
    rw [num_convert (e := coreOldPersian) (f := oldPersianNumber) hU fa fb numOk_oldPersian (fun _ => rfl)
      oldPersianNumber_signs (by decide) hne
      (compatible_withDigits (compatible_of_agree ha hb hne hag) (List.all_eq_true.1 digitsAgree_oldPersian a ha))
      hs (by rw [show coreOldPersian.script = u! "OldPersian" from rfl, hw]; exact hct) hw hsp hnd hc]

/-- C33, C34 for the number functions: in any text whose numbers are decimal numerals without leading
zeros, all of them and nothing else is rewritten. -/
theorem C33_numbers_in_text (U : Uni) (hU : U.AsciiDigits) (l : List Piece) (hs : Piece.spaced l)
    (hc : Piece.NoDigit (fun c => U.isDigit c = false) l) :
    kharoshthiNumerals U (Piece.write pyStrNat l) = Piece.write kharoshthiNumber l :=
  numerals_write hU (signs_not_ascii (signs := u! "𐩀𐩁𐩂𐩃𐩄𐩅𐩆𐩇") (by decide) (fun n => kharoshthiNumberF_signs _ n)) l hs hc

theorem C34_numbers_in_text (U : Uni) (hU : U.AsciiDigits) (l : List Piece) (hs : Piece.spaced l)
    (hc : Piece.NoDigit (fun c => U.isDigit c = false) l) :
    oldPersianNumeral U (Piece.write pyStrNat l) = Piece.write oldPersianNumber l :=
  numerals_write hU (signs_not_ascii (signs := u! "𐏑𐏒𐏓𐏔𐏕") (by decide) oldPersianNumber_signs) l hs hc

/-- `Piece.write pyStrNat` writes numbers in decimal. -/
theorem C33_decimal (n : Nat) : IsDecimal (pyStrNat n) n := pyStrNat_decimal n

/-! ## Examples -/

def verse : PyStr := u! "धर्म १९९६ कर्म ४"
def versePieces : List Piece := (u! "𐨢𐨪𐨿𐨨 ").map .ch ++ [.num 1996] ++ (u! " 𐨐𐨪𐨿𐨨 ").map .ch ++ [.num 4]

theorem sampleDigits : sampleEnv.uni.AsciiDigits := by
  have : ∀ c, c < 58 → 48 ≤ c → sampleEnv.uni.isDigit c = true ∧ sampleEnv.uni.digitVal c = c - 48 := by decide
  exact fun c h1 h2 => this c (by omega) h1

example : Agree coreDevanagari.script (u! "Kharoshthi") ∧ CoreText coreDevanagari verse ∧
    respell coreDevanagari.script (u! "Kharoshthi") verse = Piece.write pyStrNat versePieces ∧
    Piece.spaced versePieces ∧ CoreText (withDigits coreKharoshthi) (Piece.write pyStrNat versePieces) ∧
    Piece.write kharoshthiNumber versePieces = u! "𐨢𐨪𐨿𐨨 𐩇𐩃𐩃𐩀𐩆𐩅𐩅𐩅𐩅𐩄𐩃𐩁 𐨐𐨪𐨿𐨨 𐩃" :=
  ⟨agree_sound (by decide +kernel), isCore_sound (by decide +kernel), by decide +kernel,
    by simp [versePieces, Piece.spaced], isCore_sound (by decide +kernel), by decide +kernel⟩

example : process sampleEnv (u! "Devanagari") (u! "Kharoshthi") verse false [] [] (u! "default") =
    .ok (some (u! "𐨢𐨪𐨿𐨨 𐩇𐩃𐩃𐩀𐩆𐩅𐩅𐩅𐩅𐩄𐩃𐩁 𐨐𐨪𐨿𐨨 𐩃")) := by decide +kernel

example : khValue (u! "𐩇𐩃𐩃𐩀𐩆𐩅𐩅𐩅𐩅𐩄𐩃𐩁") = some 1996 ∧ khValue (u! "𐩁𐩇") = some 2000 ∧
    opValue (u! "𐏕𐏔𐏓𐏒𐏑") = some 133 := by decide +kernel

example : CoreText coreDevanagari (u! "म१३३") ∧
    respell coreDevanagari.script (u! "OldPersian") (u! "म१३३") = Piece.write pyStrNat [.ch 0x103B6, .num 133] ∧
    CoreText (withDigits coreOldPersian) (Piece.write pyStrNat [.ch 0x103B6, .num 133]) ∧
    Piece.write oldPersianNumber [.ch 0x103B6, .num 133] = u! "𐎶𐏕𐏔𐏓𐏒𐏑" :=
  ⟨isCore_sound (by decide +kernel), by decide +kernel, isCore_sound (by decide +kernel), by decide +kernel⟩

end Verif
