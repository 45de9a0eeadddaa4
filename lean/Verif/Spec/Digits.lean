import Verif.Spec.CoreTable

/-!
# Digits of the scripts
-/

namespace Verif

/-- Scripts with the code point of their digit zero in Unicode; the digits one to nine follow it.  (Scripts without digits of
their own borrow those of a neighbour.) -/
def digitScripts : List (CoreEntry × Nat) := [
  (coreDivesAkuru, 0x11950), (coreTibetanLoC, 0xF20), (coreLimbuLoC, 0x1946), (coreThamLoC, 0x1A90), (coreKhmerLoC,
  0x17E0), (coreShanLoC, 0x1090), (coreBengaliRaBa, 0x9E6), (coreMakasar, 0x6F0), (coreNandinagari, 0xCE6), (coreLaoTham,
  0x1A90), (coreLueTham, 0x1A90), (coreKhuenTham, 0x1A90), (coreMarchen, 0xF20), (coreMasaramGondi, 0x11D50),
  (coreGunjalaGondi, 0x11DA0), (coreDogra, 0x966), (coreKhomThai, 0xE50), (coreKhamtiShan, 0x1090), (coreTaiLaing,
  0xA9F0), (coreMon, 0x1040), (coreKhojki, 0xAE6), (coreShan, 0x1090), (coreRanjana, 0x966), (coreGranthaGrantamil,
  0x9E6), (coreDevanagari, 0x966), (coreMultani, 0xA66), (coreAhom, 0x11730), (coreMahajani, 0x966),
  (coreSiddhamDevanagari, 0x966), (coreKhudawadi, 0x112F0), (coreBhaiksuki, 0x11C50), (coreSharada, 0x111D0), (coreNewa,
  0x11450), (coreTakri, 0x116C0), (coreSylotiNagri, 0x9E6), (coreTirhuta, 0x114D0), (coreModi, 0x11650), (coreKaithi,
  0x966), (coreKannada, 0xCE6), (coreGujarati, 0xAE6), (coreBengali, 0x9E6), (coreOriya, 0xB66), (coreAssamese, 0x9E6),
  (coreSaurashtra, 0xA8D0), (coreGrantha, 0xBE6), (coreTamilGrantha, 0x9E6), (coreKhmer, 0x17E0), (coreBurmese, 0x1040),
  (coreBalinese, 0x1B50), (coreJavanese, 0xA9D0), (coreTibetan, 0xF20), (coreLimbu, 0x1946), (coreLepcha, 0x1C40),
  (coreSundanese, 0x1BB0), (coreChakma, 0x11136), (coreMeeteiMayek, 0xABF0), (coreCham, 0xAA50), (coreTaiTham, 0x1A90),
  (coreBrahmi, 0x11066)]

/-- The code point stands for the digit with the same value in the other script; other characters stay. -/
def redigit (z z' c : Nat) : Nat := if z ≤ c ∧ c < z + 10 then z' + (c - z) else c

/-- Numbers and what stands between them: digits of script `a`, plain characters that neither script uses as letters, and
neutral characters.  (Two full stops are read as a double danda by some scripts.) -/
structure NumberText (a b : CoreEntry × Nat) (s : PyStr) : Prop where
  chars : ∀ c ∈ s, (a.2 ≤ c ∧ c < a.2 + 10) ∨ (c ∈ plainChars ∧ c ∉ a.1.notPlain ∧ c ∉ b.1.notPlain) ∨ isNeutral c = true
  stops : ¬ u! ".." <:+: s

/-- Signs that may stand between romanised numbers (none of the romanisations uses them in letters or codes). -/
def numberSigns : PyStr := u! " \n,-/+=<>@%"

/-- Numbers in the digits that begin with `z`, next to the script `e`: digits, signs that are no letters of the script, and
neutral characters. -/
def RomanNumbers (e : CoreEntry) (z : Nat) (s : PyStr) : Prop :=
  ∀ c ∈ s, (z ≤ c ∧ c < z + 10) ∨ (c ∈ numberSigns ∧ c ∉ e.notPlain) ∨ isNeutral c = true

/-- The digit zero of the romanisations. -/
def zeroASCII : Nat := 48

/-- The value of a decimal numeral in the digits that begin with `z`. -/
def decimalValue (z : Nat) (s : PyStr) : Nat := s.foldl (fun v c => 10 * v + (c - z)) 0

end Verif
