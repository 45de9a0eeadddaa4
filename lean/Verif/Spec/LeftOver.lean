import Verif.Spec.Core

/-!
# Specification: letters that must not be left in the result
-/

namespace Verif

/-- The letters of a script the library reads.  For the scripts it treats as romanisations these are
the letters without the vowel signs and the virama, which such scripts do not write. -/
def readLetters (S : PyStr) : List PyStr :=
  match strMem S GM.LatinScripts with
  | true => romanSecs.flatMap (modAttr S)
  | false => letterList S

/-- Letters the orthographic rules of a script write although its table does not list them. -/
def unlistedLetters : List (PyStr × PyStr) := [
  (u! "KhamtiShan", [0x103D]), (u! "TaiLaing", [0x103D, 0x1040]), (u! "Mon", [0x1004, 0x1008, 0x1009, 0x103D]),
  (u! "Burmese", [0x100A, 0x103D]), (u! "Lao", [0xE23, 0xE2B]), (u! "Lao2", [0xE23, 0xE2B]),
  (u! "LaoPali", [0xE23, 0xE2B, 0xE3A]), (u! "Gurmukhi", [0xA70]), (u! "Assamese", [0x9F0]), (u! "Tibetan", [0xF5E]),
  (u! "Limbu", [0x1939]), (u! "PhagsPa", [0x1802])]

/-- The characters the script is written with: those of its letters and the unlisted ones. -/
def writtenWith (T : PyStr) : PyStr :=
  (letterList T).flatten ++ (unlistedLetters.filter fun p => strEq p.1 T).flatMap Prod.snd

/-- The character lies in one of the blocks of Unicode with the scripts of South and East Asia and
the historic scripts: not in those of the Latin, Greek, Cyrillic, Hebrew and Arabic scripts,
combining marks, punctuation and private use. -/
def ownBlock (c : Nat) : Bool :=
  (Nat.ble 0x900 c && Nat.blt c 0x1CD0) || (Nat.ble 0xA000 c && Nat.blt c 0xD800) || (Nat.ble 0x10000 c && Nat.blt c 0xF0000)

/-- The dandas are punctuation of many scripts. -/
def dandas : PyStr := [0x964, 0x965]

end Verif
