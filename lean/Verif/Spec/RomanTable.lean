import Verif.Spec.Roman

/-!
# The romanisations and their spellings
-/

namespace Verif

/-- SLP1 -/
def romanSLP1 : RomanEntry where
  script := u! "SLP1"
  conss := us!["k", "K", "g", "G", "N", "c", "C", "j", "J", "Y", "w", "W", "q", "R", "t", "T", "d", "D", "n", "p", "P", "b", "B", "m", "y", "r", "l", "v", "S", "z", "s", "h", "tQ", "L", "L0", "r2", "n2", "k0", "K0", "g0", "j0", "q0", "P0", "Y0", "n*g", "n*j", "n*q", "n*d", "m*b"]
  vowels := us!["A", "i", "I", "u", "U", "f", "F", "x", "X", "e", "E", "o", "O", "e1", "o1", "e2", "o2", "e4", "a"]
  marks := us!["K", "'", ".", "..", "~", "M", "H", "0", "1", "2", "3", "4", "5", "6", "7", "8", "9"]
  free := u! " \n,;:?()-/+=\"<>[]@#%&VZ"
  avoid := []
  hiatus := []
  oneWay := []

/-- WX -/
def romanWX : RomanEntry where
  script := u! "WX"
  conss := us!["k", "K", "g", "G", "f", "c", "C", "j", "J", "F", "t", "T", "d", "D", "N", "w", "W", "x", "X", "n", "p", "P", "b", "B", "m", "y", "r", "l", "v", "S", "R", "s", "h", "wQ", "lY", "lYY", "rY", "nY", "kY", "KY", "GY", "zY", "dY", "DY", "PY", "yY", "nYYg", "nYYj", "nYYd", "nYYx", "mYYb"]
  vowels := us!["A", "i", "I", "u", "U", "q", "qV", "L", "LV", "e", "E", "o", "O", "eV", "oV", "aEV", "aOV", "AEV", "a"]
  marks := us!["kYY", "Z", ".", "..", "z", "M", "H", "0", "1", "2", "3", "4", "5", "6", "7", "8", "9"]
  free := u! " \n,;:?()-/+*=\"<>[]@#%&"
  avoid := []
  hiatus := []
  oneWay := []

/-- HK -/
def romanHK : RomanEntry where
  script := u! "HK"
  conss := us!["k", "kh", "g", "gh", "G", "c", "ch", "j", "jh", "J", "T", "Th", "D", "Dh", "N", "t", "th", "d", "dh", "n", "p", "ph", "b", "bh", "m", "y", "r", "l", "v", "z", "S", "s", "h", "tQ", "L", "Z", "r2", "n2", "q", "qh", "g2", "z2", "r3", "r3h", "f", "Y", "n*g", "n*j", "n*D", "n*d", "m*b"]
  vowels := us!["A", "i", "I", "u", "U", "R", "RR", "lR", "lRR", "e", "ai", "o", "au", "E", "O", "aE", "aO", "AE", "a"]
  marks := us!["K", "'", ".", "..", "~", "M", "H", "X", "F", "0", "1", "2", "3", "4", "5", "6", "7", "8", "9"]
  free := u! " \n,;:?()-/+=\"<>[]@#%&BCPVWwx"
  avoid := []
  hiatus := []
  oneWay := []

/-- IAST -/
def romanIAST : RomanEntry where
  script := u! "IAST"
  conss := us!["k", "kh", "g", "gh", "ṅ", "c", "ch", "j", "jh", "ñ", "ṭ", "ṭh", "ḍ", "ḍh", "ṇ", "t", "th", "d", "dh", "n", "p", "ph", "b", "bh", "m", "y", "r", "l", "v", "ś", "ṣ", "s", "h", "ẗ", "l̤", "ḻ", "ṟ", "ṉ", "q", "k͟h", "ġ", "z", "r̤", "r̤h", "f", "ẏ", "n̆g", "n̆j", "n̆ḍ", "n̆d", "m̆b"]
  vowels := us!["ā", "i", "ī", "u", "ū", "ṛ", "ṝ", "ḷ", "ḹ", "e", "ai", "o", "au", "ŭ", "ŭ̄", "ö", "ȫ", "ĕ", "ŏ", "æ", "ô", "ǣ", "a"]
  marks := us!["ḵ", "'", ".", "..", "m̐", "ṃ", "ḥ", "ẖ", "ḫ", "0", "1", "2", "3", "4", "5", "6", "7", "8", "9"]
  free := u! " \n,;:?()-/+*=\"<>[]@#%&ABCDEFGHIJKLMNOPQRSTUVWXYZwx"
  avoid := []
  hiatus := [(u! "a_i", u! "aï"), (u! "a_u", u! "aü")]
  oneWay := u! "ABCDEFGHIJKLMNOPQRSTUVWXYZöȫŭ\u0308"

/-- IASTPali -/
def romanIASTPali : RomanEntry where
  script := u! "IASTPali"
  conss := us!["k", "kh", "g", "gh", "ṅ", "c", "ch", "j", "jh", "ñ", "ṭ", "ṭh", "ḍ", "ḍh", "ṇ", "t", "th", "d", "dh", "n", "p", "ph", "b", "bh", "m", "y", "r", "l", "v", "ś", "ṣ", "s", "h", "ẗ", "ḷ", "ḻ", "ṟ", "ṉ", "q", "k͟h", "ġ", "z", "r̤", "r̤h", "f", "ẏ", "n̆g", "n̆j", "n̆ḍ", "n̆d", "m̆b"]
  vowels := us!["ā", "i", "ī", "u", "ū", "ṛ", "ṝ", "l̤", "l̤̄", "e", "ai", "o", "au", "ĕ", "ŏ", "æ", "ô", "ǣ", "a"]
  marks := us!["ḵ", ".", "..", "m̐", "ṃ", "ḥ", "ẖ", "ḫ", "0", "1", "2", "3", "4", "5", "6", "7", "8", "9"]
  free := u! " \n,;:?()-/+*=\"<>[]@#%&ABCDEFGHIJKLMNOPQRSTUVWXYZwx"
  avoid := []
  hiatus := [(u! "a_i", u! "aï"), (u! "a_u", u! "aü")]
  oneWay := u! "ABCDEFGHIJKLMNOPQRSTUVWXYZ\u0308"

/-- ISO -/
def romanISO : RomanEntry where
  script := u! "ISO"
  conss := us!["k", "kh", "g", "gh", "ṅ", "c", "ch", "j", "jh", "ñ", "ṭ", "ṭh", "ḍ", "ḍh", "ṇ", "t", "th", "d", "dh", "n", "p", "ph", "b", "bh", "m", "y", "r", "l", "v", "ś", "ṣ", "s", "h", "ẗ", "ḷ", "ḻ", "ṟ", "ṉ", "q", "k͟h", "ġ", "z", "ṛ", "ṛh", "f", "ẏ", "n̆g", "n̆j", "n̆ḍ", "n̆d", "m̆b"]
  vowels := us!["ā", "i", "ī", "u", "ū", "r̥", "r̥̄", "l̥", "l̥̄", "ē", "ai", "ō", "au", "ŭ", "ŭ̄", "ö", "ȫ", "e", "o", "æ", "ô", "ǣ", "a"]
  marks := us!["ḵ", "’", ".", "..", "m̐", "ṁ", "ḥ", "ẖ", "ḫ", "0", "1", "2", "3", "4", "5", "6", "7", "8", "9"]
  free := u! " \n,;:?()-/+*=\"<>[]@#%&ABCDEFGHIJKLMNOPQRSTUVWXYZwx"
  avoid := []
  hiatus := [(u! "a_i", u! "a:i"), (u! "a_u", u! "a:u")]
  oneWay := u! "ABCDEFGHIJKLMNOPQRSTUVWXYZöȫŭ:\u0308"

/-- ISOPali -/
def romanISOPali : RomanEntry where
  script := u! "ISOPali"
  conss := us!["k", "kh", "g", "gh", "ṅ", "c", "ch", "j", "jh", "ñ", "ṭ", "ṭh", "ḍ", "ḍh", "ṇ", "t", "th", "d", "dh", "n", "p", "ph", "b", "bh", "m", "y", "r", "l", "v", "ś", "ṣ", "s", "h", "ẗ", "ḷ", "ḻ", "ṟ", "ṉ", "q", "k͟h", "ġ", "z", "ṛ", "ṛh", "f", "ẏ", "n̆g", "n̆j", "n̆ḍ", "n̆d", "m̆b"]
  vowels := us!["ā", "i", "ī", "u", "ū", "r̥", "r̥̄", "l̥", "l̥̄", "e", "ai", "o", "au", "ĕ", "ŏ", "æ", "ô", "ǣ", "a"]
  marks := us!["ḵ", ".", "..", "m̐", "ṁ", "ḥ", "0", "1", "2", "3", "4", "5", "6", "7", "8", "9"]
  free := u! " \n,;:?()-/+*=\"<>[]@#%&ABCDEFGHIJKLMNOPQRSTUVWXYZwx"
  avoid := []
  hiatus := [(u! "a_i", u! "a:i"), (u! "a_u", u! "a:u")]
  oneWay := u! "ABCDEFGHIJKLMNOPQRSTUVWXYZ:\u0308"

/-- Titus -/
def romanTitus : RomanEntry where
  script := u! "Titus"
  conss := us!["k", "kʰ", "g", "gʰ", "ṅ", "c", "cʰ", "j", "jʰ", "ñ", "ṭ", "ṭʰ", "ḍ", "ḍʰ", "ṇ", "t", "tʰ", "d", "dʰ", "n", "p", "pʰ", "b", "bʰ", "m", "y", "r", "l", "v", "ś", "ṣ", "s", "h", "ẗ", "ḷ", "ḻ", "ṟ", "ṉ", "q", "k͟ʰ", "ġ", "z", "ṛ", "ṛʰ", "f", "ẏ", "n̆g", "n̆j", "n̆ḍ", "n̆d", "m̆b"]
  vowels := us!["ā", "i", "ī", "u", "ū", "r̥", "r̥̄", "l̥", "l̥̄", "e", "ai", "o", "au", "ĕ", "ŏ", "æ", "ô", "ǣ", "a"]
  marks := us!["ḵ", "'", ".", "..", "m̐", "ṃ", "ḥ", "ẖ", "ḫ", "0", "1", "2", "3", "4", "5", "6", "7", "8", "9"]
  free := u! " \n,;:?()-/+*=\"<>[]@#%&ABCDEFGHIJKLMNOPQRSTUVWXYZwx"
  avoid := []
  hiatus := []
  oneWay := u! "ABCDEFGHIJKLMNOPQRSTUVWXYZ\u0308"

/-- Aksharaa -/
def romanAksharaa : RomanEntry where
  script := u! "Aksharaa"
  conss := us!["k", "kh", "g", "gh", "ng'", "ch", "chh", "j", "jh", "nj'", "t'", "t'h", "d'", "d'h", "n'", "t", "th", "d", "dh", "n", "p", "ph", "b", "bh", "m", "y", "r", "l", "v", "sh", "shh", "s", "h", "tQ", "l'", "zh", "r'", "n;", "q", "qh", "g;", "z", "d;", "d;h", "f", "y;", "ng;", "nj;", "nd';", "nd;", "mb;"]
  vowels := us!["aa", "i", "ii", "u", "uu", "ru'", "ruu'", "lu'", "luu'", "ee", "ai", "oo", "au", "e", "o", "e'", "o'", "ee'", "a"]
  marks := us!["_k", ".", "..", "m;", "m'", "0", "1", "2", "3", "4", "5", "6", "7", "8", "9"]
  free := u! " \n,:?()-/+*=\"<>[]@#%&ABCDEFGHIJKLMNOPRSTUVWXYZwx"
  avoid := []
  hiatus := []
  oneWay := []

/-- Velthuis -/
def romanVelthuis : RomanEntry where
  script := u! "Velthuis"
  conss := us!["k", "kh", "g", "gh", "\"n", "c", "ch", "j", "jh", "~n", ".t", ".th", ".d", ".dh", ".n", "t", "th", "d", "dh", "n", "p", "ph", "b", "bh", "m", "y", "r", "l", "v", "\"s", ".s", "s", "h", "tQ", "..l", "_l", "_r", "_n", "q", "_kh", ".g", "z", "..r", "..rh", "f", ".y", "n*g", "n*j", "n*.d", "n*d", "m*b"]
  vowels := us!["aa", "i", "ii", "u", "uu", ".r", ".R", ".l", ".L", "e", "ai", "o", "au", "E", "O", "aE", "aO", "AE", "a"]
  marks := us!["_k", ".a", "..", "~m", ".m", ".h", "0", "1", "2", "3", "4", "5", "6", "7", "8", "9"]
  free := u! " \n,;:?()-/+=<>[]@#%&BCDFGHIJKMNPSTUVWXYZwx"
  avoid := []
  hiatus := []
  oneWay := []

/-- Itrans -/
def romanItrans : RomanEntry where
  script := u! "Itrans"
  conss := us!["k", "kh", "g", "gh", "~N", "ch", "Ch", "j", "jh", "~n", "T", "Th", "D", "Dh", "N", "t", "th", "d", "dh", "n", "p", "ph", "b", "bh", "m", "y", "r", "l", "v", "sh", "Sh", "s", "h", "tQ", "L", "zh", "R", "^n", "q", "K", "G", "z", ".D", ".Dh", "f", "Y", "n*g", "n*j", "n*D", "n*d", "m*b"]
  vowels := us!["A", "i", "I", "u", "U", "R^i", "R^I", "L^i", "L^I", "e", "ai", "o", "au", "^e", "^o", "e.c", "A.c", "a.C", "a"]
  marks := us!["K^", ".a", ".", "..", ".N", "M", "H", "X", "F", "0", "1", "2", "3", "4", "5", "6", "7", "8", "9"]
  free := u! " \n,;:?()-/+=\"<>[]@#%&BEJOPVWZwx"
  avoid := us!["RRi", "RRI", "LLi", "LLI"]
  hiatus := []
  oneWay := []

/-- The romanisations. -/
def romanTable : List RomanEntry := [romanSLP1, romanWX, romanHK, romanIAST, romanIASTPali, romanISO, romanISOPali, romanTitus, romanAksharaa, romanVelthuis, romanItrans]

/-- Scripts that write a letter with a character the romanisation uses in other letters: the
apostrophe is a letter of some scripts and part of the letters t', d', ... of Aksharaa, the full
stop is a letter of the Batak scripts and part of letters of Velthuis and Itrans.  (Whether the
conversion keeps them apart depends on the order of the letters in the tables.) -/
def romanClashes : List (PyStr × List PyStr) :=
  [(u! "Aksharaa", us!["ThamLoC", "ShanLoC", "Pallava", "LaoTham", "LueTham", "KhuenTham", "KhamtiShan", "TaiLaing", "Mon", "Shan", "Rejang", "Ahom", "TamilBrahmi", "Burmese", "Balinese", "Javanese", "Limbu", "Lepcha", "Chakma", "MeeteiMayek", "BatakKaro", "BatakPakpak", "BatakSima", "BatakToba", "BatakManda", "Cham", "TaiTham"]),
   (u! "Velthuis", us!["BatakKaro", "BatakPakpak", "BatakSima", "BatakToba", "BatakManda"]),
   (u! "Itrans", us!["BatakKaro", "BatakPakpak"])]

/-- The script has no letter that is a character of other letters of the romanisation. -/
def Apt (S R : PyStr) : Prop := ∀ p ∈ romanClashes, p.1 = R → S ∉ p.2

/-- The romanisations that are read back. -/
def readTable : List RomanEntry :=
  [romanSLP1, romanWX, romanHK, romanIAST, romanIASTPali, romanISO, romanISOPali, romanTitus, romanAksharaa]

end Verif
