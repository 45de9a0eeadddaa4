import Verif.Spec.CoreTable

/-!
# Specification: pairs of scripts that use a character for different letters

Generated by tools/compat_gen.py.
-/

namespace Verif

/-- For a source script, the target scripts that use one of its characters for another letter. -/
def clashing : List (PyStr × List PyStr) := [
  (u! "TibetanLoC", us!["Tibetan"]),
  (u! "ThamLoC", us!["TaiTham", "KhuenTham", "LueTham", "LaoTham"]),
  (u! "KhmerLoC", us!["Khmer"]),
  (u! "ShanLoC", us!["TaiLaing", "KhamtiShan"]),
  (u! "BengaliRaBa", us!["TamilGrantha", "Assamese", "Bengali", "GranthaGrantamil"]),
  (u! "LaoTham", us!["ThamLoC"]),
  (u! "LueTham", us!["ThamLoC"]),
  (u! "KhuenTham", us!["ThamLoC"]),
  (u! "KhamtiShan", us!["Shan", "TaiLaing", "ShanLoC"]),
  (u! "TaiLaing", us!["Shan", "KhamtiShan", "ShanLoC"]),
  (u! "Shan", us!["TaiLaing", "KhamtiShan", "ShanLoC"]),
  (u! "GranthaGrantamil", us!["BengaliRaBa"]),
  (u! "Bengali", us!["BengaliRaBa"]),
  (u! "Assamese", us!["BengaliRaBa"]),
  (u! "TamilBrahmi", us!["Brahmi"]),
  (u! "TamilGrantha", us!["BengaliRaBa"]),
  (u! "Khmer", us!["KhmerLoC"]),
  (u! "Tibetan", us!["TibetanLoC"]),
  (u! "BatakKaro", us!["BatakManda", "BatakToba", "BatakSima", "BatakPakpak"]),
  (u! "BatakPakpak", us!["BatakKaro"]),
  (u! "BatakSima", us!["BatakKaro"]),
  (u! "BatakToba", us!["BatakKaro"]),
  (u! "BatakManda", us!["BatakKaro"]),
  (u! "TaiTham", us!["ThamLoC"]),
  (u! "Brahmi", us!["TamilBrahmi"])]

/-- The scripts give a shared character the same value. -/
def Agree (S T : PyStr) : Prop := ∀ l, (S, l) ∈ clashing → T ∉ l

end Verif
