import Verif.Model.Transliterate

/-!
# Applying options one after the other
-/

namespace Verif

/-- The option functions named in a list applied one after the other, the first name first; an
exception ends the sequence. -/
def applyInTurn (E : Env) (fns : List (PyStr × Gen Unit)) : List PyStr → PyStr → Except Exn PyStr
  | [], text => .ok text
  | o :: os, text =>
    match dictGet? fns o with
    | none => .error .attributeError
    | some f =>
      match f.prog.run E text with
      | .error e => .error e
      | .ok text' => applyInTurn E fns os text'

/-- Options after the conversion that also steer other parts of the conversion. -/
def specialPost : List PyStr := us!["indicDandas", "siddhammukta", "siddhamap", "LaoNative", "egrantamil",
  "nepaldevafont", "ranjanalantsa", "ranjanawartu", "BengaliRaBa", "SoyomboFinals", "BalineseSimplified",
  "JavaneseSimplified", "arabicRemoveAdditionsPhonetic", "RemoveDiacritics", "removeDiacritics", "romanNumerals",
  "indicNumerals", "romanFullStop"]

/-- Options before the conversion that also steer other parts of the conversion. -/
def specialPre : List PyStr := us!["siddhammukta", "egrantamil", "novowelshebrew"]

end Verif
