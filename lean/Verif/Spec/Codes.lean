import Verif.Core.Prog
import Verif.Model.YamlData
import Verif.Model.GM

/-!
# What script codes and language codes stand for

The two yaml tables of the package: `Yaml.scripts` (script name, script code, language codes) and
`Yaml.wiki` (script code, number of speakers per language).
-/

namespace Verif

/-- The language codes of an entry, in lower case ("bn, ben": `bn` and ` ben`, with the blank). -/
def entryLangs (E : Env) (s : Yaml.Script) : Option (List PyStr) :=
  s.lang.map fun l => (pySplit l (u! ",")).map E.lower

/-- `code` is one of the language codes of the entry. -/
def HasLang (E : Env) (s : Yaml.Script) (code : PyStr) : Prop :=
  ∃ ls, entryLangs E s = some ls ∧ code ∈ ls

/-- `tag` is `a-b` or `a-b-...`. -/
def Hyphen (tag a b : PyStr) : Prop := (u! "-") <:+: tag ∧ ∃ r, pySplit tag (u! "-") = a :: b :: r

/-- The language whose speakers count for an entry: its first one; for an entry without languages,
that of the last entry before it that has some. -/
def mainLang (before : List Yaml.Script) (s : Yaml.Script) : Option PyStr :=
  ((before ++ [s]).filterMap fun e => e.lang.bind fun l => (pySplit l (u! ",")).head?).getLast?

/-- Number of speakers of `lang` according to the second table, 0 if not listed. -/
def speakers (code : PyStr) (lang : Option PyStr) : Nat :=
  match Yaml.wiki.find? fun p => p.1 == code, lang with
  | some (_, l), some x =>
    match l.find? fun p => p.1 == x with
    | some (_, n) => n
    | none => 0
  | _, _ => 0

/-- Number of languages the second table lists for a script code, 1 if it is not listed. -/
def languageCount (code : PyStr) : Nat :=
  match Yaml.wiki.find? fun p => p.1 == code with
  | some (_, l) => l.length
  | none => 1

/-- `s` is an entry of the first table, `before` are the ones before it. -/
def Entry (before : List Yaml.Script) (s : Yaml.Script) : Prop := ∃ after, Yaml.scripts = before ++ s :: after

/-- The entry is one that the script code asks for, with the given weight: `Deva`, weighted by the
number of speakers, or `mr-Deva`. -/
def CodeAsksFor (E : Env) (tag : PyStr) (weight : Nat) (name : PyStr) : Prop :=
  ∃ before s, Entry before s ∧ name = s.name ∧
    ((¬ (u! "-") <:+: tag ∧ E.lower s.tag = E.lower tag ∧ weight = speakers s.tag (mainLang before s))
    ∨ (weight = 0 ∧ ∃ a b, Hyphen tag a b ∧ E.lower s.tag = E.lower (E.lower b)
        ∧ HasLang E s (E.lower (E.lower a))))

/-- `w` and `name` are the greatest of the pairs that satisfy `P` (ties go to the greater name). -/
def Greatest (P : Nat → PyStr → Prop) (name : PyStr) : Prop :=
  ∃ w, P w name ∧ ∀ w' name', P w' name' → w' < w ∨ w' = w ∧ strLe name' name = true

/-- The codes of the Latin script in `script_code` mode. -/
def latinCodes : List PyStr := us!["latn", "en", "eng"]

/-- The code `Syrc` stands for `Syre`. -/
def syriac (tag : PyStr) : PyStr := if tag = u! "Syrc" then u! "Syre" else tag

/-- **What a script code names.**  `Latn-X` names X, `Latn` names ISO; otherwise the greatest of
the entries asked for; if there is none, a Semitic script code names itself. -/
def CodeNames (E : Env) (tag name : PyStr) : Prop :=
  (∃ a, Hyphen (syriac tag) a name ∧ E.lower a ∈ latinCodes)
  ∨ (¬ ∃ a b, Hyphen (syriac tag) a b ∧ E.lower a ∈ latinCodes) ∧
    (E.lower (syriac tag) ∈ latinCodes ∧ name = u! "ISO"
    ∨ E.lower (syriac tag) ∉ latinCodes ∧
      (Greatest (CodeAsksFor E (syriac tag)) name
      ∨ (∀ w n, ¬ CodeAsksFor E (syriac tag) w n) ∧ syriac tag ∈ GM.SemiticScripts ∧ name = syriac tag))

/-- The entry is one that the language code asks for: `te` (weighted by the number of languages of
its script), or `pa-Guru`. -/
def LangAsksFor (E : Env) (tag : PyStr) (weight : Nat) (name : PyStr) : Prop :=
  ∃ s ∈ Yaml.scripts, name = s.name ∧
    ((HasLang E s (E.lower tag) ∨ s.lang = none ∧ E.lower tag = []) ∧ weight = languageCount s.tag
    ∨ weight = 0 ∧ ∃ a b, Hyphen tag a b ∧ E.lower s.tag = E.lower b
        ∧ (HasLang E s (E.lower a) ∨ s.lang = none ∧ E.lower a = []))

/-- The codes of the Latin script in `lang_code` mode. -/
def latinLangs : List PyStr := us!["la", "en", "eng"]

/-- Sanskrit and Pali, written in many scripts. -/
def sanskritCodes : List PyStr := us!["sa", "san", "pi", "pli"]

/-- The last entry with the script code `code` bears the name `name`. -/
def LastWithCode (E : Env) (code name : PyStr) : Prop :=
  ∃ before s after, Yaml.scripts = before ++ s :: after ∧ s.name = name ∧ E.lower s.tag = E.lower code
    ∧ ∀ t ∈ after, E.lower t.tag ≠ E.lower code

/-- **What a language code names.**  `la-X` names X, `la` names ISO, `sa-Xxxx` the last entry with
script code `Xxxx`, `sa` Devanagari; otherwise the greatest of the entries asked for. -/
def LangNames (E : Env) (tag name : PyStr) : Prop :=
  (∃ a, Hyphen tag a name ∧ E.lower a ∈ latinLangs)
  ∨ (¬ ∃ a b, Hyphen tag a b ∧ E.lower a ∈ latinLangs) ∧
    (E.lower tag ∈ latinLangs ∧ name = u! "ISO"
    ∨ E.lower tag ∉ latinLangs ∧
      ((∃ a b, Hyphen tag a b ∧ E.lower a ∈ sanskritCodes ∧ LastWithCode E b name)
      ∨ (¬ ∃ a b n, Hyphen tag a b ∧ E.lower a ∈ sanskritCodes ∧ LastWithCode E b n) ∧
        (E.lower tag ∈ sanskritCodes ∧ name = u! "Devanagari"
        ∨ E.lower tag ∉ sanskritCodes ∧ Greatest (LangAsksFor E tag) name)))

end Verif
