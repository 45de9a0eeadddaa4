import Verif.Spec.Tables
import Verif.Spec.Neutral

/-!
# Specification: core text of a script

Core text is written with letters that stand for themselves: one code point, at one place of the
letter table, touched by no orthographic rule; and without the few letter sequences the
orthographic rules of the script rewrite.  `coreTable` (in `Verif.Spec.CoreTable`) lists letters
and sequences for every covered script.
-/

namespace Verif

/-- Core letters of a script and the sequences core text must not contain. -/
structure CoreEntry where
  script : PyStr
  /-- the core letters -/
  letters : PyStr
  /-- characters of `plainChars` the script uses for something else -/
  notPlain : PyStr
  /-- sequences core text does not contain -/
  forbid : List PyStr
  /-- letters that nativisation may change -/
  natDrop : PyStr
  /-- sequences that nativisation may change -/
  natForbid : List PyStr

/-- Blank, line feed, punctuation, ASCII digits and the Latin letters. -/
def plainChars : PyStr :=
  u! " \n,;:!?()-/+*=\"<>[]@#%&.0123456789ABCDEFGHIJKLMNOPQRSTUVWXYZabcdefghijklmnopqrstuvwxyz"

/-- The text is core text: core letters, plain characters and neutral characters only, no forbidden
sequence. -/
structure CoreText (e : CoreEntry) (s : PyStr) : Prop where
  chars : ∀ c ∈ s, c ∈ e.letters ∨ (c ∈ plainChars ∧ c ∉ e.notPlain) ∨ isNeutral c = true
  free : ∀ f ∈ e.forbid, ¬ f <:+: s

/-- Nativisation has nothing to change in the text. -/
structure NativeText (e : CoreEntry) (s : PyStr) : Prop where
  chars : ∀ c ∈ s, c ∉ e.natDrop
  free : ∀ f ∈ e.natForbid, ¬ f <:+: s

/-- All letters of a script, in the order of the table. -/
def letterList (S : PyStr) : List PyStr := letterSecs.flatMap (modAttr S)

/-- What a character becomes: the letter at the same place of the other table; characters that are
no letters stay. -/
def image (S T : PyStr) (c : Nat) : PyStr :=
  match ((letterList S).zip (letterList T)).lookup [c] with
  | some y => y
  | none => [c]

/-- The text, letter by letter in the other script. -/
def respell (S T : PyStr) (s : PyStr) : PyStr := s.flatMap (image S T)

/-- A character that is a core letter of `e` and a letter of `S` as well is the same letter in both
scripts.  Scripts with separate Unicode blocks are always compatible. -/
def Compatible (S : PyStr) (e : CoreEntry) : Prop :=
  ∀ d ∈ e.letters, ∀ y, ([d], y) ∈ (letterList S).zip (letterList e.script) → y = [d]

/-- The text is core text, and so is its spelling in the other script. -/
structure SharedText (a b : CoreEntry) (s : PyStr) : Prop where
  source : CoreText a s
  target : CoreText b (respell a.script b.script s)

end Verif
