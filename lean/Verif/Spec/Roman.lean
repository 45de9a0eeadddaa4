import Verif.Spec.Core

/-!
# Specification: romanised text

How Indic text is spelled in a romanisation: every character stands for a sound; consonants carry
an inherent vowel unless a vowel sign or a virama follows; `_` keeps `a` apart from a following
vowel letter that begins with `i` or `u`.
-/

namespace Verif

/-- What a character of an Indic text stands for, with its spelling in the romanisation. -/
inductive Sound
  /-- consonant -/
  | cons (y : PyStr)
  /-- vowel letter -/
  | vowel (y : PyStr)
  /-- vowel sign -/
  | sign (y : PyStr)
  | virama
  /-- any other letter: anusvara, visarga, digits, dandas, ... -/
  | mark (y : PyStr)
  /-- not a letter of the script -/
  | other (c : Nat)
  deriving DecidableEq

/-- A letter of the section, spelled `y`. -/
def soundOf (s : Sec) (y : PyStr) : Sound :=
  match s.consonant, s.vowel, s.sign with
  | true, _, _ => .cons y
  | false, true, _ => .vowel y
  | false, false, true => match s with
    | .ViramaMap => .virama
    | _ => .sign y
  | false, false, false => .mark y

/-- The letters of `S`, each with its sound and the spelling at the same place of the table of `R`. -/
def soundTable (S R : PyStr) : List (PyStr × Sound) :=
  letterSecs.flatMap fun s => ((modAttr S s).zip (modAttr R s)).map fun p => (p.1, soundOf s p.2)

/-- The sound of a character. -/
def sound (S R : PyStr) (c : Nat) : Sound :=
  match (soundTable S R).lookup [c] with
  | some x => x
  | none => .other c

/-- The sounds of a text. -/
def sounds (S R : PyStr) (s : PyStr) : List Sound := s.map (sound S R)

/-- The letter at a place of a section (empty if there is none). -/
def letterAt (R : PyStr) (s : Sec) (i : Nat) : PyStr := (modAttr R s).getD i []

/-- The inherent vowel. -/
def inherentA (R : PyStr) : PyStr := letterAt R .VowelMap 0

/-- The characters that spell the short vowels i and u. -/
def charsIU (R : PyStr) : PyStr := letterAt R .VowelMap 2 ++ letterAt R .VowelMap 4

/-- `_` in front of a vowel letter that begins with `i` or `u`. -/
def separator (R : PyStr) : List Sound → List PyStr
  | .vowel (c :: _) :: _ => if c ∈ charsIU R then [u! "_"] else []
  | _ => []

/-- A vowel sign or a virama comes next. -/
def signed : List Sound → Bool
  | .sign _ :: _ => true
  | .virama :: _ => true
  | _ => false

/-- The spelling of the sounds, piece by piece. -/
def romanPieces (R : PyStr) : List Sound → List PyStr
  | [] => []
  | .cons y :: t => y :: ((if signed t then [] else inherentA R :: separator R t) ++ romanPieces R t)
  | .vowel y :: t => y :: ((if y = inherentA R then separator R t else []) ++ romanPieces R t)
  | .sign y :: t => y :: romanPieces R t
  | .virama :: t => romanPieces R t
  | .mark y :: t => y :: romanPieces R t
  | .other c :: t => [c] :: romanPieces R t

/-- The text of script `S`, spelled in the romanisation `R`. -/
def romanise (S R : PyStr) (s : PyStr) : PyStr := (romanPieces R (sounds S R s)).flatten

/-- May a sound follow another?  Vowel signs and viramas need a consonant, and a virama is not
followed by a vowel letter. -/
def mayFollow : Sound → Sound → Bool
  | .cons _, .sign _ => true
  | .cons _, .virama => true
  | _, .sign _ => false
  | _, .virama => false
  | .virama, .vowel _ => false
  | _, _ => true

/-- Every sound may follow the one before. -/
def formedAfter : Sound → List Sound → Bool
  | _, [] => true
  | x, y :: t => mayFollow x y && formedAfter y t

/-- Well-formed syllables. -/
def wellFormed (l : List Sound) : Bool := formedAfter (.other 32) l

/-- The unaspirated plosives k g c j ṭ ḍ t d p b. -/
def plosives (R : PyStr) : List PyStr := [0, 2, 5, 7, 10, 12, 15, 17, 20, 22].map (letterAt R .ConsonantMap)

/-- The spelling of h. -/
def letterH (R : PyStr) : PyStr := letterAt R .ConsonantMap 32

/-- A virama and h come next. -/
def joinedH (R : PyStr) : List Sound → Bool
  | .virama :: .cons z :: _ => (letterH R).isPrefixOf z
  | _ => false

/-- The spelling ends like an unaspirated plosive. -/
def endsPlosive (R : PyStr) (y : PyStr) : Bool := (plosives R).any fun p => p.getLast? == y.getLast?

/-- No plosive is joined to a following h (which would read as an aspirate). -/
def noFalseAspirate (R : PyStr) : List Sound → Bool
  | [] => true
  | .cons y :: t => !(endsPlosive R y && joinedH R t) && noFalseAspirate R t
  | _ :: t => noFalseAspirate R t

/-- The covered part of a romanisation. -/
structure RomanEntry where
  script : PyStr
  /-- spellings of consonants -/
  conss : List PyStr
  /-- spellings of vowels -/
  vowels : List PyStr
  /-- spellings of other letters -/
  marks : List PyStr
  /-- characters the romanisation has no use for -/
  free : PyStr
  /-- sequences the romanised text must not contain -/
  avoid : List PyStr
  /-- other ways to write the separated vowels of `a_i` and `a_u` -/
  hiatus : List (PyStr × PyStr)
  /-- characters that are read otherwise than written -/
  oneWay : PyStr

/-- The romanised text with separated vowels written the way of the romanisation. -/
def RomanEntry.write (r : RomanEntry) (t : PyStr) : PyStr := r.hiatus.foldl (fun t p => pyReplace t p.1 p.2) t

/-- The spelling of a sound is covered. -/
def Covered (r : RomanEntry) : Sound → Prop
  | .cons y => y ∈ r.conss
  | .vowel y => y ∈ r.vowels
  | .sign y => y ∈ r.vowels
  | .virama => True
  | .mark y => y ∈ r.marks
  | .other c => c ∈ r.free ∨ isNeutral c = true

/-- Text of an Indic script that can be romanised syllable by syllable. -/
structure RomanText (e : CoreEntry) (r : RomanEntry) (s : PyStr) : Prop where
  core : CoreText e s
  /-- no Om -/
  om : ¬ letterAt e.script .OmMap 0 <:+: s
  covered : ∀ x ∈ sounds e.script r.script s, Covered r x
  formed : wellFormed (sounds e.script r.script s) = true
  breath : noFalseAspirate r.script (sounds e.script r.script s) = true
  avoid : ∀ f ∈ r.avoid, ¬ f <:+: romanise e.script r.script s

/-- No two neighbours can be read together: the last character of a piece and the first one of the
next do not stand side by side in any of the letters. -/
def Apart (K : List PyStr) (P : List PyStr) : Prop :=
  ∀ p q, [p, q] <:+: P → ∀ x ∈ p.getLast?, ∀ y ∈ q.head?, ∀ k ∈ K, ¬ [x, y] <:+: k

/-- The letters of a romanisation. -/
def romanLetters (R : PyStr) : List PyStr := romanSecs.flatMap (modAttr R)

/-- Sequences with a meaning of their own in romanised text: joiners, Om. -/
def romanCodes (R : PyStr) : List PyStr := [u! "()", u! "{}", u! "[]", letterAt R .OmMap 0]

/-- Text whose romanised spelling can be read in one way only. -/
structure Readable (e : CoreEntry) (r : RomanEntry) (s : PyStr) : Prop extends RomanText e r s where
  /-- neighbouring letters do not run together -/
  apart : Apart (romanLetters r.script) (romanPieces r.script (sounds e.script r.script s))
  /-- `_` is written only before the short vowels i and u -/
  short : ∀ y, [u! "_", y] <:+: romanPieces r.script (sounds e.script r.script s) →
    y = letterAt r.script .VowelMap 2 ∨ y = letterAt r.script .VowelMap 4
  /-- no mark is spelled like a consonant -/
  marks : ∀ y, .mark y ∈ sounds e.script r.script s → y ∉ r.conss
  /-- no character is read otherwise than written -/
  plain : ∀ c ∈ romanise e.script r.script s, c ∉ r.oneWay
  /-- no sequence has a meaning of its own -/
  codes : ∀ f ∈ romanCodes r.script, ¬ f <:+: romanise e.script r.script s

/-- Texts in the letters of a romanisation, without the characters that are read otherwise. -/
def Spelt (r : RomanEntry) (t : PyStr) : Prop :=
  ∃ P : List PyStr, t = P.flatten ∧ ∀ p ∈ P, (∀ c ∈ p, c ∉ r.oneWay) ∧ (p ∈ r.conss ∨ p ∈ r.vowels ∨ p ∈ r.marks ∨
    p = u! "_" ∨ p = inherentA r.script ∨ ∃ c, p = [c] ∧ (c ∈ r.free ∨ isNeutral c = true))

/-- Where capital letters are read as small ones: lower-casing and composition leave texts in the
letters of the romanisation alone, with separated vowels written either way. -/
def Env.KeepsSpelt (E : Env) (r : RomanEntry) : Prop :=
  r.oneWay ≠ [] → ∀ t, Spelt r t → ∀ x ∈ [t, r.write t], E.host .lower x = .ok x ∧ E.host .nfc x = .ok x

end Verif
