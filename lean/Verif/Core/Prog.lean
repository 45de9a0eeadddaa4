import Verif.Core.Numerals

/-!
# Rewriting programs

Every text-transforming function of the code base is a fixed sequence of rewrites of one
string (`str.replace`, `re.sub`, a concatenation, ...), whose arguments are computed from
script names, flags and letter tables, never from the text.  Such a function is modelled
as a Lean function from those *static* arguments to a `Prog` (written in the `Gen` monad,
line by line as in Python), and `Prog.run` executes it on a text.  An exception raised while
computing a static argument becomes the instruction `fail` at that place.
-/

namespace Verif

/-- Python exceptions that occur. -/
inductive Exn where
  | attributeError | indexError | keyError | typeError | valueError | nameError
  /-- `re.error` -/
  | reError
  /-- `raise Exception(...)` of the code itself -/
  | exception
  /-- raised by a library outside the model -/
  | external
  deriving Repr, DecidableEq

/-- Operations on the text that are not modelled and are parameters of the model: Unicode
case mapping and normalisation, and third-party libraries. -/
inductive Host where
  | lower | upper | nfc | nfd
  /-- PreProcess.py:213-222 `KhmerWordSplit` (`khmernltk.word_tokenize`) -/
  | khmerSplit
  /-- PreProcess.py:754-801 `JapanesePreProcess` (`pykakasi`), for a given source -/
  | japanesePre (src : PyStr) (preoptions : List PyStr)
  /-- PostProcess.py:851- `JapanesePostProcess` (`kana2roman`) -/
  | japanesePost (src tgt : PyStr) (nativize : Bool) (postoptions : List PyStr)
  /-- the HTTP service of transliterate.py:553-556 -/
  | tamilIPA
  /-- PostProcess.py:3621-3633 `capitalizeSentence` (upper-cases its own matches) -/
  | capitalize
  /-- PostProcess.py:2427-2440 `GranthaPrakrit` (rewrites its own matches) -/
  | granthaPrakrit
  deriving Repr, DecidableEq

/-- Unicode case mapping and normalisation: the operations whose contract is stated below.  (The
other opaque operations call third-party libraries; programs using them are not analysed.) -/
def Host.isUnicode : Host → Bool
  | .lower => true
  | .upper => true
  | .nfc => true
  | .nfd => true
  | _ => false

/-- Everything the model does not compute. -/
structure Env where
  /-- Unicode predicates for `re` -/
  uni : Uni
  /-- the opaque text operations -/
  host : Host → PyStr → Except Exn PyStr
  /-- `str.lower()` on script, option and language names -/
  lower : PyStr → PyStr
  /-- the first character of a string in upper case (`s[0].upper()`) -/
  upperFirst : Nat → PyStr
  /-- `unicodedata.name`, `none` where it raises `ValueError` -/
  charName : Nat → Option PyStr
  /-- `fontTools.unicodedata.script` -/
  charScript : Nat → PyStr
  /-- `langcodes.find(name)`: the language tag, `none` when it raises -/
  findLang : PyStr → Option PyStr

/-- Conditions on the current text. -/
inductive Cond where
  | static (b : Bool)
  /-- `x in text` -/
  | has (x : PyStr)
  /-- `any(x in text for x in xs)` -/
  | hasAny (xs : List PyStr)
  | not (c : Cond)
  | and (a b : Cond)
  | or (a b : Cond)
  deriving Repr

/-- Truth of a condition on a text. -/
def Cond.eval (s : PyStr) : Cond → Bool
  | .static b => b
  | .has x => isInfix x s
  | .hasAny xs => xs.any fun x => isInfix x s
  | .not c => !(c.eval s)
  | .and a b => a.eval s && b.eval s
  | .or a b => a.eval s || b.eval s

/-- Text operations computed by dedicated Lean functions (`Verif.Core.Numerals`). -/
inductive Native where
  /-- decimal numbers in the text to Kharoshthi numerals -/
  | kharoshthiNumerals
  /-- decimal numbers in the text to Old Persian numerals -/
  | oldPersianNumeral
  deriving Repr, DecidableEq

/-- Meaning of the native operations. -/
def Native.sem (U : Uni) : Native → PyStr → PyStr
  | .kharoshthiNumerals => Verif.kharoshthiNumerals U
  | .oldPersianNumeral => Verif.oldPersianNumeral U

/-- Rewriting programs: instructions chained by continuation. -/
inductive Prog where
  | done
  /-- `text = text.replace(x, y)` -/
  | rep (x y : PyStr) (k : Prog)
  /-- `text = re.sub(pat, tmpl, text)` -/
  | sub (pat tmpl : PyStr) (k : Prog)
  /-- `text = text + y` -/
  | app (y : PyStr) (k : Prog)
  /-- `text = y + text` -/
  | pre (y : PyStr) (k : Prog)
  /-- `text = y` -/
  | set (y : PyStr) (k : Prog)
  /-- `if cond: ... else: ...` -/
  | ite (c : Cond) (t e : Prog) (k : Prog)
  /-- `try: text = p(text)` / `except AttributeError: pass` -/
  | attempt (p : Prog) (k : Prog)
  /-- split the text at `sep`, run `p` on every other piece starting with the first, and
  concatenate (the separators disappear) -/
  | evens (sep : PyStr) (p : Prog) (k : Prog)
  /-- `text = h(text)` -/
  | host (h : Host) (k : Prog)
  /-- `text = f(text)` for a modelled loop -/
  | nat (f : Native) (k : Prog)
  /-- an exception -/
  | fail (e : Exn)
  deriving Repr

/-- Run `f` on the pieces at even positions (`even` tells the parity of the first piece) and
concatenate. -/
def evensRun (f : PyStr → Except Exn PyStr) : Bool → List PyStr → Except Exn PyStr
  | _, [] => .ok []
  | true, w :: ws =>
    match f w with
    | .error e => .error e
    | .ok a =>
      match evensRun f false ws with
      | .error e => .error e
      | .ok b => .ok (a ++ b)
  | false, w :: ws =>
    match evensRun f true ws with
    | .error e => .error e
    | .ok b => .ok (w ++ b)

/-- Execute a program on a text. -/
def Prog.run (E : Env) : Prog → PyStr → Except Exn PyStr
  | .done, s => .ok s
  | .rep x y k, s => k.run E (pyReplace s x y)
  | .sub p t k, s =>
    match compileSub p t with
    | none => .error .reError
    | some (r, tm) => k.run E (reSubC E.uni r tm s)
  | .app y k, s => k.run E (s ++ y)
  | .pre y k, s => k.run E (y ++ s)
  | .set y k, _ => k.run E y
  | .ite c t e k, s =>
    match (match c.eval s with | true => t.run E s | false => e.run E s) with
    | .ok s' => k.run E s'
    | .error x => .error x
  | .attempt p k, s =>
    match p.run E s with
    | .ok s' => k.run E s'
    | .error .attributeError => k.run E s
    | .error x => .error x
  | .evens sep p k, s =>
    match evensRun (p.run E) true (pySplit s sep) with
    | .ok s' => k.run E s'
    | .error x => .error x
  | .host h k, s =>
    match E.host h s with
    | .ok s' => k.run E s'
    | .error x => .error x
  | .nat f k, s => k.run E (f.sem E.uni s)
  | .fail e, _ => .error e

/-- Sequential composition of programs. -/
def Prog.append : Prog → Prog → Prog
  | .done, q => q
  | .rep x y k, q => .rep x y (k.append q)
  | .sub p t k, q => .sub p t (k.append q)
  | .app y k, q => .app y (k.append q)
  | .pre y k, q => .pre y (k.append q)
  | .set y k, q => .set y (k.append q)
  | .ite c t e k, q => .ite c t e (k.append q)
  | .attempt p k, q => .attempt p (k.append q)
  | .evens sep p k, q => .evens sep p (k.append q)
  | .host h k, q => .host h (k.append q)
  | .nat f k, q => .nat f (k.append q)
  | .fail e, _ => .fail e

/-! ## The generator monad -/

/-- A Python function body: computes static values and emits instructions. -/
def Gen (α : Type) := (α → Prog) → Prog

instance : Monad Gen where
  pure a := fun k => k a
  bind x f := fun k => x fun a => f a k

/-- The program of a function body. -/
def Gen.prog (g : Gen Unit) : Prog := g fun _ => .done

/-- `Strng = Strng.replace(x, y)` -/
def replace (x y : PyStr) : Gen Unit := fun k => .rep x y (k ())
/-- `Strng = re.sub(p, t, Strng)` -/
def reSub (p t : PyStr) : Gen Unit := fun k => .sub p t (k ())
/-- `Strng = Strng + y` -/
def append (y : PyStr) : Gen Unit := fun k => .app y (k ())
/-- `Strng = y + Strng` -/
def prepend (y : PyStr) : Gen Unit := fun k => .pre y (k ())
/-- `Strng = y` -/
def setTo (y : PyStr) : Gen Unit := fun k => .set y (k ())
/-- a parameter operation -/
def host (h : Host) : Gen Unit := fun k => .host h (k ())
/-- a modelled loop over the text -/
def native (f : Native) : Gen Unit := fun k => .nat f (k ())
/-- `raise` -/
def fail {α : Type} (e : Exn) : Gen α := fun _ => .fail e

/-- `if c: t else: e` where `c` looks at the text. -/
def whenDyn (c : Cond) (t e : Gen Unit) : Gen Unit :=
  fun k => .ite c (t fun _ => .done) (e fun _ => .done) (k ())

/-- `try: g / except AttributeError: pass` -/
def tryAttr (g : Gen Unit) : Gen Unit := fun k => .attempt (g fun _ => .done) (k ())

/-- run `g` on the pieces at even positions of `text.split(sep)` and concatenate all pieces -/
def onEvens (sep : PyStr) (g : Gen Unit) : Gen Unit :=
  fun k => .evens sep (g fun _ => .done) (k ())

/-- `if c: t else: e` where `c` is static. -/
def branch {α : Type} (c : Bool) (t e : Gen α) : Gen α :=
  match c with
  | true => t
  | false => e

/-- `for x in l: body(x)` over a static list. -/
def forEach {α : Type} : List α → (α → Gen Unit) → Gen Unit
  | [], _ => fun k => k ()
  | x :: l, f => fun k => f x fun _ => forEach l f k

/-- A list comprehension whose element expression can raise. -/
def pmap {α β : Type} : List α → (α → Gen β) → Gen (List β)
  | [], _ => fun k => k []
  | x :: l, f => fun k => f x fun b => pmap l f fun bs => k (b :: bs)

/-- Python's `l[i]`. -/
def index {α : Type} (l : List α) (i : Int) : Gen α :=
  match pyIndex? l i with
  | some a => fun k => k a
  | none => fail .indexError

/-- Python's `s[i]` on a string: a one-character string. -/
def indexChar (l : PyStr) (i : Int) : Gen PyStr :=
  match pyIndex? l i with
  | some a => fun k => k [a]
  | none => fail .indexError

/-- A Unicode database that knows nothing, for regular expressions without Unicode classes. -/
def Uni.none : Uni := ⟨fun _ => false, fun _ => false, fun _ => 0, fun _ => false, fun _ => false⟩

/-- `re.sub(p, t, s)` on static strings (patterns without Unicode classes). -/
def staticReSub (p t s : PyStr) : Gen PyStr :=
  match reSub? Uni.none p t s with
  | some a => fun k => k a
  | none => fail .reError

/-- `unicodedata.normalize('NFD', c)` of the fourteen letters it is applied to statically
(PreProcess.py:253-257); other strings are returned unchanged. -/
def nfdLetter (s : PyStr) : PyStr :=
  match s with
  | [0xE5] => [97, 0x30A] | [0x1E99] => [121, 0x30A] | [0xE0] => [97, 0x300]
  | [0xE1] => [97, 0x301] | [0xE9] => [101, 0x301] | [0xED] => [105, 0x301]
  | [0xF3] => [111, 0x301] | [0xFA] => [117, 0x301] | [0xE8] => [101, 0x300]
  | [0xEC] => [105, 0x300] | [0xF2] => [111, 0x300] | [0xF9] => [117, 0x300]
  | [0x103] => [97, 0x306]
  | _ => s

/-- Python's `d[k]`. -/
def dictGet {β : Type} (d : List (PyStr × β)) (x : PyStr) : Gen β :=
  match dictGet? d x with
  | some a => fun k => k a
  | none => fail .keyError

end Verif
