import Verif.Core.Str

/-!
# Python's `re` module: pattern syntax, backtracking matcher, `re.sub`

The code builds patterns at run time by joining table entries with `|`, without escaping
them, so patterns are modelled as strings and parsed here exactly as CPython's `sre` does:
a table entry `.` really is a wildcard.  Supported: literals, `.`, classes, groups,
non-capturing groups, alternation, `? * + {m,n}` (greedy and lazy), look-ahead,
look-behind (fixed width only, as in CPython), back-references, `^ $ \b \B`,
`\s \S \w \W \d \D`.  A pattern or template CPython rejects is rejected here too
(`compileSub` returns `none`, which `Prog.run` turns into `re.error`).

`\w`, `\W`, `\b`, `\B`, `\d`, `\D` depend on the Unicode database, which is a parameter
(`Uni`), never computed with.
-/

namespace Verif

/-- The Unicode predicates `re` (and `regex`) need besides `isSpace`; a parameter of everything. -/
structure Uni where
  /-- `str.isalnum()` of a one-character string -/
  isAlnum : Nat → Bool
  /-- matched by `\d` -/
  isDigit : Nat → Bool
  /-- value of a decimal digit, as used by `int()` -/
  digitVal : Nat → Nat
  /-- `\p{L}` of the `regex` module -/
  isLetter : Nat → Bool
  /-- `\p{M}` of the `regex` module -/
  isMark : Nat → Bool

/-- One item of a character class. -/
inductive ClsItem where
  /-- the inclusive range `a-b` (a single character is `c-c`) -/
  | rng (a b : Nat)
  /-- `\s` / `\S` -/
  | space (neg : Bool)
  /-- `\w` / `\W` -/
  | word (neg : Bool)
  /-- `\d` / `\D` -/
  | digit (neg : Bool)
  /-- `\p{L}` (only in patterns the code gives to the `regex` module) -/
  | letter
  /-- `\p{M}` (only in patterns the code gives to the `regex` module) -/
  | mark
  deriving Repr, DecidableEq

/-- Parsed regular expressions. -/
inductive Re where
  | eps
  | chr (c : Nat)
  /-- `.`: anything but a newline -/
  | any
  | cls (neg : Bool) (items : List ClsItem)
  | seq (a b : Re)
  | alt (a b : Re)
  | grp (n : Nat) (r : Re)
  | ref (n : Nat)
  | rep (lo : Nat) (hi : Option Nat) (greedy : Bool) (r : Re)
  | lookahead (neg : Bool) (r : Re)
  /-- look-behind of the given (fixed) width -/
  | lookbehind (neg : Bool) (width : Nat) (r : Re)
  | bol
  | eol
  | wordb (neg : Bool)
  deriving Repr, DecidableEq

/-- Does a character belong to a class item? -/
def ClsItem.test (U : Uni) (c : Nat) : ClsItem → Bool
  | .rng a b => Nat.ble a c && Nat.ble c b
  | .space neg => isSpace c != neg
  | .word neg => (U.isAlnum c || c == 95) != neg
  | .digit neg => U.isDigit c != neg
  | .letter => U.isLetter c
  | .mark => U.isMark c

/-- Matcher state: text before the cursor (reversed), after it, and captured groups. -/
structure St where
  /-- consumed text, nearest first -/
  pre : PyStr
  /-- text still to be matched -/
  post : PyStr
  /-- captured groups, latest first -/
  caps : List (Nat × PyStr)

/-- Text captured by group `n`, if any. -/
def capOf (n : Nat) : List (Nat × PyStr) → Option PyStr
  | [] => none
  | (k, v) :: l => if Nat.beq k n then some v else capOf n l

/-- Advance over a literal block. -/
def eatBlock : PyStr → PyStr → PyStr → Option (PyStr × PyStr)
  | [], pre, post => some (pre, post)
  | _ :: _, _, [] => none
  | x :: xs, pre, c :: cs => if Nat.beq x c then eatBlock xs (c :: pre) cs else none

/-- Move the cursor back over `n` characters. -/
def moveBack : Nat → PyStr → PyStr → Option (PyStr × PyStr)
  | 0, pre, post => some (pre, post)
  | _ + 1, [], _ => none
  | n + 1, c :: pre, post => moveBack n pre (c :: post)

/-- Is the cursor at a word boundary? -/
def atWordB (U : Uni) (pre post : PyStr) : Bool :=
  let w : PyStr → Bool := fun l => match l with
    | [] => false
    | c :: _ => U.isAlnum c || c == 95
  w pre != w post

/-- The loop of a quantified expression whose body is matched by `f`; `fuel` bounds the
number of iterations (past the minimum, an iteration that consumes nothing is the last). -/
def repLoop (f : St → (St → Option St) → Option St) (lo : Nat) (hi : Option Nat) (greedy : Bool) :
    Nat → Nat → St → (St → Option St) → Option St
  | 0, _, st, k => k st
  | fuel + 1, cnt, st, k =>
    if cnt < lo then f st (fun st' => repLoop f lo hi greedy fuel (cnt + 1) st' k)
    else if hi = some cnt then k st
    else
      let more := fun (_ : Unit) => f st (fun st' =>
        if st'.post.length = st.post.length then k st'
        else repLoop f lo hi greedy fuel (cnt + 1) st' k)
      if greedy then (match more () with | some r => some r | none => k st)
      else (match k st with | some r => some r | none => more ())

/-- Backtracking matcher in continuation-passing style: the first success in CPython's
search order. -/
def Re.m (U : Uni) : Re → St → (St → Option St) → Option St
  | .eps, st, k => k st
  | .chr c, st, k =>
    match st.post with
    | [] => none
    | d :: cs => if Nat.beq c d then k { st with pre := d :: st.pre, post := cs } else none
  | .any, st, k =>
    match st.post with
    | [] => none
    | d :: cs => if Nat.beq d 10 then none else k { st with pre := d :: st.pre, post := cs }
  | .cls neg items, st, k =>
    match st.post with
    | [] => none
    | d :: cs =>
      if (items.any (ClsItem.test U d)) != neg then k { st with pre := d :: st.pre, post := cs }
      else none
  | .seq a b, st, k => Re.m U a st (fun st' => Re.m U b st' k)
  | .alt a b, st, k =>
    match Re.m U a st k with
    | some r => some r
    | none => Re.m U b st k
  | .grp n r, st, k =>
    Re.m U r st (fun st' =>
      k { st' with caps := (n, st.post.take (st.post.length - st'.post.length)) :: st'.caps })
  | .ref n, st, k =>
    match capOf n st.caps with
    | none => none
    | some v =>
      match eatBlock v st.pre st.post with
      | none => none
      | some (pre, post) => k { st with pre := pre, post := post }
  | .rep lo hi greedy r, st, k =>
    repLoop (Re.m U r) lo hi greedy (lo + st.post.length + 1) 0 st k
  | .lookahead neg r, st, k =>
    match Re.m U r st some with
    | some st' => if neg then none else k { st with caps := st'.caps }
    | none => if neg then k st else none
  | .lookbehind neg w r, st, k =>
    match moveBack w st.pre st.post with
    | none => if neg then k st else none
    | some (pre, post) =>
      match Re.m U r { st with pre := pre, post := post } some with
      | some st' => if neg then none else k { st with caps := st'.caps }
      | none => if neg then k st else none
  | .bol, st, k => if st.pre.isEmpty then k st else none
  | .eol, st, k =>
    match st.post with
    | [] => k st
    | [c] => if Nat.beq c 10 then k st else none
    | _ => none
  | .wordb neg, st, k =>
    -- CPython: neither `\b` nor `\B` matches in an empty string
    if st.pre.isEmpty && st.post.isEmpty then none
    else if atWordB U st.pre st.post != neg then k st else none

/-! ## Pattern syntax -/

/-- What an opening parenthesis starts. -/
inductive Opn where
  | cap | noncap
  | ahead (neg : Bool) | behind (neg : Bool)
  deriving Repr, DecidableEq

/-- Tokens of a pattern. -/
inductive Tok where
  | atom (r : Re)
  | assert (r : Re)
  | ref (n : Nat)
  | opn (o : Opn)
  | cls_ | bar
  | quant (lo : Nat) (hi : Option Nat)
  | lazyMark
  deriving Repr, DecidableEq

/-- Tokenizer mode: ordinary, or inside `[...]`. -/
inductive Mode where
  | norm
  | cls (neg first : Bool) (items : List ClsItem)
  deriving Repr

/-- ASCII digit test. -/
def isDig (c : Nat) : Bool := Nat.ble 48 c && Nat.ble c 57

/-- ASCII letter test. -/
def isAsciiLetter (c : Nat) : Bool :=
  (Nat.ble 65 c && Nat.ble c 90) || (Nat.ble 97 c && Nat.ble c 122)

/-- Read decimal digits: value, number of digits, rest. -/
def readNum : Nat → Nat → PyStr → Nat × Nat × PyStr
  | v, n, [] => (v, n, [])
  | v, n, c :: cs => if isDig c then readNum (v * 10 + (c - 48)) (n + 1) cs else (v, n, c :: cs)

/-- Parse what follows `{` of a bounded repeat: bounds and number of characters used. -/
def parseBrace (s : PyStr) : Option (Nat × Option Nat × Nat) :=
  match readNum 0 0 s with
  | (lo, n, 125 :: _) => if n = 0 then none else some (lo, some lo, n + 1)
  | (lo, n, 44 :: rest) =>
    match readNum 0 0 rest with
    | (hi, n2, 125 :: _) => some (lo, if n2 = 0 then none else some hi, n + 1 + n2 + 1)
    | _ => none
  | _ => none

/-- Class escapes `\s \S \w \W \d \D`. -/
def escClass (c : Nat) : Option ClsItem :=
  match c with
  | 115 => some (.space false)
  | 83 => some (.space true)
  | 119 => some (.word false)
  | 87 => some (.word true)
  | 100 => some (.digit false)
  | 68 => some (.digit true)
  | _ => none

/-- Control-character escapes `\a \b \f \n \r \t \v` (`\b` only inside a class). -/
def escCtl (c : Nat) : Option Nat :=
  match c with
  | 97 => some 7
  | 102 => some 12
  | 110 => some 10
  | 114 => some 13
  | 116 => some 9
  | 118 => some 11
  | _ => none

/-- `\p{L}` and `\p{M}` after the backslash: the class and the number of characters used.
CPython's `re` rejects `\p`; the code uses it only with the `regex` module. -/
def escProp : PyStr → Option (ClsItem × Nat)
  | 112 :: 123 :: 76 :: 125 :: _ => some (.letter, 4)
  | 112 :: 123 :: 77 :: 125 :: _ => some (.mark, 4)
  | _ => none

/-- Character denoted by an escape inside a class; letters that are not escapes are errors. -/
def escChar (c : Nat) : Option Nat :=
  match escCtl c with
  | some d => some d
  | none => if isAsciiLetter c || isDig c then none else some c

/-- Bit set of the characters with a meaning in patterns: `$ ( ) * + . ? [ \ ^ { |`. -/
def metaMask : Nat := 31901471926072661823193194461501849600

/-- Does the character have a meaning in patterns (outside classes)? -/
def isMeta (c : Nat) : Bool :=
  match Nat.ble 128 c with
  | true => false
  | false => Nat.beq (Nat.land 1 (Nat.shiftRight metaMask c)) 1

/-- A token before the rest. -/
def consTok (t : Tok) (l : Option (List Tok)) : Option (List Tok) :=
  match l with
  | some l => some (t :: l)
  | none => none

/-- The end of the pattern. -/
def endTok (m : Mode) : Option (List Tok) :=
  match m with
  | .norm => some []
  | .cls .. => none

/-- Inside a class: what the left end `a` of a possible range, followed by `rest`, starts.
`n` characters after `c` have been read. -/
def clsRange (rest : PyStr) (go : Nat → Mode → Option (List Tok)) (neg : Bool) (items : List ClsItem) (n a : Nat) :
    Option (List Tok) :=
  match rest with
  | [] => go n (.cls neg false (.rng a a :: items))
  | x :: rest =>
    cond (Nat.beq x 45)
      (match rest with
      | [] => go n (.cls neg false (.rng a a :: items))
      | b :: rest =>
        cond (Nat.beq b 93) (go n (.cls neg false (.rng a a :: items)))
        (cond (Nat.beq b 92)
          (match rest with
          | [] => cond (Nat.ble a 92) (go (n + 2) (.cls neg false (.rng a 92 :: items))) none
          | e :: _ =>
            match escChar e with
            | some b => cond (Nat.ble a b) (go (n + 3) (.cls neg false (.rng a b :: items))) none
            | none => none)
          (cond (Nat.ble a b) (go (n + 2) (.cls neg false (.rng a b :: items))) none)))
      (go n (.cls neg false (.rng a a :: items)))

/-- Inside a class: an escape, `cs` after the backslash. -/
def clsEsc (cs : PyStr) (go : Nat → Mode → Option (List Tok)) (neg : Bool) (items : List ClsItem) : Option (List Tok) :=
  match cs with
  | [] => none
  | d :: rest =>
    match escClass d with
    | some it => go 1 (.cls neg false (it :: items))
    | none =>
      match escProp cs with
      | some (it, n) => go n (.cls neg false (it :: items))
      | none =>
        cond (Nat.beq d 98) (clsRange rest go neg items 1 8)
          (match escChar d with
          | some a => clsRange rest go neg items 1 a
          | none => none)

/-- Inside a class, at `c :: cs`. -/
def clsStep (c : Nat) (cs : PyStr) (go : Nat → Mode → Option (List Tok)) (neg first : Bool) (items : List ClsItem) :
    Option (List Tok) :=
  cond (Nat.beq c 93 && !first) (consTok (.atom (.cls neg items.reverse)) (go 0 .norm))
  (cond (Nat.beq c 92) (clsEsc cs go neg items) (clsRange cs go neg items 0 c))

/-- Outside classes: an escape, `cs` after the backslash. -/
def escStep (cs : PyStr) (go : Nat → Mode → Option (List Tok)) : Option (List Tok) :=
  match cs with
  | [] => none
  | d :: rest =>
    match escClass d with
    | some it => consTok (.atom (.cls false [it])) (go 1 .norm)
    | none =>
      match escProp cs with
      | some (it, n) => consTok (.atom (.cls false [it])) (go n .norm)
      | none =>
      cond (Nat.beq d 98) (consTok (.assert (.wordb false)) (go 1 .norm))
        (cond (Nat.beq d 66) (consTok (.assert (.wordb true)) (go 1 .norm))
        (cond (isDig d)
        (cond (Nat.beq d 48) none
          (match rest with
          | e :: _ =>
            cond (isDig e) (consTok (.ref ((d - 48) * 10 + (e - 48))) (go 2 .norm)) (consTok (.ref (d - 48)) (go 1 .norm))
          | [] => consTok (.ref (d - 48)) (go 1 .norm)))
        (match escChar d with
        | some e => consTok (.atom (.chr e)) (go 1 .norm)
        | none => none)))

/-- After `(`. -/
def opnStep (cs : PyStr) (go : Nat → Mode → Option (List Tok)) : Option (List Tok) :=
  match cs with
  | [] => consTok (.opn .cap) (go 0 .norm)
  | x :: cs =>
    cond (Nat.beq x 63)
      (match cs with
      | [] => none
      | y :: cs =>
        cond (Nat.beq y 58) (consTok (.opn .noncap) (go 2 .norm))
        (cond (Nat.beq y 61) (consTok (.opn (.ahead false)) (go 2 .norm))
        (cond (Nat.beq y 33) (consTok (.opn (.ahead true)) (go 2 .norm))
        (cond (Nat.beq y 60)
          (match cs with
          | [] => none
          | z :: _ =>
            cond (Nat.beq z 61) (consTok (.opn (.behind false)) (go 3 .norm))
            (cond (Nat.beq z 33) (consTok (.opn (.behind true)) (go 3 .norm)) none))
          none))))
      (consTok (.opn .cap) (go 0 .norm))

/-- After `[`. -/
def brkStep (cs : PyStr) (go : Nat → Mode → Option (List Tok)) : Option (List Tok) :=
  match cs with
  | [] => go 0 (.cls false true [])
  | x :: _ => cond (Nat.beq x 94) (go 1 (.cls true true [])) (go 0 (.cls false true []))

/-- Outside classes, at a character with a meaning followed by `cs`. -/
def metaStep (c : Nat) (cs : PyStr) (go : Nat → Mode → Option (List Tok)) : Option (List Tok) :=
  cond (Nat.beq c 91) (brkStep cs go)
  (cond (Nat.beq c 40) (opnStep cs go)
  (cond (Nat.beq c 41) (consTok .cls_ (go 0 .norm))
  (cond (Nat.beq c 92) (escStep cs go)
  (cond (Nat.beq c 46) (consTok (.atom .any) (go 0 .norm))
  (cond (Nat.beq c 94) (consTok (.assert .bol) (go 0 .norm))
  (cond (Nat.beq c 36) (consTok (.assert .eol) (go 0 .norm))
  (cond (Nat.beq c 63) (consTok (.quant 0 (some 1)) (go 0 .norm))
  (cond (Nat.beq c 42) (consTok (.quant 0 none) (go 0 .norm))
  (cond (Nat.beq c 43) (consTok (.quant 1 none) (go 0 .norm))
  (match parseBrace cs with
    | some (lo, hi, n) => consTok (.quant lo hi) (go n .norm)
    | none => consTok (.atom (.chr 123)) (go 0 .norm)))))))))))

/-- One step of the tokenizer at `c :: cs`; `go` reads `cs`. -/
def tokStep (c : Nat) (cs : PyStr) (go : Nat → Mode → Option (List Tok)) (skip : Nat) (m : Mode) : Option (List Tok) :=
  cond (Nat.beq skip 0)
    (match m with
    | .norm =>
      cond (Nat.beq c 124) (consTok .bar (go 0 .norm))
      (cond (isMeta c) (metaStep c cs go) (consTok (.atom (.chr c)) (go 0 .norm)))
    | .cls neg first items => clsStep c cs go neg first items)
    (go (Nat.sub skip 1) m)

/-- Tokenizer: the pattern, the number of characters to skip, the mode (for evaluation). -/
def tokenizeExec : PyStr → Nat → Mode → Option (List Tok)
  | [] => fun _ m => endTok m
  | c :: cs => tokStep c cs (tokenizeExec cs)

/-- Tokenizer: the pattern, the number of characters to skip, the mode.  (The steps are functions of
their own, tests are Boolean and the recursion is the recursor's, so that the kernel evaluates it
quickly.) -/
noncomputable def tokenize (p : PyStr) : Nat → Mode → Option (List Tok) :=
  @List.rec Nat (fun _ => Nat → Mode → Option (List Tok)) (fun _ m => endTok m) tokStep p

@[csimp] theorem tokenize_exec : @tokenize = @tokenizeExec := by
  funext p
  induction p with
  | nil => rfl
  | cons c cs ih => simp only [tokenizeExec, ← ih]; rfl

/-- Minimal and maximal width of the strings an expression can consume (`none`: unbounded
or unknown). -/
def Re.width : Re → Nat × Option Nat
  | .eps => (0, some 0)
  | .chr _ => (1, some 1)
  | .any => (1, some 1)
  | .cls .. => (1, some 1)
  | .seq a b =>
    let (l, h) := a.width
    let (l', h') := b.width
    (l + l', match h, h' with | some x, some y => some (x + y) | _, _ => none)
  | .alt a b =>
    let (l, h) := a.width
    let (l', h') := b.width
    (min l l', match h, h' with | some x, some y => some (max x y) | _, _ => none)
  | .grp _ r => r.width
  | .ref _ => (0, none)
  | .rep lo hi _ r =>
    let (l, h) := r.width
    (lo * l, match hi, h with | some x, some y => some (x * y) | none, some 0 => some 0 | _, _ => none)
  | .lookahead .. => (0, some 0)
  | .lookbehind .. => (0, some 0)
  | .bol => (0, some 0)
  | .eol => (0, some 0)
  | .wordb _ => (0, some 0)

/-- Concatenation of a (reversed) list of items. -/
def seqOf (rev : List Re) : Re :=
  match rev with
  | [] => .eps
  | r :: rs => rs.foldl (fun acc x => .seq x acc) r

/-- Alternation of a (reversed) non-empty list of alternatives. -/
def altOf (rev : List Re) : Re :=
  match rev with
  | [] => .eps
  | r :: rs => rs.foldl (fun acc x => .alt x acc) r

/-- An open parenthesis during parsing: what it is, finished alternatives (reversed),
items of the current alternative (reversed). -/
structure Frame where
  /-- kind of parenthesis; `none` for the whole pattern -/
  kind : Option (Opn × Nat)
  /-- finished alternatives -/
  alts : List Re
  /-- current alternative -/
  cur : List Re

/-- Parser state: current frame, enclosing frames, number of groups opened. -/
structure PSt where
  /-- innermost frame -/
  top : Frame
  /-- enclosing frames -/
  stack : List Frame
  /-- groups opened so far -/
  ngroups : Nat
  /-- was the last token a quantifier that may still become lazy? -/
  quantJust : Bool

/-- What a closing parenthesis makes of the group `r`. -/
def closeGrp (o : Opn) (n : Nat) (r : Re) : Option Re :=
  match o with
  | .cap => some (.grp n r)
  | .noncap => some r
  | .ahead neg => some (.lookahead neg r)
  | .behind neg =>
    match r.width with
    | (l, some h) => cond (Nat.beq l h) (some (.lookbehind neg l r)) none
    | _ => none

/-- A quantifier after the items `cur`; the flag tells whether it may become lazy. -/
def quantOf (lo : Nat) (hi : Option Nat) (quantJust : Bool) (cur : List Re) : Option (List Re × Bool) :=
  match cur with
  | [] => none
  | r :: rs =>
    cond quantJust
      (match lo, hi, r with
      | 0, some 1, .rep l h true b => some (.rep l h false b :: rs, false)
      | _, _, _ => none)
      (match r with
      | .rep .. => none
      | .bol => none
      | .eol => none
      | .wordb _ => none
      | .eps => none
      | _ => some (.rep lo hi true r :: rs, true))

/-- One step of the parser; `go` is the parser on the other tokens.  The state is the kind of the
innermost frame, its alternatives and items, the enclosing frames, the number of groups and
`quantJust`. -/
def pstep (t : Tok) (go : Option (Opn × Nat) → List Re → List Re → List Frame → Nat → Bool → Option PSt)
    (kind : Option (Opn × Nat)) (alts cur : List Re) (stack : List Frame) (ng : Nat) (quantJust : Bool) : Option PSt :=
  match t with
  | .atom r => go kind alts (r :: cur) stack ng false
  | .assert r => go kind alts (r :: cur) stack ng false
  | .ref n =>
    let isOpen := (⟨kind, alts, cur⟩ :: stack).any fun f => match f.kind with
      | some (.cap, k) => Nat.beq k n
      | _ => false
    cond (Nat.ble n ng && !isOpen) (go kind alts (.ref n :: cur) stack ng false) none
  | .bar => go kind (seqOf cur :: alts) [] stack ng false
  | .opn o =>
    match o with
    | .cap => go (some (.cap, ng + 1)) [] [] (⟨kind, alts, cur⟩ :: stack) (ng + 1) false
    | o => go (some (o, ng)) [] [] (⟨kind, alts, cur⟩ :: stack) ng false
  | .cls_ =>
    match kind, stack with
    | some (o, n), ⟨kind', alts', cur'⟩ :: fs =>
      match closeGrp o n (altOf (seqOf cur :: alts)) with
      | some r => go kind' alts' (r :: cur') fs ng false
      | none => none
    | _, _ => none
  | .quant lo hi =>
    match quantOf lo hi quantJust cur with
    | some (cur', q) => go kind alts cur' stack ng q
    | none => none
  | .lazyMark => none

/-- Fold of the parser over the tokens (for evaluation). -/
def pfoldExec : List Tok → Option (Opn × Nat) → List Re → List Re → List Frame → Nat → Bool → Option PSt
  | [] => fun kind alts cur stack ng q => some ⟨⟨kind, alts, cur⟩, stack, ng, q⟩
  | t :: ts => pstep t (pfoldExec ts)

/-- Fold of the parser over the tokens. -/
noncomputable def pfold (ts : List Tok) :
    Option (Opn × Nat) → List Re → List Re → List Frame → Nat → Bool → Option PSt :=
  @List.rec Tok (fun _ => Option (Opn × Nat) → List Re → List Re → List Frame → Nat → Bool → Option PSt)
    (fun kind alts cur stack ng q => some ⟨⟨kind, alts, cur⟩, stack, ng, q⟩) (fun t _ ih => pstep t ih) ts

@[csimp] theorem pfold_exec : @pfold = @pfoldExec := by
  funext ts
  induction ts with
  | nil => rfl
  | cons t ts ih => simp only [pfoldExec, ← ih]; rfl

/-- Parse a pattern: the expression and its number of groups. -/
def parseRe (p : PyStr) : Option (Re × Nat) :=
  match tokenize p 0 .norm with
  | none => none
  | some ts =>
    match pfold ts none [] [] [] 0 false with
    | none => none
    | some s =>
      match s.stack with
      | [] => some (altOf (seqOf s.top.cur :: s.top.alts), s.ngroups)
      | _ => none

/-! ## Replacement templates -/

/-- Piece of a replacement template. -/
inductive TItem where
  | lit (c : Nat)
  | ref (n : Nat)
  deriving Repr, DecidableEq

/-- Parse a replacement template for a pattern with `ng` groups. -/
def parseTmpl (ng : Nat) : Nat → PyStr → Option (List TItem)
  | _, [] => some []
  | skip + 1, _ :: cs => parseTmpl ng skip cs
  | 0, c :: cs =>
    if c = 92 then
      match cs with
      | [] => none
      | d :: rest =>
        if isDig d then
          if d = 48 then none
          else
            let one := d - 48
            match rest with
            | e :: _ =>
              if isDig e then
                let n := one * 10 + (e - 48)
                if n ≤ ng then (parseTmpl ng 2 cs).map (.ref n :: ·) else none
              else if one ≤ ng then (parseTmpl ng 1 cs).map (.ref one :: ·) else none
            | [] => if one ≤ ng then (parseTmpl ng 1 cs).map (.ref one :: ·) else none
        else match escCtl d with
          | some e => (parseTmpl ng 1 cs).map (.lit e :: ·)
          | none =>
            if d = 92 then (parseTmpl ng 1 cs).map (.lit 92 :: ·)
            else if isAsciiLetter d then none
            else (parseTmpl ng 1 cs).map (fun l => .lit 92 :: .lit d :: l)
    else (parseTmpl ng 0 cs).map (.lit c :: ·)

/-- Expand a template with the captured groups (an unmatched group is empty). -/
def expand (caps : List (Nat × PyStr)) : List TItem → PyStr
  | [] => []
  | .lit c :: l => c :: expand caps l
  | .ref n :: l => (capOf n caps).getD [] ++ expand caps l

/-- The scan of `re.sub`: leftmost matches, non-overlapping; after an empty match the next
match at the same place must be non-empty (Python ≥ 3.7). -/
def subGo (U : Uni) (r : Re) (tm : List TItem) : Nat → Bool → PyStr → PyStr → PyStr
  | 0, _, _, post => post
  | fuel + 1, adv, pre, post =>
    match r.m U ⟨pre, post, []⟩
        (fun s => if adv && s.post.length == post.length then none else some s) with
    | some s => expand s.caps tm ++ subGo U r tm fuel (s.post.length == post.length) s.pre s.post
    | none =>
      match post with
      | [] => []
      | c :: cs => c :: subGo U r tm fuel false (c :: pre) cs

/-- Compile a pattern and a template; `none` where CPython raises `re.error`. -/
def compileSub (pat tmpl : PyStr) : Option (Re × List TItem) :=
  match parseRe pat with
  | none => none
  | some (r, ng) =>
    match parseTmpl ng 0 tmpl with
    | none => none
    | some t => some (r, t)

/-- `re.sub(pat, tmpl, s)` on compiled arguments. -/
def reSubC (U : Uni) (r : Re) (t : List TItem) (s : PyStr) : PyStr :=
  subGo U r t (2 * s.length + 2) false [] s

/-- `re.sub(pat, tmpl, s)`; `none` is `re.error`. -/
def reSub? (U : Uni) (pat tmpl s : PyStr) : Option PyStr :=
  (compileSub pat tmpl).map fun (r, t) => reSubC U r t s

end Verif
