import Verif.Model.Transliterate

/-!
# transliterate.py: script detection and the `process` entry point
-/

namespace Verif

/-! ## `auto_detect` (transliterate.py:42-196) -/

/-- ASCII lower case of a code point (Unicode character names are ASCII). -/
def asciiLowerC (c : Nat) : Nat :=
  match Nat.ble 65 c && Nat.ble c 90 with
  | true => c + 32
  | false => c

/-- ASCII upper case of a code point. -/
def asciiUpperC (c : Nat) : Nat :=
  match Nat.ble 97 c && Nat.ble c 122 with
  | true => c - 32
  | false => c

/-- `s.lower()` for an ASCII string. -/
def asciiLower (s : PyStr) : PyStr := s.map asciiLowerC

/-- transliterate.py:45-54: the script word of a character: the first word of its Unicode name in
lower case, or the second one if the first is "old"; nothing for a character without name.
(A one-word name `OLD` would raise `IndexError`; there is none.) -/
def scriptWord (E : Env) (c : Nat) : Option PyStr :=
  match E.charName c with
  | none => none
  | some n =>
    match (pySplit n (u! " ")).map asciiLower with
    | [] => none
    | w :: ws =>
      match strEq w (u! "old") with
      | false => some w
      | true => ws.head?

/-- The words of all named characters of the text. -/
def scriptWords (E : Env) (text : PyStr) : List PyStr := text.filterMap (scriptWord E)

/-- Number of occurrences. -/
def countStr (w : PyStr) : List PyStr → Nat
  | [] => 0
  | x :: l =>
    match strEq x w with
    | true => countStr w l + 1
    | false => countStr w l

/-- Comparison of `(percent, script)` tuples.  Percentages of the same total compare as the
counts do (simplification: floating-point percentages of texts of more than 2^50 characters). -/
def rankLe (p q : Nat × PyStr) : Bool :=
  match Nat.beq p.1 q.1 with
  | true => strLe p.2 q.2
  | false => Nat.ble p.1 q.1

/-- Insert a new key at the end (`Counter` keys in order of first occurrence). -/
def addKey (l : List PyStr) (w : PyStr) : List PyStr :=
  match strMem w l with
  | true => l
  | false => l ++ [w]

/-- The distinct words in order of first occurrence. -/
def distinct (l : List PyStr) : List PyStr := l.foldl addKey []

/-- transliterate.py:56-61: the items of the counter as `(count, script)` -/
def scriptCounts (words : List PyStr) : List (Nat × PyStr) :=
  (distinct words).map fun w => (countStr w words, w)

/-- `sorted(script_percent)` -/
def sortedCounts (words : List PyStr) : List (Nat × PyStr) := stableSort rankLe (scriptCounts words)

/-- transliterate.py:65-78: the word of the majority script; `IndexError` for `plugin` when the
text has only Latin letters -/
def majorityWord (plugin : Bool) (words : List PyStr) : Except Exn PyStr :=
  match (sortedCounts words).reverse with
  | [] => .ok []
  | (_, w) :: rest =>
    match plugin && strEq w (u! "latin") with
    | false => .ok w
    | true =>
      match rest with
      | (_, w2) :: _ => .ok w2
      | [] => .error .indexError

/-- transliterate.py:80: `script[0].upper() + script[1:]`; `IndexError` on the empty string -/
def capitalizeFirst : PyStr → Except Exn PyStr
  | [] => .error .indexError
  | c :: s => .ok (asciiUpperC c :: s)

/-- `any(x in text for x in xs)` -/
def anyIn (xs : List PyStr) (text : PyStr) : Bool := xs.any fun x => isInfix x text

/-- transliterate.py:103-113: the loop over a Myanmar text; `last` is the variable `char` (its
value is kept when a character has no name; unbound at first) -/
def myanmarCount (E : Env) : Option PyStr → Nat × Nat × Nat → PyStr → Except Exn (Nat × Nat × Nat)
  | _, n, [] => .ok n
  | last, (a, b, c), u :: text =>
    match (match E.charName u with
      | some n => some (asciiLower n)
      | none => last) with
    | none => .error .nameError
    | some ch =>
      match isInfix (u! "shan") ch, isInfix (u! "tai laing") ch, isInfix (u! "khamti") ch with
      | true, _, _ => myanmarCount E (some ch) (a + 1, b, c) text
      | false, true, _ => myanmarCount E (some ch) (a, b + 1, c) text
      | false, false, true => myanmarCount E (some ch) (a, b, c + 1) text
      | false, false, false => myanmarCount E (some ch) (a, b, c) text

/-- transliterate.py:115-119: the last of the stably sorted counters, if any is positive -/
def myanmarPick (dflt : PyStr) : Nat × Nat × Nat → PyStr
  | (a, b, c) =>
    match Nat.beq a 0 && Nat.beq b 0 && Nat.beq c 0 with
    | true => dflt
    | false =>
      match Nat.ble a c && Nat.ble b c, Nat.ble a b with
      | true, _ => u! "KhamtiShan"
      | false, true => u! "TaiLaing"
      | false, false => u! "Shan"

/-- transliterate.py:92-119 -/
def detectMyanmar (E : Env) (text : PyStr) : Except Exn PyStr :=
  let dflt := match anyIn us!["ၚ", "ၛ", "္ည", "ၞ", "ၟ", "ၠ", "ဳ", "ဨ"] text with
    | true => u! "Mon"
    | false => u! "Burmese"
  match myanmarCount E none (0, 0, 0) (pyReplace text (u! "ႃ") []) with
  | .error e => .error e
  | .ok n => .ok (myanmarPick dflt n)

/-- transliterate.py:150-157 -/
def detectSyriac (text : PyStr) : PyStr :=
  match anyIn us!["ܰ", "ܺ", "ܶ", "ّ", "ܽ"] text, anyIn us!["ܲ", "ܵ", "ܝܼ", "ܘܼ", "ܸ", "ܹ", "ܘܿ"] text with
  | true, _ => u! "Syrj"
  | false, true => u! "Syrn"
  | false, false => u! "Syre"

/-- transliterate.py:158-168 -/
def detectArabic (text : PyStr) : PyStr :=
  match anyIn us!["ݨ", "لؕ", "مھ", "نھ", "یھ", "رھ", "لھ", "وھ"] text, anyIn us!["ڈ", "ٹ", "ڑ", "ھ"] text,
      anyIn us!["چ", "گ", "ژ", "پ", "هٔ"] text with
  | true, _, _ => u! "Shahmukhi"
  | false, true, _ => u! "Urdu"
  | false, false, true => u! "Arab-Fa"
  | false, false, false => u! "Arab"

/-- transliterate.py:169-188 -/
def detectLatin (text : PyStr) : PyStr :=
  match isInfix (u! "ʰ") text with
  | true => u! "Titus"
  | false =>
  match anyIn us!["ʾ", "ʿ", "š", "w"] text with
  | true => u! "Latn"
  | false =>
  match anyIn us!["´", "˝", "ʻ"] text with
  | true => u! "BurmeseRomanLoC"
  | false =>
  match anyIn us!["ā", "ī", "ū", "ṃ", "ḥ", "ś", "ṣ", "ṇ", "ṛ", "ṝ", "ḷ", "ḹ", "ḻ", "ṉ", "ṟ", "ṭ", "ḍ", "ṅ", "ñ"] text with
  | true =>
    match isInfix (u! "ē") text || isInfix (u! "ō") text || isInfix (u! "r̥") text with
    | true => u! "ISO"
    | false => u! "IAST"
  | false =>
  match anyIn us!["R^i", "R^I", "L^i", "L^I", ".N", "~N", "~n", "Ch", "sh", "Sh"] text with
  | true => u! "Itrans"
  | false => u! "HK"

/-- transliterate.py:90-149: the scripts whose Unicode word and name differ -/
def renamedScripts : List (PyStr × PyStr) := [
  ((u! "Batak"), (u! "BatakKaro")), ((u! "Meetei"), (u! "MeeteiMayek")), ((u! "Dives"), (u! "DivesAkuru")),
  ((u! "Persian"), (u! "OldPersian")), ((u! "Phags-pa"), (u! "PhagsPa")), ((u! "Ol"), (u! "Santali")),
  ((u! "Sora"), (u! "SoraSompeng")), ((u! "Syloti"), (u! "SylotiNagri")), ((u! "Tai"), (u! "TaiTham")),
  ((u! "Warang"), (u! "WarangCiti")), ((u! "Siddham"), (u! "Siddham")), ((u! "Cyrillic"), (u! "RussianCyrillic")),
  ((u! "Zanabazar"), (u! "ZanabazarSquare"))]

/-- gimeltra.py:31-36 `auto_script`: the most common script, the first one met in a tie -/
def autoScript (E : Env) (text : PyStr) : Except Exn PyStr :=
  let l := text.map E.charScript
  match (distinct l).foldl (fun best w => match best with
      | none => some w
      | some b => match Nat.ble (countStr w l) (countStr b l) with
        | true => some b
        | false => some w) none with
  | none => .error .indexError
  | some [] => .ok (u! "Zyyy")
  | some w => .ok w

/-- transliterate.py:80-196: from the majority word to the script -/
def refineScript (E : Env) (text script : PyStr) : Except Exn PyStr :=
  match strEq script (u! "Bengali") with
  | true => .ok (match isInfix (u! "ৰ") text || isInfix (u! "ৱ") text with
      | true => u! "Assamese"
      | false => u! "Bengali")
  | false =>
  match strEq script (u! "Lao") with
  | true => .ok (match anyIn us!["ຆ", "ຉ", "ຌ", "ຎ", "ຏ", "ຐ", "ຑ", "ຒ", "ຓ", "ຘ", "ຠ", "ຨ", "ຩ", "ຬ", "຺"] text with
      | true => u! "LaoPali"
      | false => u! "Lao")
  | false =>
  match strEq script (u! "Myanmar") with
  | true => detectMyanmar E text
  | false =>
  match dictGet? renamedScripts script with
  | some r => .ok r
  | none =>
  match strEq script (u! "Syriac") with
  | true => .ok (detectSyriac text)
  | false =>
  match strEq script (u! "Arabic") with
  | true => .ok (detectArabic text)
  | false =>
  match strEq script (u! "Latin") with
  | true => .ok (detectLatin text)
  | false =>
  match pyIn script GM.IndicScripts || pyIn script GM.LatinScripts || pyIn script us!["Hiragana", "Katakana"] with
  | true => .ok script
  | false => autoScript E text

/-- transliterate.py:42-196 `auto_detect(text, plugin)` -/
def autoDetect (E : Env) (text : PyStr) (plugin : Bool := false) : Except Exn PyStr :=
  match majorityWord plugin (scriptWords E text) with
  | .error e => .error e
  | .ok w =>
    match capitalizeFirst w with
    | .error e => .error e
    | .ok script => refineScript E text script

/-- transliterate.py:200-223 `detect_preoptions(text, inputScript)` -/
def detectPreoptions (text inputScript : PyStr) : List PyStr :=
  match strEq inputScript (u! "Thai") with
  | true =>
    let textNew := pyReplace text (u! "ห์") []
    match isInfix [0x035C] text || isInfix [0x0325] text || isInfix (u! "งํ") text || isInfix [0x0E47] text,
        isInfix (u! "์") textNew && isInfix (u! "ะ") text, isInfix (u! "์") textNew,
        isInfix (u! "ะ") text || isInfix (u! "ั") text with
    | true, _, _, _ => us!["ThaiPhonetic"]
    | false, true, _, _ => us!["ThaiSajjhayawithA"]
    | false, false, true, _ => us!["ThaiSajjhayaOrthography"]
    | false, false, false, true => us!["ThaiOrthography"]
    | false, false, false, false => []
  | false =>
    match strEq inputScript (u! "Lao") || strEq inputScript (u! "LaoPali") with
    | true =>
      let textNew := pyReplace text (u! "ຫ໌") []
      match isInfix (u! "໌") textNew && isInfix (u! "ະ") text, isInfix (u! "໌") textNew,
          isInfix (u! "ະ") text || isInfix (u! "ັ") text with
      | true, _, _ => us!["LaoSajhayaOrthographywithA"]
      | false, true, _ => us!["LaoSajhayaOrthography"]
      | false, false, true => us!["LaoTranscription"]
      | false, false, false => []
    | false =>
      match strEq inputScript (u! "Urdu") with
      | true => us!["UrduShortNotShown"]
      | false => []

/-! ## `process` (transliterate.py:546-861) -/

/-- transliterate.py:607-621 `process_default` -/
def processDefault (E : Env) (src tgt txt : PyStr) (nativize : Bool) (post pre : List PyStr) :
    Except Exn PyStr :=
  match strEq src (u! "autodetect") with
  | true =>
    match autoDetect E txt with
    | .error e => .error e
    | .ok s => convertDefault E s (resolveName E tgt) txt nativize post (detectPreoptions txt s)
  | false => convertDefault E (resolveName E src) (resolveName E tgt) txt nativize post pre

/-- The greatest `(n, name)` tuple: `sorted(l, reverse=True)[0]` -/
def best : List (Nat × PyStr) → Option PyStr
  | [] => none
  | p :: l => some (l.foldl (fun b q => match rankLe b q with
      | true => q
      | false => b) p).2

/-- `lang.split(',')`, lower-cased, for an entry with languages -/
def langsOf (E : Env) (s : Yaml.Script) : Option (List PyStr) :=
  s.lang.map fun l => (pySplit l (u! ",")).map E.lower

/-- `x in lang`: membership, or the substring test on `''` when the entry has no languages -/
def inLangs (x : PyStr) : Option (List PyStr) → Bool
  | some l => strMem x l
  | none => x.isEmpty

/-- `len(data_loaded_wiki[tag])`, 1 if absent (transliterate.py:750-754) -/
def wikiCount (tag : PyStr) : Nat :=
  match dictGet? Yaml.wiki tag with
  | some l => l.length
  | none => 1

/-- The population of a language in a script (transliterate.py:652-656) -/
def population (tag : PyStr) (lang : Option PyStr) : Nat :=
  match dictGet? Yaml.wiki tag, lang with
  | some l, some x =>
    match dictGet? l x with
    | some n => n
    | none => 0
  | _, _ => 0

/-- `'-' in tag` -/
def hyphenated (tag : PyStr) : Bool := isInfix (u! "-") tag

/-- `tag.split('-')[0]` -/
def tagLang (tag : PyStr) : PyStr :=
  match pySplit tag (u! "-") with
  | x :: _ => x
  | [] => []

/-- `tag.split('-')[1]` of a hyphenated tag -/
def tagScript (tag : PyStr) : PyStr :=
  match pySplit tag (u! "-") with
  | _ :: x :: _ => x
  | _ => []

/-- transliterate.py:641-679: one script code against the table; `last` is the variable
`lang_tag`, which keeps its value for entries without languages -/
def scriptTagMatches (E : Env) (tag : PyStr) : Option PyStr → List Yaml.Script → List (Nat × PyStr)
  | _, [] => []
  | last, s :: l =>
    let langTag := match s.lang with
      | some x => (pySplit x (u! ",")).head?
      | none => last
    let here : List (Nat × PyStr) := match hyphenated tag with
      | false =>
        match strEq (E.lower s.tag) (E.lower tag) with
        | true => [(population s.tag langTag, s.name)]
        | false => []
      | true =>
        match strEq (E.lower s.tag) (E.lower (E.lower (tagScript tag))) && s.lang.isSome
            && inLangs (E.lower (E.lower (tagLang tag))) (langsOf E s) with
        | true => [(0, s.name)]
        | false => []
    here ++ scriptTagMatches E tag langTag l

/-- `x.lower() in [...]` -/
def lowerIn (E : Env) (x : PyStr) (l : List PyStr) : Bool := strMem (E.lower x) l

/-- transliterate.py:633-638: `Syrc` is taken as `Syre` -/
def syrcDefault (tag : PyStr) : PyStr :=
  match strEq tag (u! "Syrc") with
  | true => u! "Syre"
  | false => tag

/-- transliterate.py:624-700: the candidates of a script code -/
def scriptTagCandidates (E : Env) (tag0 : PyStr) : List (Nat × PyStr) :=
  let tag := syrcDefault tag0
  match hyphenated tag && lowerIn E (tagLang tag) us!["latn", "en", "eng"] with
  | true => [(0, tagScript tag)]
  | false =>
    match lowerIn E tag us!["latn", "en", "eng"] with
    | true => [(0, (u! "ISO"))]
    | false => scriptTagMatches E tag none Yaml.scripts

/-- transliterate.py:706-718: the script of a script code; unknown codes must be Semitic scripts -/
def scriptTagPick (E : Env) (tag : PyStr) : Except Exn PyStr :=
  match best (scriptTagCandidates E tag) with
  | some s => .ok s
  | none =>
    let tag := syrcDefault tag
    match pyIn tag GM.SemiticScripts with
    | true => .ok tag
    | false => .error .exception

/-- transliterate.py:624-730 `process_script_tag`; `detect_preoptions` is given a list, not a
name, so it finds nothing -/
def processScriptTag (E : Env) (srcTag tgtTag txt : PyStr) (nativize : Bool) (post pre : List PyStr) :
    Except Exn PyStr :=
  match (match strEq srcTag (u! "autodetect") with
    | true => (autoDetect E txt).map fun s => (s, ([] : List PyStr))
    | false => (scriptTagPick E srcTag).map fun s => (s, pre)) with
  | .error e => .error e
  | .ok (src, pre) =>
    match scriptTagPick E tgtTag with
    | .error e => .error e
    | .ok tgt => processDefault E src tgt txt nativize post pre

/-- transliterate.py:742-775: one language code against the table -/
def langTagMatches (E : Env) (tag : PyStr) : List Yaml.Script → List (Nat × PyStr)
  | [] => []
  | s :: l =>
    (match inLangs (E.lower tag) (langsOf E s) with
      | true => [(wikiCount s.tag, s.name)]
      | false => []) ++
    (match hyphenated tag && strEq (E.lower s.tag) (E.lower (tagScript tag))
          && inLangs (E.lower (tagLang tag)) (langsOf E s) with
      | true => [(0, s.name)]
      | false => []) ++
    langTagMatches E tag l

/-- transliterate.py:791-804: the last script with the tag, for `sa-xxxx` -/
def lastWithTag (E : Env) (tag : PyStr) : List Yaml.Script → Option PyStr
  | [] => none
  | s :: l =>
    match lastWithTag E tag l with
    | some x => some x
    | none =>
      match strEq (E.lower s.tag) (E.lower tag) with
      | true => some s.name
      | false => none

/-- transliterate.py:732-825: the candidates of a language code -/
def langTagCandidates (E : Env) (tag : PyStr) : List (Nat × PyStr) :=
  match hyphenated tag && lowerIn E (tagLang tag) us!["la", "en", "eng"] with
  | true => [(0, tagScript tag)]
  | false =>
  match lowerIn E tag us!["la", "en", "eng"] with
  | true => [(0, (u! "ISO"))]
  | false =>
  let base := match lowerIn E tag us!["sa", "san", "pi", "pli"] with
    | true => [(0, (u! "Devanagari"))]
    | false => langTagMatches E tag Yaml.scripts
  match hyphenated tag && lowerIn E (tagLang tag) us!["sa", "san", "pi", "pli"] with
  | true =>
    match lastWithTag E (tagScript tag) Yaml.scripts with
    | some s => [(0, s)]
    | none => base
  | false => base

/-- transliterate.py:831-839: the script of a language code -/
def langTagPick (E : Env) (tag : PyStr) : Except Exn PyStr :=
  match best (langTagCandidates E tag) with
  | some s => .ok s
  | none => .error .exception

/-- transliterate.py:732-850 `process_lang_tag` -/
def processLangTag (E : Env) (srcTag tgtTag txt : PyStr) (nativize : Bool) (post pre : List PyStr) :
    Except Exn PyStr :=
  match (match strEq srcTag (u! "autodetect") with
    | true => (autoDetect E txt).map fun s => (s, ([] : List PyStr))
    | false => (langTagPick E srcTag).map fun s => (s, pre)) with
  | .error e => .error e
  | .ok (src, pre) =>
    match langTagPick E tgtTag with
    | .error e => .error e
    | .ok tgt => processDefault E src tgt txt nativize post pre

/-- transliterate.py:852-861 `process_lang_name` -/
def processLangName (E : Env) (srcName tgtName txt : PyStr) (nativize : Bool) (post pre : List PyStr) :
    Except Exn PyStr :=
  match (match strEq srcName (u! "autodetect") with
    | true => (autoDetect E txt).map fun s => (s, detectPreoptions txt s)
    | false =>
      match E.findLang srcName with
      | some s => .ok (s, pre)
      | none => .error .external) with
  | .error e => .error e
  | .ok (src, pre) =>
    match E.findLang tgtName with
    | none => .error .external
    | some tgt => processLangTag E src tgt txt nativize post pre

/-- transliterate.py:546-557 `process`; an unknown `param` falls off the end: `none` is Python's
`None`. -/
def process (E : Env) (src tgt txt : PyStr) (nativize : Bool := true) (post pre : List PyStr := [])
    (param : PyStr := (u! "default")) : Except Exn (Option PyStr) :=
  match strEq param (u! "default") with
  | true => (processDefault E src tgt txt nativize post pre).map some
  | false =>
  match strEq param (u! "script_code") with
  | true => (processScriptTag E src tgt txt nativize post pre).map some
  | false =>
  match strEq param (u! "lang_code") with
  | true => (processLangTag E src tgt txt nativize post pre).map some
  | false =>
  match strEq param (u! "lang_name") with
  | true => (processLangName E src tgt txt nativize post pre).map some
  | false => .ok none

end Verif
