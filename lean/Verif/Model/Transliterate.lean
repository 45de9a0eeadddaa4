import Verif.Model.Convert
import Verif.Model.YamlData

/-!
# transliterate.py: `convert`, `process`, `auto_detect`
-/

namespace Verif

/-- The arguments of `convert` other than the text (transliterate.py:225). -/
structure Cfg where
  src : PyStr
  tgt : PyStr
  nativize : Bool
  pre : List PyStr
  post : List PyStr

/-- `d.get(k)` on option tables where a missing key adds nothing. -/
def optList (d : List (PyStr × List PyStr)) (x : PyStr) : List PyStr :=
  match dictGet? d x with
  | some l => l
  | none => []

/-- transliterate.py:230-255: ALA-LC romanisation of a script that has one -/
def locTarget (c : Cfg) : Cfg :=
  match pyEq c.tgt (u! "RomanLoC") && pyIn c.src GM.LoCScripts with
  | false => c
  | true =>
    let src := match pyIn c.src GM.LoCSrcMap, isInfix (u! "Tham") c.src with
      | true, _ => c.src ++ (u! "LoC")
      | false, true => u! "ThamLoC"
      | false, false => c.src
    let tgt := match pyIn src GM.LoCTgtMap, pyIn src GM.LoCTgtISO with
      | true, _ => src ++ c.tgt
      | false, true => u! "ISO"
      | false, false => c.tgt
    match pyIn src GM.LocPostPre with
    | true =>
      ⟨src, tgt, false,
        (c.pre ++ [tgt ++ (u! "Target")]) ++ (match pyIn src us!["KhmerLoC"] with
          | true => us!["SchwaFinalKhmerLoC"]
          | false => []),
        [tgt ++ (u! "Target")] ++ c.post⟩
    | false =>
      ⟨src, tgt, c.nativize, c.pre ++ optList GM.LoCTgtPreOptions src, optList GM.LoCTgtPostOptions src ++ c.post⟩

/-- transliterate.py:258-262: ALA-LC romanisation of a script without one -/
def locTargetOther (c : Cfg) : Cfg :=
  match pyEq c.tgt (u! "RomanLoC") && !(pyIn c.src GM.LoCScripts) with
  | false => c
  | true =>
    match pyIn c.src GM.SemiticScripts with
    | true => { c with tgt := u! "ISO233" }
    | false => { c with tgt := u! "ISO" }

/-- transliterate.py:266-287: from ALA-LC romanisation to a script that has one -/
def locSource (c : Cfg) : Gen Cfg :=
  match pyEq c.src (u! "RomanLoC") && pyIn c.tgt GM.LoCScripts with
  | false => pure c
  | true => do
    let tgt := match pyIn c.tgt GM.LoCSrcMap, isInfix (u! "Tham") c.tgt with
      | true, _ => c.tgt ++ (u! "LoC")
      | false, true => u! "ThamLoC"
      | false, false => c.tgt
    branch (!(pyIn c.tgt GM.LoCSrcMap) && isInfix (u! "Tham") c.tgt && isInfix (u! "Khuen") c.tgt)
      (append (u! "ʾ")) (pure ())
    let src := match pyIn tgt GM.LoCTgtMap, pyIn tgt GM.LoCTgtISO with
      | true, _ => tgt ++ c.src
      | false, true => u! "ISO"
      | false, false => c.src
    match pyIn tgt GM.LocPostPre with
    | true => pure ⟨src, tgt, false, [src ++ (u! "Source")] ++ c.pre, [src ++ (u! "Source")] ++ c.post⟩
    | false => pure ⟨src, tgt, c.nativize, c.pre ++ optList GM.LoCSrcPreOptions tgt, optList GM.LoCSrcPostOptions tgt ++ c.post⟩

/-- transliterate.py:290-294: from ALA-LC romanisation to a script without one -/
def locSourceOther (c : Cfg) : Cfg :=
  match pyEq c.src (u! "RomanLoC") && !(pyIn c.tgt GM.LoCScripts) with
  | false => c
  | true =>
    match pyIn c.tgt GM.SemiticScripts with
    | true => { c with src := u! "ISO233" }
    | false => { c with src := u! "ISO" }

/-- transliterate.py:305-314: Semitic romanisation standards as target; `self` is `convert` -/
def isoTarget (self : Cfg → Gen Unit) (c : Cfg) : Gen Cfg :=
  match dictGet? GM.semiticISO c.tgt with
  | none => pure c
  | some base => do
    let c1 ← branch (!(pyEq base c.src))
      (do
        self { c with tgt := base }
        pure { c with src := base })
      (pure c)
    pure ⟨c1.src, (u! "Latn"), false, [c1.tgt ++ (u! "Target")] ++ c1.pre, [c1.tgt ++ (u! "Target")] ++ c1.post⟩

/-- transliterate.py:316-325: Semitic romanisation standards as source -/
def isoSource (self : Cfg → Gen Unit) (c : Cfg) : Gen Cfg :=
  match dictGet? GM.semiticISO c.src with
  | none => pure c
  | some base =>
    branch (pyEq base c.tgt)
      (pure ⟨(u! "Latn"), c.tgt, c.nativize, [c.src ++ (u! "Source")] ++ c.pre, [c.src ++ (u! "Source")] ++ c.post⟩)
      (do
        self { c with tgt := base }
        pure { c with src := base })

/-- transliterate.py:339 `IndicSemiticMapping` -/
def indicSemiticMapping : List (PyStr × PyStr) :=
  [((u! "Hebrew"), (u! "Hebr")), ((u! "Thaana"), (u! "Thaa")), ((u! "Urdu"), (u! "Arab-Ur")), ((u! "Shahmukhi"), (u! "Arab-Pa"))]

/-- `M[x] if x in M else x` -/
def mapName (m : List (PyStr × PyStr)) (x : PyStr) : PyStr :=
  match dictGet? m x with
  | some y => y
  | none => x

/-- `x in d.keys()` -/
def hasKey {β : Type} (d : List (PyStr × β)) (x : PyStr) : Bool :=
  match dictGet? d x with
  | some _ => true
  | none => false

/-- transliterate.py:341-357: the four scripts modelled both as Indic and as Semitic -/
def semiticSwitch (c : Cfg) : Cfg :=
  let src := match (pyIn c.tgt GM.SemiticScripts || hasKey GM.semiticISO c.tgt) with
    | true => mapName indicSemiticMapping c.src
    | false => c.src
  let tgt := match (pyIn src GM.SemiticScripts || hasKey GM.semiticISO src) with
    | true => mapName indicSemiticMapping c.tgt
    | false => c.tgt
  let both := hasKey indicSemiticMapping src && hasKey indicSemiticMapping tgt
  let src2 := match both with
    | true => mapName indicSemiticMapping src
    | false => src
  let tgt2 := match both with
    | true => mapName indicSemiticMapping tgt
    | false => tgt
  let src3 := match c.nativize with
    | false => mapName indicSemiticMapping src2
    | true => src2
  { c with src := src3, tgt := tgt2 }

/-- transliterate.py:359-360, 399-401: markers appended to the text -/
def markers (c : Cfg) : Gen Unit := do
  branch (pyIn c.src us!["Arab-Ur", "Arab-Pa"] && pyIn c.tgt GM.IndicScripts) (append [0x05CD]) (pure ())
  branch (c.nativize && pyIn c.src GM.SemiticScripts && pyIn c.tgt GM.IndicScripts) (append [0x05CC]) (pure ())

/-- transliterate.py:403-405: a script converted to itself takes a detour; the result is `tgtOld` -/
def sameScript (c : Cfg) : PyStr × Cfg :=
  match pyEq c.src c.tgt && !(pyEq c.src (u! "Hiragana")) && !(pyEq c.src (u! "Katakana"))
      && !(pyIn c.src GM.SemiticScripts) with
  | true => (c.tgt, { c with tgt := u! "Devanagari" })
  | false => ([], c)

/-- transliterate.py:411-417, the `elif`/`else` of the `indicDandas` option -/
def indicDandasElse (c : Cfg) : Gen Cfg := do
  let signs ← crunchList .SignMap c.src
  let d ← index signs 1
  branch (pyEq d (u! "।"))
    (pure { c with pre := c.pre ++ us!["RetainDevangariDanda"] })
    (branch (!(pyIn c.tgt GM.Transliteration))
      (pure { c with post := c.post ++ us!["Dot2Dandas"] })
      (pure { c with post := c.post ++ us!["Dot2Pipes"] }))

/-- transliterate.py:408-417: the `indicDandas` option.  The test on the text decides which
options the rest of the function sees, so the continuation is copied into both branches. -/
def indicDandas (c : Cfg) : Gen Cfg :=
  match pyIn (u! "indicDandas") c.post with
  | false => pure c
  | true =>
    match pyIn c.src GM.pipeScripts with
    | false => indicDandasElse c
    | true => fun k =>
      .ite (.has (u! "|")) (PreProcess.RetainPipeDanda c.src fun _ => k c) (indicDandasElse c k) .done

/-- transliterate.py:421-449: options that replace the source or the target script -/
def optionSwitches (c : Cfg) : Gen Cfg := do
  let po x := pyIn x c.post
  let pr x := pyIn x c.pre
  let sw (b : Bool) (y x : PyStr) : PyStr := match b with | true => y | false => x
  let tgt := c.tgt
  let tgt := sw (po (u! "siddhammukta") && pyEq tgt (u! "Siddham")) (u! "SiddhamDevanagari") tgt
  let tgt := sw (po (u! "siddhamap") && pyEq tgt (u! "Siddham")) (u! "SiddhamDevanagari") tgt
  let src := sw (pr (u! "siddhammukta") && pyEq c.src (u! "Siddham")) (u! "SiddhamDevanagari") c.src
  let tgt := sw (po (u! "LaoNative") && pyEq tgt (u! "Lao")) (u! "Lao2") tgt
  let src := sw (pr (u! "egrantamil") && pyEq src (u! "Grantha")) (u! "GranthaGrantamil") src
  let tgt := sw (po (u! "egrantamil") && pyEq tgt (u! "Grantha")) (u! "GranthaGrantamil") tgt
  let tgt := sw (po (u! "nepaldevafont") && pyEq tgt (u! "Newa")) (u! "Devanagari") tgt
  let b1 := po (u! "ranjanalantsa") && pyEq tgt (u! "Ranjana")
  let tgt := sw b1 (u! "Tibetan") tgt
  let b2 := po (u! "ranjanawartu") && pyEq tgt (u! "Ranjana")
  let tgt := sw b2 (u! "Tibetan") tgt
  let b3 := po (u! "BengaliRaBa") && pyEq tgt (u! "Bengali")
  let tgt := sw b3 (u! "BengaliRaBa") tgt
  branch (po (u! "SoyomboFinals") && pyEq tgt (u! "Soyombo")) (prepend (u! "ʾ")) (pure ())
  let tgt := sw (po (u! "BalineseSimplified") && pyEq src (u! "Balinese")) (u! "BalineseSimpleRomanLoC") tgt
  let tgt := sw (po (u! "JavaneseSimplified") && pyEq src (u! "Javanese")) (u! "JavaneseSimpleRomanLoC") tgt
  pure ⟨src, tgt, c.nativize && !b1 && !b2 && !b3, c.pre, c.post⟩

/-- `getattr(module, option)(txt)`: a missing name raises `AttributeError`. -/
def callOption (fns : List (PyStr × Gen Unit)) (name : PyStr) : Gen Unit :=
  match dictGet? fns name with
  | some g => g
  | none => fail .attributeError

/-- transliterate.py:464-466: when Roman letters of the text are shielded -/
def retainsLatin (src tgt : PyStr) : Bool :=
  (!(pyEq src (u! "Latn")) && !(pyEq src (u! "Type")) && pyIn src GM.SemiticScripts)
  || (pyIn src GM.IndicScripts && pyIn tgt GM.SemiticScripts && !(pyIn src GM.LatinScripts))
  || pyIn src us!["Hiragana", "Katakana"]

/-- transliterate.py:454-472: options before the conversion, shields, Japanese sources; returns
`srcOld == 'Japanese'` and the source script from here on -/
def beforeConversion (c : Cfg) : Gen (Bool × PyStr) := do
  forEach c.pre fun o => callOption preFns o
  branch (pyIn (u! "novowelshebrew") c.pre && pyEq c.src (u! "Hebr")) (replace [0x05B7] []) (pure ())
  branch (retainsLatin c.src c.tgt) (PreProcess.retainLatin false) (pure ())
  branch (pyEq c.src (u! "Hiragana") || pyEq c.src (u! "Katakana"))
    (do
      PreProcess.JapanesePreProcess c.src c.pre
      pure (true, (u! "ISO")))
    (pure (false, c.src))

/-- transliterate.py:480-489: the conversion; text between `##` marks is skipped for Itrans -/
def conversion (src tgt : PyStr) : Gen Unit :=
  branch (pyEq src (u! "Itrans"))
    (whenDyn (.has (u! "##")) (onEvens (u! "##") (convertScript src tgt)) (convertScript src tgt))
    (convertScript src tgt)

/-- transliterate.py:507-513 -/
def nativization (src tgt : PyStr) (post : List PyStr) : Gen Unit := do
  applyScriptDefaults src tgt post
  branch (!(pyEq tgt (u! "Latn")))
    (branch (!(pyEq tgt (u! "Tamil"))) PostProcess.RemoveDiacritics PostProcess.RemoveDiacriticsTamil)
    (pure ())

/-- transliterate.py:474-544: everything after the options before the conversion.
`requests.get` (524-527) is a parameter, applied to the result instead of the converted text. -/
def mainPart (c : Cfg) (tgtOld : PyStr) (japanese : Bool) (src : PyStr) : Gen Unit := do
  branch (pyEq c.tgt (u! "Hiragana") || pyEq c.tgt (u! "Katakana"))
    (PostProcess.JapanesePostProcess src c.tgt c.nativize c.post) (pure ())
  branch (pyEq src (u! "Oriya") && pyEq c.tgt (u! "IPA")) ConvertFix.OriyaIPAFixPre (pure ())
  conversion src c.tgt
  branch (japanese && !(pyEq c.tgt (u! "Devanagari")) && !(pyIn (u! "siddhammukta") c.post))
    (convertScript (u! "Devanagari") (u! "ISO")) (pure ())
  let tgt := match pyEq src tgtOld with
    | true => tgtOld
    | false => c.tgt
  branch (pyEq src tgtOld) (convertScript (u! "Devanagari") tgt) (pure ())
  branch ((!(pyIn src GM.SemiticScripts) && pyEq tgt (u! "Arab") && c.nativize)
      || pyIn (u! "arabicRemoveAdditionsPhonetic") c.post)
    PostProcess.arabicRemoveAdditionsPhonetic (pure ())
  branch c.nativize (nativization src tgt c.post) (pure ())
  let tamil := pyIn (u! "RemoveDiacritics") c.post && pyEq tgt (u! "Tamil")
  let post := match tamil with
    | true => c.post.map fun x => match pyEq x (u! "RemoveDiacritics") with
      | true => u! "RemoveDiacriticsTamil"
      | false => x
    | false => c.post
  forEach post fun o => callOption postFns o
  branch (pyEq src (u! "Tamil") && pyEq tgt (u! "IPA")) (host .tamilIPA) (pure ())
  branch (pyEq src (u! "Oriya") && pyEq tgt (u! "IPA")) ConvertFix.OriyaIPAFix (pure ())
  PreProcess.retainLatin true
  -- the `map` object of the Tamil case is exhausted by the loop above
  PostProcess.defaultPost src tgt c.nativize c.pre (match tamil with
    | true => []
    | false => c.post)

/-- transliterate.py:333-336: the two early returns -/
def earlyReturn (c : Cfg) : Bool :=
  (pyEq c.tgt (u! "") || pyEq c.tgt (u! "Ignore"))
  || (c.pre.isEmpty && c.post.isEmpty && !c.nativize && pyEq c.src c.tgt)

/-- transliterate.py:359-544: `convert` after the LoC and Semitic-standard switches -/
def convertTail (c : Cfg) : Gen Unit := do
  markers c
  let (tgtOld, c) := sameScript c
  let c ← indicDandas c
  PreProcess.PreProcess c.src c.tgt c.post c.pre
  let c ← optionSwitches c
  let (japanese, src) ← beforeConversion c
  mainPart c tgtOld japanese src

/-- transliterate.py:225-544 `convert`, with `self` for its recursive calls -/
def convertBody (self : Cfg → Gen Unit) (c : Cfg) : Gen Unit := do
  let c := locTargetOther (locTarget c)
  let c ← locSource c
  let c := locSourceOther c
  let c ← isoTarget self c
  let c ← isoSource self c
  branch (earlyReturn c) (pure ()) (convertTail (semiticSwitch c))

/-- `convert` without recursive calls: it never gets here (`convertN_stable`) -/
def convertN : Nat → Cfg → Gen Unit
  | 0 => fun _ => fail .external
  | n + 1 => convertBody (convertN n)

/-- transliterate.py:225-544 `convert(src, tgt, txt, nativize, preoptions, postoptions)`.  The
recursion (through the Semitic romanisation standards) is at most three deep. -/
def convert (src tgt : PyStr) (nativize : Bool) (pre post : List PyStr) : Gen Unit :=
  convertN 3 ⟨src, tgt, nativize, pre, post⟩

/-! ## `process` -/

/-- transliterate.py:580-581: the option names of a module that equal a requested one up to case -/
def matchOptions (E : Env) (known requested : List PyStr) : List PyStr :=
  requested.flatMap fun o => known.filter fun k => strEq (E.lower o) (E.lower k)

/-- `map(fst)` -/
def names (fns : List (PyStr × Gen Unit)) : List PyStr := fns.map Prod.fst

/-- transliterate.py:569-605 `convert_default`; the warnings are not modelled -/
def convertDefault (E : Env) (src tgt txt : PyStr) (nativize : Bool) (post pre : List PyStr) :
    Except Exn PyStr :=
  (convert src tgt nativize (matchOptions E (names preFns) pre) (matchOptions E (names postFns) post)).prog.run E txt

/-- transliterate.py:615-619: a script name in any case to the name as listed -/
def resolveName (E : Env) (x : PyStr) : PyStr :=
  match (GM.IndicScripts ++ GM.LatinScripts).find? (fun s => strEq (E.lower x) (E.lower s)) with
  | some s => s
  | none => x

end Verif
