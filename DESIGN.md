# Formal model of aksharamukha-python in Lean 4

## What the program is

`process(src, tgt, text, nativize, post_options, pre_options, param)` resolves script names and
codes to script ids, and then rewrites the text by a long, fixed sequence of `str.replace` and
`re.sub` calls.  The arguments of these calls are computed from script ids, flags and letter
tables, never from the text.  The whole converter is therefore a *compiler* from
(source, target, flags, options) to a straight-line rewriting program, followed by the execution of
that program on the text.

## Architecture of the model

| Lean module | models |
| --- | --- |
| `Verif/Core/Str.lean` | Python `str`/`list` library (`replace`, `split`, `join`, `in`, slices, stable sorts, ...); a `str` is a list of code points |
| `Verif/Core/Regex.lean` | Python `re`: pattern parser, backtracking matcher, `re.sub` |
| `Verif/Core/Numerals.lean` | the numeral functions of `PostProcess.py` (Kharoshthi, Old Persian) |
| `Verif/Core/Prog.lean` | rewriting programs (`Prog`), their execution (`Prog.run`), generator monad `Gen`, the environment `Env` |
| `Verif/Model/Sec, BaseTables*, BaseRegistry, Import, ExtTables*, Tables, Crunch` | `ScriptMap/**` as written, `GeneralMap.add_additional_chars` with the module cache, the resulting tables, `CrunchSymbols`, `CrunchList` |
| `Verif/Model/GM.lean`, `FallBack.lean` | `GeneralMap.py` constants, `FallBack.py` |
| `Verif/Model/Fns0..14.lean`, `Dispatch.lean` | `ConvertFix.py`, `PreProcess.py`, `PostProcess.py`, function by function; `getattr` by name |
| `Verif/Model/Convert.lean`, `PostOptions.lean` | `Convert.py`, `PostOptions.py`, `PreOptions.py` |
| `Verif/Model/Transliterate.lean`, `Process.lean`, `YamlData.lean` | `transliterate.py`: `convert`, `auto_detect`, `detect_preoptions`, `process` with its `param` variants, code and language lookup, yaml data |
| `Verif/Model/Gimeltra.lean`, `GimeltraData.lean` | `gimeltra.py` and its JSON data |
| `Verif/Model/File.lean` | `transliterate_file.py` |
| `Verif/Lib/*.lean` | helper lemmas: analyses of `Prog` with soundness proofs, table facts, romanisation |
| `Verif/Lib/Checks/*.lean` | evaluation of the analyses by the kernel on the finitely many scripts (`decide +kernel` over the whole table) |
| `Verif/Spec/*.lean` | the vocabulary of the property statements |
| `Verif/Props/*.lean` | the property theorems, each with a satisfied example |

A Python function `def F(Strng, a, b)` that rewrites `Strng` becomes `def F (a b) : Gen Unit`, in
`do` notation, one line per Python statement.  `Gen` runs the static part of the Python code
(loops over tables, `if`s on script names) and emits the instructions on the text.  A static error
(IndexError, KeyError, ...) becomes a `fail` instruction at the place where it is raised, so "no crash"
is a statement about what programs are emitted.

Proof technique: properties of the form "for every text ..." are proved by *static analysis of the
emitted program*.  An analysis is a total Boolean function on programs; its soundness ("if the
analysis says yes then for every text and every environment the execution satisfies P") is proved
once, by induction over programs, regular expressions and texts; the analysis is then evaluated by
the kernel (`decide +kernel`) on the finitely many programs of the scripts concerned.  The
quantifier over texts is never sampled.

## Plan and state per property

Status and theorem names are in `MANIFEST.json`; "violated" means that the negation is proved on a
concrete witness and that a `_partial` theorem states what does hold.

- **C01** `convert`: early exit for equal scripts without nativization; all texts.
- **C02, C03, C04** `process`, option lookup: direct proofs over all names, with lower-casing of ASCII names.
- **C05, C06, C38** `process_script_tag`, `process_lang_tag`, `process_lang_name` over the whole yaml data; C38 violated for secondary language codes (leading blanks in the data).
- **C07, C08, C09, C10, C25** analyses "keeps neutral characters", "leaves neutral texts alone", "no `fail`, every pattern compiles", "character absent at the end"; evaluated on every plain source and target (lists in `Spec/Scripts.lean`). `C07_neutral_kept_with_options_partial` (Props/NoFail.lean) runs the same analysis together with that of C47 on every option, Semitic script and standard; the rules that fail it are the witnesses of `C07_options_violated`.
- **C11** after the letter replacements a single-character letter is gone (`rules_gone`; every table has as many letters as every other, so no letter is dropped from the pairing), and no later program writes it: analysis `freshAna`, evaluated once per target against all letters of all sources (`Lib/LeftOverChecks`). No assumption on the environment is used for this. Letters a target writes without listing them are in `unlistedLetters`.
- **C12–C16, C37, C39** core alphabets of 87 Indic scripts: the program acts letter by letter on core text (homomorphism), then algebra on the letter maps. C16 violated for scripts with ASCII digits or full stops in their tables.
- **C43** forward romanisation: `FixRomanOutput` is analysed by rewriting lemmas on texts cut into pieces (`Lib/Segments`, `Lib/ReWords`, `Lib/RomanFwd`, `Lib/RomanFix`).
- **C17, C44** romanised text is read back: `interPairs` on the pieces of the spelling (`Lib/RomanStages`, `Lib/RomanBack`), the three `RomanPreFix` rules on texts of the intermediate alphabet (`Lib/RomanInter`, `Lib/InterRules`), the second table and the separators (`Lib/RomanGlue`), undoing the hiatus spelling (`Lib/Undo`), idle or applied programs before (`Lib/Still`, `Lib/ReadChecks`), all together in `Lib/RomanConv`.
- **C18, C19** sorting and tables of all 146 modules, all histories of imports.
- **C20–C24** `auto_detect`, `detect_preoptions`; Unicode names are a parameter. C22 and C24 violated.
- **C26** `retainLatin`: placeholder substitution and its inverse; violated when letters are glued to other scripts' letters.
- **C27** ITRANS text divided at `##`: the pre-processing leaves the whole text alone (`Prog.applies2`: patterns for
  double r and l match nowhere, `kS` to `kSh` is undone by `kShh` to `kSh`), `text.split("##")` gives the parts, each
  stretch outside is read as in C44, the end of the conversion leaves the whole result alone. Gives C17 and C44 for
  ITRANS as well.
- **C28** `gimeltra.Transliterator` with its JSON data.
- **C29, C45** an interpreter that runs a program on each token of a text by itself (`Prog.tokens`, `Lib/SemPieces`),
  sound when no pattern of the program can match across two tokens; the conversion is cut into six parts
  (`Lib/SemConv`), each checked on all letters or signs of all 31 scripts. Letters with final forms (Hebrew, Greek,
  Nabataean, Palmyrene, Old Sogdian targets) are left out. C45 violated for the Ugaritic word divider.
- **C46** the same, with `Latn` on one side (`Lib/SemLatin`); reading starts from a list of signs. The token tables
  show that a sign is never read across its borders.
- **C47** safety of programs (`Prog.safe`) carried through the generators of `convert` with options (`Lib/NoFail`, `NoFailUse`):
  every option function is checked once, pieces of the conversion per script; the recursion through romanisation standards is unrolled.
- **C48** the dual: a program that raises on every text (`Prog.raises`), and every step before an option passes a raise on
  (`Lib/AlwaysFail`), for all names of scripts.
- **C49, C50** an analysis of programs, not of texts: `Prog.apart z` (Lib/LineWise.lean) says that a program run on `a ++ z :: b`
  gives its results on `a` and on `b` joined by `z`. A replacement has this if its key does not contain `z`; a `re.sub` if no match can
  contain or look at `z` (an abstract interpretation of the pattern). Programs that branch on the text (`in`) have it only if
  the branch is known: `Prog.calm` and `Prog.idle` (Lib/Calm.lean) show that without the letters of Om, or without a vertical bar,
  the branch is never taken. Each script is checked once as source and once as target (Lib/Checks, generated by
  tools/genchecks.py), not each pair. Assumed of Python beyond `Env.TextOps`: `Env.LineOps` (Spec/Lines.lean).
- **C30, C31, C40–C42** `transliterate_file` over abstract files, archives, XML and HTML trees; C31, C40, C41, C42 violated.
- **C32** options in order: `process` with any option lists decomposes into pre-options, conversion, post-options.
- **C33, C34** numeral functions; value functions as specification; numbers inside converted text.
- **C35** the module cache is the only state between calls: tables are the same after any calls.
- **C36** partial: a name the library does not know (`Unknown`: in no list, in no case variant, without the parts `Arab`, `IAST`, `ISO`, `RomanLoC`, `Syr`) as source, as target or both, and every settled text (none of the spellings that are always normalised). The unknown-name branches of `convertScript`, `PreProcess`, `FixIndicOutput` and the nativisation are shown to vanish by rewriting; the known side's clean-up is shown idle on settled texts by the checked analysis `quietOk`. Missing: sources normalised by the library (`loudSources`), `RomanLoC` as target.
- **C51** replacement of the composed letters by their long spelling as a map on texts; an analysis shows that the program undoes it before anything else touches the letters (induction over the list of letters and the text). Violated for other canonical decompositions.
- **C52** the program of a romanisation with diacritics begins with lower-casing.
- **C53** C32 with the analysis "characters absent at the end" on the last option and on the end of the conversion.
- **C54** `Lib/NoFailLoc`: a request with `RomanLoC` is, on a text that is marked for one target, the request between the scripts and with the options it stands for (`convertBody_loc`); a finite check that these are covered by C47, whatever options are added. Finding: for the five Batak scripts the name stays `RomanLoC`, for which there is no table, and every request raises (`C54_violated`).
- **C55** the branches of `autoDetect` one by one for the range; C47 with the detected pre-options, of which none is a failing one; C36 for scripts the library does not know.
- **C56** signs and priorities as a table of their own (`Spec/Variants.lean`); the branches of `autoDetect` compared with it; induction over the text for the letters of the languages in Myanmar script.
- **C57** the code points of the zeros as a table of their own (`Spec/Digits.lean`); that the tables list the ten digits at the same place is checked for every script, the rest is C15; for romanised numbers the rest is C43 and C44.
- **C58** after a chain of replacements `x_i -> y_i` no `x_i` occurs in the text if no later `y_j` shares a character with it (`Prog.settles`, Lib/Repeat.lean): then running it again changes nothing. Checked for each option; C32 places the option inside the conversion.

## Trusted base

- Lean 4.33.0's kernel. Axioms of the theorems: at most `propext`, `Classical.choice`, `Quot.sound`;
  none of our own; no `sorry`, no `native_decide`, no `bv_decide`.
- The reading of the Python source. Tables, constants, the three large function modules and the data
  files were translated mechanically (`tools/`: `ast`-based, reading `/repo` as text); the rest by
  hand. Every definition cites its lines.
- The models of Python's `str`, `list`, `dict` (as association lists in insertion order) and `re` in `Verif/Core`.
- Assumptions on what is left open, always as explicit hypotheses of the theorems that use them:
  - `Env.TextOps` (`Spec/TextOps.lean`): `str.lower` on ASCII names; case mapping and normalisation
    are total, keep line breaks, Chinese characters and pictographs, and do not produce U+F000; neutral characters are no combining marks (`\p{M}`);
  - `Env.GoodNames` (`Spec/Detect.lean`): shape of Unicode character names;
  - `Env.SemiticOps` (`Spec/Semitic.lean`, C29, C45, C46 only): NFD leaves consonant letters of Semitic scripts, plain
    characters and the private characters of `retainLatin` alone; none of them is a combining mark;
  - `Env.KeepsSigns` (`Spec/Semitic.lean`, C46 only): `str.lower` leaves texts of Latin signs, plain non-letters and
    neutral characters alone;
  - `Env.KeepsSpelt` (`Spec/Roman.lean`): `str.lower` and NFC leave texts spelt in IAST, ISO, their Pali variants and Titus
    alone (asked only where the program folds capitals);
  - `Uni.AsciiDigits` (`Spec/Numerals.lean`): `\d` matches `0`-`9` and `int` reads them.
- Numerals: the code divides floats (`/`, `int`), the model divides naturals; they agree for numbers below 8·10^15.
  Percentages in `auto_detect` are compared as counts; they agree for texts below 2^50 characters.

### Not modelled

- Third-party libraries: `pykakasi`/`kana2roman` (Japanese), `khmernltk`, the HTTP service for Tamil IPA,
  `langcodes.find`, `fontTools.unicodedata`, zip, lxml, BeautifulSoup, text codecs: parameters (`Env`, `FileLib`).
- `PostProcess.capitalizeSentence` and `PostProcess.GranthaPrakrit` (rewrite their own matches): parameters.
- The Unicode database (`\w`, `\d`, names, case mapping, normalisation): parameters.
- Warnings, printing, `demo.py`, the API mode of `transliterate_file.py` (its failure is modelled).
- `'' + list` in `CrunchList` for sections with no letters (`TypeError` in Python; does not occur for the modules that exist).
- Time and memory.

## Properties the code violates

| property | witness |
| --- | --- |
| C16 | digits and full stops come back as other characters between scripts whose tables list ASCII digits |
| C17 | क्ह is written `k_ha` in IAST and comes back as `कṿह`; लृ is written `lR` in HK and comes back as ऌ |
| C44 | `okm` in Velthuis is read as ॐ: Om is the regular expression `o.m` |
| C27 | `##law book##` in ITRANS text gives `lav bUk`: variants of letters are replaced before the text is divided |
| C22 | texts without named characters; a Latin text through the plugin path |
| C24 | pre-options given with auto-detection are dropped |
| C26 | Latin letters glued to Semitic ones are not protected |
| C31 | docx: pre- and post-options are exchanged |
| C36 | Arabic text from an unknown script to `ISO233` is transliterated; a name with `Arab` in it counts as Arabic; a̍ becomes `a\'` |
| C38 | secondary language codes have a leading blank |
| C40 | HTML comments become text |
| C41 | a text file conversion that fails half-way leaves an empty file |
| C42 | one pair of pairs of script names gives the same file name |
| C43 | SLP1: कढ is written `kQaa` |
| C51 | Kannada `ಕೊ` in its decomposed form becomes `कॆू` |
| C45 | 𐤀 𐤁 in Phoenician becomes 𐎀𐎟𐎁 in Ugaritic and comes back as 𐤀𐤁: the word divider is removed first |

## Testing the theorems

`seeded/run.py` applies edits to a scratch copy of the model, rebuilds the property modules concerned
and records which theorems fail in `seeded/LOG.jsonl`.
