{"id": "C01", "title": "Converting a script to itself returns the text untouched", "statement": "process(S, S, text, nativize=False) with no pre- or post-options returns exactly `text`, for every script id S that is not a romanisation alias that gets rewritten (semiticISO ids), and for RomanLoC to RomanLoC as well.", "quantifier": "every script name S outside the semitic ISO ids, every Unicode text", "why_tests_cant": "ranges over all texts and all names", "anchors": ["aksharamukha/transliterate.py:convert", "aksharamukha/transliterate.py:process_default"]}
{"id": "C02", "title": "Script names are case-insensitive", "statement": "Calling process with src/tgt names that differ from a supported Indic or Latin script id only in letter case gives exactly the result of calling it with the canonical id, for every text, nativize flag and option lists.", "quantifier": "every spelling whose lower-casing equals that of a supported id, every text, flag and option lists", "why_tests_cant": "infinitely many texts and options", "anchors": ["aksharamukha/transliterate.py:process_default"]}
{"id": "C03", "title": "Unknown options are ignored and option names are case-insensitive", "statement": "Adding to pre_options or post_options a name that matches no option function (case-insensitively) never changes the result of process; replacing an option name by another spelling with the same lower-casing never changes it either.", "quantifier": "every list of options with unknown names inserted anywhere, every text and script pair", "why_tests_cant": "unbounded lists and texts", "anchors": ["aksharamukha/transliterate.py:convert_default"]}
{"id": "C04", "title": "process dispatches on param and returns nothing for an unknown param", "statement": "process with param outside {default, script_code, lang_code, lang_name} returns None whatever the other arguments; with those values it returns what the corresponding resolver returns.", "quantifier": "every param string and all other arguments", "why_tests_cant": "quantifies over all strings", "anchors": ["aksharamukha/transliterate.py:process"]}
{"id": "C05", "title": "Unknown script codes are rejected, known ones always resolve", "statement": "process(param='script_code') raises for a source or target code that is neither an entry's code, a lang-code pair of an entry, a Latin code nor a Semitic code; and when several entries match the selected script is one of the matching entries and has maximal population among them.", "quantifier": "every code string", "why_tests_cant": "all code strings, incl. hyphenated ones", "anchors": ["aksharamukha/transliterate.py:process_script_tag"]}
{"id": "C06", "title": "Unknown language codes are rejected, known ones resolve to a listed script", "statement": "process(param='lang_code') raises for a code carried by no entry, and otherwise chooses an entry whose language list contains the code, with the largest script count.", "quantifier": "every language code string", "why_tests_cant": "all strings", "anchors": ["aksharamukha/transliterate.py:process_lang_tag"]}
{"id": "C07", "title": "Characters outside the handled alphabets survive every conversion, in order", "statement": "For every pair of supported scripts and any text, the subsequence of the text's neutral characters (line breaks, CJK ideographs, Hangul, emoji: code points no mapping table or rule of the two scripts mentions) is exactly the subsequence of neutral characters of the result: none is lost, duplicated, invented or moved relative to another.", "quantifier": "every text (neutral characters mixed with anything), every supported pair covered, every combination of options covered", "why_tests_cant": "depends on hundreds of sequential rewrites acting on arbitrary text", "anchors": ["aksharamukha/Convert.py:convertScript", "aksharamukha/ConvertFix.py:FixIndicOutput", "aksharamukha/PreProcess.py:PreProcess", "aksharamukha/PostProcess.py:default"]}
{"id": "C08", "title": "Text made only of neutral characters is returned unchanged", "statement": "For every covered pair and nativize flag, text consisting only of neutral characters is returned as is.", "quantifier": "every text of neutral characters, every pair of the 141 sources and 145 targets covered, both values of nativize", "why_tests_cant": "all texts", "anchors": ["aksharamukha/transliterate.py:convert", "aksharamukha/Convert.py:convertScript"]}
{"id": "C09", "title": "No text makes a supported conversion crash", "statement": "For every supported pair of scripts, process without options returns a string for every text: no IndexError, AttributeError or regular-expression error is reachable.", "quantifier": "every text, every supported pair", "why_tests_cant": "needs all texts and all code paths", "anchors": ["aksharamukha/Convert.py:convertScript", "aksharamukha/ConvertFix.py", "aksharamukha/PostProcess.py"]}
{"id": "C10", "title": "Internal marker characters never leak", "statement": "The private marker characters the pipeline inserts (U+F000 inherent vowel, U+F001, U+05CC, U+05CD, U+02C2) do not occur in the result of a conversion, whatever the text.", "quantifier": "every text, every covered pair", "why_tests_cant": "all texts", "anchors": ["aksharamukha/Convert.py:convertScript", "aksharamukha/PostProcess.py:default", "aksharamukha/ConvertFix.py:FixRomanOutput"]}
{"id": "C11", "title": "No letter of the source script is left behind", "statement": "Whatever the text, a letter, vowel sign, virama, digit or sign of the source table that is one character (outside the Latin, Hebrew, Arabic and private-use blocks, and no danda) does not occur in the result of a conversion, unless the target script is written with the same character. In particular nothing of the source script is left between scripts without common characters.", "quantifier": "every text, every ordered pair of plain Indic or Roman scripts, with and without nativisation, every letter", "why_tests_cant": "all texts", "anchors": ["aksharamukha/Convert.py:convertScript"]}
{"id": "C12", "title": "Lossless round trip between Indic scripts on core text", "statement": "For covered scripts A and B and every text over the core letters of A, process(B, A, process(A, B, text, nativize=False), nativize=False) = text.", "quantifier": "every text over the core alphabet, of any length", "why_tests_cant": "unbounded texts", "anchors": ["aksharamukha/Convert.py:convertScript", "aksharamukha/ConvertFix.py"]}
{"id": "C13", "title": "Conversion of core text is chunk-wise", "statement": "For covered Indic pairs and core texts s and t, converting s followed by t equals the conversion of s followed by the conversion of t, so a document may be converted piecewise.", "quantifier": "all pairs of core texts", "why_tests_cant": "unbounded texts", "anchors": ["aksharamukha/Convert.py:convertScript"]}
{"id": "C14", "title": "Conversion commutes with a detour through a third script", "statement": "For covered Indic scripts A, B, C and every core text, converting A to B and then B to C equals converting A to C directly.", "quantifier": "all core texts, all covered triples", "why_tests_cant": "unbounded texts", "anchors": ["aksharamukha/Convert.py:convertScript"]}
{"id": "C15", "title": "Conversion between one-to-one Indic scripts keeps text length and positions", "statement": "For covered pairs with single code point tables, the result has as many code points as the text and the i-th code point of the result depends only on the i-th code point of the text.", "quantifier": "all core texts", "why_tests_cant": "unbounded texts", "anchors": ["aksharamukha/Convert.py:convertScript"]}
{"id": "C16", "title": "ASCII digits and full stops are preserved by a round trip", "statement": "Round trip property of C12 extended to texts with ASCII digits and full stops.", "quantifier": "all core texts with digits/stops", "why_tests_cant": "unbounded texts; fails for some scripts, which the model must exhibit", "anchors": ["aksharamukha/PostProcess.py:RetainIndicNumerals", "aksharamukha/PostProcess.py:RetainDandasIndic"]}
{"id": "C17", "title": "Lossless round trip Indic script to romanisation and back", "statement": "For a covered Indic script, a romanisation and every well-formed text of core letters whose spelling can be read in one way only (no two neighbouring spellings run together, separated vowels are short, no character of a meaning of its own), converting to the romanisation and back returns the text; hence different texts have different romanisations. (False for other well-formed texts: क्ह returns as कṿह through IAST, लृ as ऌ through HK.)", "quantifier": "87 Indic scripts, 11 romanisations, every text of any length, both values of nativize", "why_tests_cant": "unbounded texts, segmentation ambiguities", "anchors": ["aksharamukha/Convert.py:convertScript", "aksharamukha/ConvertFix.py:FixRomanOutput", "aksharamukha/ConvertFix.py:PostFixRomanOutput", "aksharamukha/PreProcess.py:RomanPreFix", "aksharamukha/PreProcess.py:PreProcess"]}
{"id": "C18", "title": "Longer source letters win over their prefixes", "statement": "In every conversion the replacement rules are tried from the longest source letter to the shortest, and each rule list is a permutation of the letter table: a digraph is never shadowed by its first letter.", "quantifier": "all supported source/target pairs, all tables", "why_tests_cant": "all tables and orders", "anchors": ["aksharamukha/Convert.py:lenSort", "aksharamukha/Convert.py:convertInter", "aksharamukha/Convert.py:convertScript"]}
{"id": "C19", "title": "Letter tables of all scripts are aligned", "statement": "For every supported script every table section exists and has the same number of letters as the interchange alphabet's section, so pairing two scripts' tables never truncates or shifts letters; and no import order or history of previous calls changes any table.", "quantifier": "all scripts, all sections, all histories of imports and lookups", "why_tests_cant": "histories are unbounded", "anchors": ["aksharamukha/GeneralMap.py:add_additional_chars", "aksharamukha/GeneralMap.py:CrunchSymbols"]}
{"id": "C20", "title": "auto_detect returns the script of the majority of the characters", "statement": "If more named characters of the text belong to an Indic Unicode script word W than to any other, auto_detect returns the script id associated with W.", "quantifier": "every text", "why_tests_cant": "all texts", "anchors": ["aksharamukha/transliterate.py:auto_detect"]}
{"id": "C21", "title": "The detected majority word does not depend on the order of the characters", "statement": "auto_detect's majority script word is the same for every permutation of the text; ties go to the lexicographically greatest word.", "quantifier": "every text and permutation", "why_tests_cant": "all texts", "anchors": ["aksharamukha/transliterate.py:auto_detect"]}
{"id": "C22", "title": "auto_detect fails on text without named characters", "statement": "auto_detect returns a script for every non-empty text. (False: it raises IndexError on the empty text and on texts consisting of unnamed characters.)", "quantifier": "every text", "why_tests_cant": "all texts", "anchors": ["aksharamukha/transliterate.py:auto_detect"]}
{"id": "C23", "title": "Detected pre-options are only added for Thai, Lao and Urdu", "statement": "detect_preoptions returns at most one option, always the name of an existing pre-processing option, and none for sources other than Thai, Lao, LaoPali and Urdu; for Urdu always UrduShortNotShown; for the others exactly when one of the marks of the phonetic or Sajjhaya orthographies occurs in the text.", "quantifier": "every text and script name", "why_tests_cant": "all texts", "anchors": ["aksharamukha/transliterate.py:detect_preoptions"]}
{"id": "C24", "title": "User supplied pre-options are honoured under auto-detection", "statement": "process('autodetect', ..., pre_options=P) applies P. (False: P is discarded.)", "quantifier": "every text and pre-option list", "why_tests_cant": "all lists", "anchors": ["aksharamukha/transliterate.py:process_default"]}
{"id": "C25", "title": "Nativized output carries no removable diacritics", "statement": "With nativize=True and no post-options, the output of a conversion to a target other than Latn and Tamil contains none of U+02BC, U+02C7, U+02C6, U+02D8, U+00B7 (for Tamil: the last four).", "quantifier": "every text, every covered pair", "why_tests_cant": "all texts", "anchors": ["aksharamukha/transliterate.py:convert", "aksharamukha/PostProcess.py:RemoveDiacritics"]}
{"id": "C26", "title": "Latin text inside Semitic and kana input is protected", "statement": "retainLatin followed by its reverse is the identity on any text free of the private placeholders, and the protected text contains no protected letter. (The letters o-macron and A are not individually protected.)", "quantifier": "every text", "why_tests_cant": "all texts", "anchors": ["aksharamukha/PreProcess.py:retainLatin"]}
{"id": "C27", "title": "Parts of ITRANS text between ## marks are kept", "statement": "process('Itrans', tgt, text) for a text in which pairs of ## mark parts: the result is the text without the marks, the parts as they are and what is outside them converted letter by letter, each stretch by itself. The text must be in the plain spelling of ITRANS. (False otherwise: variants of letters, such as w for v or oo for U, are replaced in the marked parts too, so ##law book## gives lav bUk.)", "quantifier": "any number of marked parts of any length, all pairs of 87 Indic scripts, both values of nativize", "why_tests_cant": "unbounded texts; the pre-processing sees the whole text before it is divided", "anchors": ["aksharamukha/transliterate.py:convert", "aksharamukha/PreProcess.py:PreProcess"]}
{"id": "C28", "title": "Semitic transliteration between equal scripts is the identity", "statement": "Transliterator.tr(text, sc=S, to_sc=S) returns text for every S and text.", "quantifier": "every S, text", "why_tests_cant": "all texts", "anchors": ["aksharamukha/gimeltra.py:Transliterator.tr"]}
{"id": "C29", "title": "Conversion between Semitic scripts goes letter by letter", "statement": "Between any two different Semitic scripts, a text of consonant letters, digits, punctuation, Roman letters and characters the library does not know, none of which becomes a letter with a special final form, is converted letter by letter: each letter becomes the target's letter for the same Latin sign, or for the nearest sign the target has; everything else stays, except Arabic punctuation and the Ugaritic word divider.", "quantifier": "every pair of different Semitic scripts, every such text, with and without nativisation", "why_tests_cant": "930 pairs of scripts and texts of any length; rules for one letter can hit parts of others", "anchors": ["aksharamukha/gimeltra.py:Transliterator", "aksharamukha/Convert.py:convertScript", "aksharamukha/transliterate.py:convert"]}
{"id": "C30", "title": "File conversion writes only a new file with a derived name, and keeps every archive entry", "statement": "Converting a file changes no file but one: the new file in the same directory whose name is the input's stem, '_', source, (for docx: '_',) target and the extension. In particular the input is never changed. A text file's new content is what process returns for its text. A docx file becomes an archive with the same entries in the same order; entries other than the XML files in folder word are unchanged, and in those only the texts of w:t elements change, each into its conversion. Paths that are no file or of no known format change nothing.", "quantifier": "every file system, path, pair of scripts, option lists, archive, XML tree; every outcome (success or exception)", "why_tests_cant": "all archives, trees, paths and failures", "anchors": ["aksharamukha/transliterate_file.py"]}
{"id": "C31", "title": "docx conversion applies pre-options before and post-options after transliteration", "statement": "The texts of a docx file are converted with the pre-options applied before and the post-options after transliteration, as for text files. (False: the two lists are passed in swapped positions.)", "quantifier": "every pair of option lists", "why_tests_cant": "all lists", "anchors": ["aksharamukha/transliterate_file.py:convert_docx"]}
{"id": "C32", "title": "Pre- and post-options are applied in the order given", "statement": "process with options [o1,...,on] applies the option functions one after the other in that order, pre-options before and post-options after the script conversion.", "quantifier": "every list of single-argument options", "why_tests_cant": "all lists", "anchors": ["aksharamukha/transliterate.py:convert"]}
{"id": "C33", "title": "Kharoshthi numerals denote the number they were made from", "statement": "The numeral produced for a decimal number, read by the additive-multiplicative rules of the script, has the value of that number, for every number the code supports.", "quantifier": "every natural number", "why_tests_cant": "all numbers", "anchors": ["aksharamukha/ConvertFix.py:kharoshthiNumber"]}
{"id": "C34", "title": "Old Persian numerals denote the number they were made from", "statement": "The numeral produced for a decimal number, read additively, has the value of that number.", "quantifier": "every natural number in range", "why_tests_cant": "all numbers", "anchors": ["aksharamukha/ConvertFix.py:OldPersianNumeral"]}
{"id": "C35", "title": "Conversion leaves the caller's option lists untouched and calls do not influence each other", "statement": "For every sequence of process calls, each call returns what it would return as the first call, and no caller-supplied list is modified.", "quantifier": "all call histories", "why_tests_cant": "unbounded histories", "anchors": ["aksharamukha/transliterate.py:convert", "aksharamukha/GeneralMap.py:CrunchSymbols"]}
{"id": "C36", "title": "Unsupported scripts leave text untransliterated", "statement": "process with a source or target the library does not know (in no list of scripts) returns the text as it is, provided the text has none of the spellings the library normalises for every pair of scripts. (The warning promises 'will not be transliterated'.)", "quantifier": "every settled text, every unknown name, every supported script on the other side", "why_tests_cant": "all texts", "anchors": ["aksharamukha/transliterate.py:convert_default", "aksharamukha/Convert.py:convertScript"]}
{"id": "C37", "title": "String replacement semantics used by every table pass", "statement": "Sequential table replacement over an alphabet where each rule's source occurs in no earlier rule's output acts letter by letter.", "quantifier": "every rule table and text", "why_tests_cant": "all texts and tables", "anchors": ["aksharamukha/Convert.py:convertScript"]}
{"id": "C38", "title": "Every language code of the script data is usable", "statement": "For every script entry of the data file and every language code listed for it, that code is accepted as a language code by process(..., param='lang_code').", "quantifier": "every entry, every listed code, every text", "why_tests_cant": "all texts; data and splitting logic interact (codes after the first are listed with a leading blank and are never matched)", "anchors": ["aksharamukha/transliterate.py:process_lang_tag"]}
{"id": "C39", "title": "Scripts with parallel Unicode blocks are converted by moving letters between blocks", "statement": "For Devanagari, Bengali, Assamese, Gurmukhi, Gujarati, Oriya, Tamil, Telugu, Kannada and Malayalam, converting text of letters the two scripts share moves each letter by the distance of the two Unicode blocks and leaves everything else unchanged, except at the code points where a script departs from the common layout.", "quantifier": "all 90 ordered pairs, all shared texts", "why_tests_cant": "unbounded texts, all pairs", "anchors": ["aksharamukha/Convert.py:convertScript", "aksharamukha/ScriptMap"]}
{"id": "C40", "title": "HTML conversion changes the texts only", "statement": "Converting an HTML file keeps all elements, attributes and their order, and replaces every string by its conversion; comments, doctype, scripts remain what they are. (The last part is false: every string becomes page text.)", "quantifier": "every HTML tree, pair of scripts, option lists", "why_tests_cant": "all trees", "anchors": ["aksharamukha/transliterate_file.py:convert_html"]}
{"id": "C41", "title": "A failed file conversion leaves all files as they were", "statement": "If converting a file raises an exception, no file has been changed or created. (False for text files: the output is emptied first.)", "quantifier": "every file system, path, scripts, options and exception", "why_tests_cant": "every failure point", "anchors": ["aksharamukha/transliterate_file.py:convert_txt", "aksharamukha/transliterate_file.py:convert_docx", "aksharamukha/transliterate_file.py:convert_html"]}
{"id": "C42", "title": "Conversions of one file into different scripts do not overwrite each other", "statement": "For two different pairs of script names the new file names differ. (False for text and HTML for one pair of pairs.)", "quantifier": "every path and two pairs of listed script names", "why_tests_cant": "all paths and 180^4 combinations of names", "anchors": ["aksharamukha/transliterate_file.py:convert_txt", "aksharamukha/transliterate_file.py:flush_zip_to_file", "aksharamukha/GeneralMap.py"]}
{"id": "C43", "title": "Romanisation spells Indic text syllable by syllable", "statement": "For a covered Indic script, a romanisation and every well-formed text of core letters with unambiguous spellings, process returns the spelling of the text: the spelling of each consonant, followed by the spelling of its vowel sign, by nothing if a virama follows, and by the inherent vowel otherwise; vowel letters, marks and digits by their spelling; a hiatus between a and i or u is marked the way of the romanisation; other characters are kept. (False for letters with ambiguous spellings, such as Q in SLP1.)", "quantifier": "87 Indic scripts, 11 romanisations, every text of any length, both values of nativize", "why_tests_cant": "unbounded texts, neighbouring syllables interact through a dozen table passes and regular expressions", "anchors": ["aksharamukha/Convert.py:convertScript", "aksharamukha/ConvertFix.py:FixRomanOutput", "aksharamukha/ConvertFix.py:PostFixRomanOutput"]}
{"id": "C44", "title": "Romanised text is read letter by letter", "statement": "For two covered Indic scripts A and B, a romanisation R and every text of A whose spelling in R can be read in one way only, process from R to B applied to that spelling returns the text in the letters of B, letter by letter; so a detour from A through R to B gives what the direct conversion gives.", "quantifier": "all pairs of 87 Indic scripts, 11 romanisations, every text of any length, both values of nativize", "why_tests_cant": "unbounded texts; longest-match segmentation, vowel joining and separators interact over whole texts", "anchors": ["aksharamukha/Convert.py:convertScript", "aksharamukha/Convert.py:convertInter", "aksharamukha/PreProcess.py:RomanPreFix"]}
{"id": "C45", "title": "Semitic text comes back from another Semitic script", "statement": "If every character of a Semitic text has one letter in another Semitic script that is written back as the same character, converting there and back returns the text, and the text in between has the same length. Word dividers of Ugaritic do not meet this: they are lost.", "quantifier": "every pair of different Semitic scripts, every such text, any nativisation either way", "why_tests_cant": "texts of any length; every pair of scripts", "anchors": ["aksharamukha/gimeltra.py:Transliterator", "aksharamukha/ConvertFix.py:FixUgar"]}
{"id": "C46", "title": "Semitic romanisation keeps the text", "statement": "Romanising Semitic text replaces every consonant letter by its Latin sign and keeps everything else; romanised text is read sign by sign; so going through the romanisation to another Semitic script gives what the direct conversion gives, and a text of letters that their own script writes for their Latin signs comes back from its romanisation. (The sign s with a subscript two is read as s with a superscript two; nativised Arabic spells long vowels differently.)", "quantifier": "every one of 31 Semitic scripts, every text of its consonant letters, plain non-letters and neutral characters, any nativisation", "why_tests_cant": "texts of any length; signs of more than one character could be read across their borders", "anchors": ["aksharamukha/gimeltra.py:Transliterator", "aksharamukha/ConvertFix.py:FixSemiticRoman", "aksharamukha/PreProcess.py:PreProcess"]}
{"id": "C47", "title": "No text makes a request with options crash", "statement": "A request between covered scripts, Semitic scripts and their romanisation standards included, returns a string for every text, with any combination and order of pre-options and post-options, except those that raise on every text (C48), three that depend on code outside the model, and indicDandas or romanFullStop where the script has no table of punctuation.", "quantifier": "every text, every pair of 145+ sources and 146+ targets, 36 Semitic names, 4 romanisation standards, every list of options in any case, both values of nativize", "why_tests_cant": "unbounded texts, and every subset and order of some 400 options", "anchors": ["aksharamukha/transliterate.py:process", "aksharamukha/transliterate.py:convert", "aksharamukha/PreProcess.py", "aksharamukha/PostProcess.py"]}
{"id": "C48", "title": "Options that cannot be used always raise", "statement": "35 names that are accepted as options (functions of the modules that need more arguments than the text, or are broken) make every request raise, whatever the text, the scripts and the other options. The standard PersianDMG makes every request raise when it is the source.", "quantifier": "every text, every source and target name, every list of options that contains such a name, both values of nativize", "why_tests_cant": "every combination with scripts and other options, texts of any length", "anchors": ["aksharamukha/transliterate.py:convert_default", "aksharamukha/transliterate.py:convert", "aksharamukha/PreProcess.py", "aksharamukha/PostProcess.py"]}
{"id": "C49", "title": "A text is converted line by line", "statement": "Converting a text of several lines, without options or with post-options that do not themselves look across a newline, gives the conversions of the single lines with the same newlines between them. It is claimed for all but a few scripts whose spelling rules look across a newline, if no vertical bar is used as a full stop (for HK, IAST, ISO, Itrans and the two Pali romanisations) and, towards Indic scripts, if the text does not contain all letters of the syllable Om. Without these conditions it is false.", "quantifier": "every list of lines of any length, every pair of the covered scripts, both values of nativize, every list of the 274 covered post-options", "why_tests_cant": "texts with any number of lines of any length, and some 20000 pairs of scripts with their own rewriting rules", "anchors": ["aksharamukha/transliterate.py:process", "aksharamukha/Convert.py:convertScript", "aksharamukha/ConvertFix.py", "aksharamukha/PreProcess.py"]}
{"id": "C50", "title": "A text is converted word by word", "statement": "The same for words separated by blanks: converting a text, without options or with post-options that do not look across blanks, gives the conversions of the single words with the same blanks between them, under the conditions of C49 and with more scripts excepted, those that rewrite blanks or look across them.", "quantifier": "every list of words of any length, every pair of the covered scripts, both values of nativize, every list of the 256 covered post-options", "why_tests_cant": "texts with any number of words of any length, and some 20000 pairs of scripts with their own rewriting rules", "anchors": ["aksharamukha/transliterate.py:process", "aksharamukha/Convert.py:convertScript", "aksharamukha/ConvertFix.py", "aksharamukha/PreProcess.py"]}
{"id": "C51", "title": "Both encodings of a letter are read alike", "statement": "Texts that differ only in how Unicode encodes their letters (composed, or as a base letter and marks; Malayalam chillu letters also in the spelling with a joiner) are converted to the same result.", "quantifier": "every text, every choice of encodings at every place in it, every covered Indic source and target", "why_tests_cant": "any mixture of encodings at any number of places, next to any other characters", "anchors": ["aksharamukha/PreProcess.py:normalize", "aksharamukha/PreProcess.py:PreProcess"]}
{"id": "C52", "title": "Capitals do not matter in romanised text with diacritics", "statement": "From a romanisation with diacritics (IAST, ISO, IPA, Titus, ...), a text and the text in lower case are converted to the same result.", "quantifier": "every text, every covered target, with and without nativisation", "why_tests_cant": "every text, every pattern of capitals", "anchors": ["aksharamukha/PreProcess.py:PreProcess", "aksharamukha/GeneralMap.py:RomanDiacritic"]}
{"id": "C53", "title": "Options that abolish characters leave none of them", "statement": "If an option that replaces or removes characters (Hebrew points, Tamil superscripts, historical letters, independent vowels, ...) comes last among the post-options, the result of the conversion contains none of these characters.", "quantifier": "every text, every pair of covered scripts, every list of ordinary options before it", "why_tests_cant": "every text, and any other options before", "anchors": ["aksharamukha/PostProcess.py", "aksharamukha/transliterate.py:convert"]}
{"id": "C54", "title": "ALA-LC romanisation never crashes and keeps what is not of the script", "statement": "A request from or to the ALA-LC romanisation (RomanLoC), which stands for a different romanisation of each script, returns a string for every text and any combination of callable options, and the neutral characters of the text stay in it in their order. It fails for the five Batak scripts: every request between one of them and RomanLoC raises an exception.", "quantifier": "every text, every covered script (letters, Semitic, standards) on the other side, every combination of options but those listed, with and without nativisation", "why_tests_cant": "every text and every combination of options; the switch of names and options is different for 28 scripts", "anchors": ["aksharamukha/transliterate.py:convert", "aksharamukha/GeneralMap.py:LoCScripts", "aksharamukha/GeneralMap.py:LoCTgtMap"]}
{"id": "C55", "title": "Automatic detection leads to a conversion that does not crash", "statement": "If auto_detect returns a script for a text, it is a script of the library or what the Unicode database gives for a character of the text; if it is one of the covered scripts, process('autodetect', T, text, ...) returns a string; if it is one the library does not know, the text is returned unchanged under the conditions of C36.", "quantifier": "every text, every covered target, every combination of callable output options, with and without nativisation", "why_tests_cant": "every text; the pre-options applied depend on the text", "anchors": ["aksharamukha/transliterate.py:auto_detect", "aksharamukha/transliterate.py:detect_preoptions", "aksharamukha/transliterate.py:process_default"]}
{"id": "C56", "title": "Detection tells variants of a script apart by their characteristic signs", "statement": "If most characters of a text are of a script that several supported scripts share (Bengali, Lao, Syriac, Arabic, Latin, Myanmar), auto_detect returns the variant whose characteristic letters or signs occur in the text, the stronger one first (for instance Punjabi before Urdu before Persian before Arabic), and the plain script if none occurs; for Myanmar script it is the language with most letters of its own.", "quantifier": "every text with such a majority, every order of its characters", "why_tests_cant": "every text: any mixture of signs anywhere in it", "anchors": ["aksharamukha/transliterate.py:auto_detect"]}
{"id": "C57", "title": "Numbers keep their value", "statement": "Numbers written in the digits of one script are written with the same digits, in the same order, in the digits of the other script, and the punctuation between them stays; in particular a numeral is converted to a numeral of the same value. The same for romanisation (11 romanisations, ASCII digits) and for reading romanised numbers (9 romanisations).", "quantifier": "every text of numbers of any length, every pair of the 59 scripts with decimal digits (but those that give a shared character different values), with and without nativisation", "why_tests_cant": "numbers of any length, in any text, for some 3400 pairs of scripts", "anchors": ["aksharamukha/ScriptMap/MainIndic/Devanagari.py:NumeralMap", "aksharamukha/Convert.py:convertScript", "aksharamukha/transliterate.py:process"]}
{"id": "C58", "title": "An option given twice has the effect of giving it once", "statement": "Giving a post-option (or a pre-option) twice in a row, with any other options before and after it, gives the same result as giving it once. It is claimed for the options that only replace letters and spellings by others which they do not replace themselves (115 post-options, 37 pre-options); for options that exchange letters it is false.", "quantifier": "every text, every pair of different covered scripts, both values of nativize, every list of ordinary options around it", "why_tests_cant": "a replacement can bring about a spelling that the option replaces again, depending on what stands around it; this has to be excluded for texts of any length and any neighbouring options", "anchors": ["aksharamukha/transliterate.py:convert", "aksharamukha/PostProcess.py", "aksharamukha/PreProcess.py"]}
