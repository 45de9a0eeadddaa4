{
 "claims": [
  {
   "property": "C01",
   "status": "proved",
   "theorems": [
    "Verif.C01_same_script_identity"
   ],
   "note": "All names other than the Semitic romanisation standards, every text."
  },
  {
   "property": "C02",
   "status": "proved",
   "theorems": [
    "Verif.C02_names_case_insensitive",
    "Verif.C02_resolves_to_listed_name"
   ],
   "note": ""
  },
  {
   "property": "C03",
   "status": "proved",
   "theorems": [
    "Verif.C03_options_up_to_case_and_unknown",
    "Verif.C03_unknown_option_ignored",
    "Verif.C03_option_case_insensitive"
   ],
   "note": ""
  },
  {
   "property": "C04",
   "status": "proved",
   "theorems": [
    "Verif.C04_unknown_param_gives_none",
    "Verif.C04_known_param_gives_text",
    "Verif.C04_codes_name_scripts"
   ],
   "note": ""
  },
  {
   "property": "C07",
   "status": "partial",
   "theorems": [
    "Verif.C07_neutral_kept_partial",
    "Verif.C07_neutral_kept_with_options_partial",
    "Verif.C07_violated",
    "Verif.C07_options_violated"
   ],
   "note": "The claim fails for the scripts and options of C07_violated and C07_options_violated (proved, with witnesses). Proved for all other covered pairs, with any options and with Semitic scripts, Itrans and romanisation standards (C07_neutral_kept_with_options_partial); kana and RomanLoC are not covered."
  },
  {
   "property": "C08",
   "status": "proved",
   "theorems": [
    "Verif.C08_neutral_text_unchanged"
   ],
   "note": "All pairs of 141 sources and 145 targets; Semitic scripts, kana and RomanLoC are not covered."
  },
  {
   "property": "C09",
   "status": "proved",
   "theorems": [
    "Verif.C09_no_exception",
    "Verif.C09_itrans",
    "Verif.C47_no_exception_with_options"
   ],
   "note": "141 sources and Itrans, 145 targets, both values of nativize, every text; with C47 also the Semitic scripts, their romanisation standards and options."
  },
  {
   "property": "C10",
   "status": "proved",
   "theorems": [
    "Verif.C10_markers_do_not_leak",
    "Verif.C10_inherent_marker_does_not_leak"
   ],
   "note": "U+F000 present in the text survives unless the pair is Indic to Roman."
  },
  {
   "property": "C24",
   "status": "partial",
   "theorems": [
    "Verif.C24_autodetect_ignores_preoptions",
    "Verif.C24_violated"
   ],
   "note": "The English claim is false of the code; its negation is proved."
  },
  {
   "property": "C25",
   "status": "proved",
   "theorems": [
    "Verif.C25_nativised_without_diacritics"
   ],
   "note": ""
  },
  {
   "property": "C05",
   "status": "proved",
   "theorems": [
    "Verif.C05_code_names_one_script",
    "Verif.C05_known_codes_resolve",
    "Verif.C05_unknown_code_rejected"
   ],
   "note": "ISO 15924 codes, with and without language part."
  },
  {
   "property": "C06",
   "status": "proved",
   "theorems": [
    "Verif.C06_code_names_one_script",
    "Verif.C06_known_codes_resolve",
    "Verif.C06_unknown_code_rejected"
   ],
   "note": "Language codes; secondary codes of an entry are listed with a leading blank, see C38."
  },
  {
   "property": "C18",
   "status": "proved",
   "theorems": [
    "Verif.C18_indic_to_indic",
    "Verif.C18_latin_to_indic",
    "Verif.C18_indic_to_latin",
    "Verif.C18_latin_to_latin",
    "Verif.C18_longest_first_no_shadow"
   ],
   "note": "All Indic and Roman scripts but the composite RomanLoC; source RomanSemitic to Roman is deliberately treated otherwise by the code."
  },
  {
   "property": "C19",
   "status": "proved",
   "theorems": [
    "Verif.C19_tables_exist",
    "Verif.C19_history_irrelevant",
    "Verif.C19_sections_aligned"
   ],
   "note": "All 146 script modules, all histories of imports."
  },
  {
   "property": "C20",
   "status": "proved",
   "theorems": [
    "Verif.C20_majority_decides",
    "Verif.C20_autodetect_as_named",
    "Verif.C20_bengali_assamese",
    "Verif.C20_latin"
   ],
   "note": ""
  },
  {
   "property": "C21",
   "status": "proved",
   "theorems": [
    "Verif.C21_order_irrelevant",
    "Verif.C21_detected_script_order_irrelevant",
    "Verif.C21_ties_to_greatest"
   ],
   "note": ""
  },
  {
   "property": "C22",
   "status": "partial",
   "theorems": [
    "Verif.C22_detects_partial",
    "Verif.C22_violated",
    "Verif.C22_plugin_latin_violated"
   ],
   "note": "The claim is false of the code: negation proved. Partial: a script is returned for every text with a named character outside the failing cases."
  },
  {
   "property": "C23",
   "status": "proved",
   "theorems": [
    "Verif.C23_detected_preoptions",
    "Verif.C23_when_detected",
    "Verif.C23_autodetect_without_preoptions"
   ],
   "note": ""
  },
  {
   "property": "C12",
   "status": "proved",
   "theorems": [
    "Verif.C12_round_trip",
    "Verif.C12_round_trip_native",
    "Verif.C12_injective"
   ],
   "note": "87 Indic scripts, all ordered pairs but 41 of closely related scripts that use one character for different letters; texts of core letters, punctuation, Latin letters, neutral characters, without the letter sequences listed for the script."
  },
  {
   "property": "C13",
   "status": "proved",
   "theorems": [
    "Verif.C13_chunkwise"
   ],
   "note": "87 Indic scripts, all ordered pairs but 41 of closely related scripts that use one character for different letters; texts of core letters, punctuation, Latin letters, neutral characters, without the letter sequences listed for the script."
  },
  {
   "property": "C14",
   "status": "proved",
   "theorems": [
    "Verif.C14_detour"
   ],
   "note": "87 Indic scripts, all ordered pairs but 41 of closely related scripts that use one character for different letters; texts of core letters, punctuation, Latin letters, neutral characters, without the letter sequences listed for the script."
  },
  {
   "property": "C15",
   "status": "proved",
   "theorems": [
    "Verif.C15_letter_by_letter",
    "Verif.C15_position_by_position"
   ],
   "note": "87 Indic scripts, all ordered pairs but 41 of closely related scripts that use one character for different letters; texts of core letters, punctuation, Latin letters, neutral characters, without the letter sequences listed for the script."
  },
  {
   "property": "C16",
   "status": "partial",
   "theorems": [
    "Verif.C16_digits_and_stops_lost",
    "Verif.C16_digits_and_stops_partial"
   ],
   "note": "The English claim is false of the code for scripts whose tables contain ASCII digits or the full stop: witness proved. Proved for the other covered scripts."
  },
  {
   "property": "C37",
   "status": "proved",
   "theorems": [
    "Verif.C37_table_pass"
   ],
   "note": "Every rule list and text meeting the hypotheses; instances are the table passes of C12-C15."
  },
  {
   "property": "C33",
   "status": "proved",
   "theorems": [
    "Verif.C33_kharoshthi_numerals",
    "Verif.C33_numbers_in_text",
    "Verif.C33_decimal"
   ],
   "note": "Every covered source script, every text of core letters and decimal numbers without leading zeros. The code divides floats, so the model agrees with it for numbers below 8*10^15."
  },
  {
   "property": "C34",
   "status": "proved",
   "theorems": [
    "Verif.C34_oldPersian_numerals",
    "Verif.C34_numbers_in_text"
   ],
   "note": "Every covered source script, every text of core letters and decimal numbers without leading zeros. The code divides floats, so the model agrees with it for numbers below 8*10^15."
  },
  {
   "property": "C26",
   "status": "partial",
   "theorems": [
    "Verif.C26_restored",
    "Verif.C26_shielded_partial",
    "Verif.C26_violated"
   ],
   "note": "The claim is false of the code: negation proved. Proved: shielding followed by unshielding restores every text outside the six letters handed over to the conversion and outside the private characters; the shielded letters survive a letter table that does not mention the private characters."
  },
  {
   "property": "C28",
   "status": "proved",
   "theorems": [
    "Verif.C28_same_script"
   ],
   "note": ""
  },
  {
   "property": "C32",
   "status": "partial",
   "theorems": [
    "Verif.C32_options_in_order_partial"
   ],
   "note": "Missing: the options that also steer other parts of the conversion, equal scripts, and the scripts with a path of their own."
  },
  {
   "property": "C35",
   "status": "partial",
   "theorems": [
    "Verif.C35_tables_same_after_any_calls_partial"
   ],
   "note": "The module cache is the only state the modelled code has between calls; the other functions of the model have no state by construction. Missing: the state inside the libraries used."
  },
  {
   "property": "C38",
   "status": "partial",
   "theorems": [
    "Verif.C38_violated",
    "Verif.C38_first_codes_partial",
    "Verif.C38_first_codes_convert_partial"
   ],
   "note": "The claim is false of the code for secondary codes: negation proved. Proved for the first code of every entry."
  },
  {
   "property": "C39",
   "status": "proved",
   "theorems": [
    "Verif.C39_parallel_blocks"
   ],
   "note": "Ten scripts with parallel Unicode blocks, all ordered pairs, texts as in C12."
  },
  {
   "property": "C30",
   "status": "proved",
   "theorems": [
    "Verif.C30_other_files_kept",
    "Verif.C30_input_kept",
    "Verif.C30_unsupported",
    "Verif.C30_txt",
    "Verif.C30_docx"
   ],
   "note": "Libraries (text codec, zip, lxml, BeautifulSoup) are parameters. C30_txt is for calls without options; C30_docx for archives without repeated names."
  },
  {
   "property": "C31",
   "status": "partial",
   "theorems": [
    "Verif.C31_violated",
    "Verif.C31_options_exchanged",
    "Verif.C31_equal_lists_partial"
   ],
   "note": "The claim is false of the code: negation proved. Proved for equal lists; what the code does instead is proved as well."
  },
  {
   "property": "C40",
   "status": "partial",
   "theorems": [
    "Verif.C40_html_partial",
    "Verif.C40_violated"
   ],
   "note": "Comments become text: negation proved."
  },
  {
   "property": "C41",
   "status": "partial",
   "theorems": [
    "Verif.C41_failure_writes_nothing_partial",
    "Verif.C41_violated"
   ],
   "note": "False for text files: negation proved."
  },
  {
   "property": "C42",
   "status": "partial",
   "theorems": [
    "Verif.C42_docx_names_differ",
    "Verif.C42_names_differ_partial",
    "Verif.C42_violated"
   ],
   "note": "False for one pair of pairs: negation proved. Proved for docx and, but for that clash, for text and HTML."
  },
  {
   "property": "C43",
   "status": "proved",
   "theorems": [
    "Verif.C43_syllable_by_syllable",
    "Verif.C43_nukta_violated"
   ],
   "note": "Why ambiguous spellings are left out: C43_nukta_violated. Proved for 87 Indic scripts and 11 romanisations (all pairs but 34 that share characters), texts of the covered letters."
  },
  {
   "property": "C17",
   "status": "proved",
   "theorems": [
    "Verif.C17_there_and_back",
    "Verif.C17_itrans",
    "Verif.C17_velthuis",
    "Verif.C17_injective",
    "Verif.C17_aspirate_violated",
    "Verif.C17_run_together_violated"
   ],
   "note": "Forward C43, backward C44. Assumes that str.lower and NFC leave texts in the letters of IAST, ISO, their Pali variants and Titus alone (Env.KeepsSpelt). Why other texts are left out: the two counterexamples."
  },
  {
   "property": "C44",
   "status": "proved",
   "theorems": [
    "Verif.C44_spelling_is_read",
    "Verif.C44_itrans",
    "Verif.C44_velthuis",
    "Verif.C44_detour",
    "Verif.C44_velthuis_violated"
   ],
   "note": "Same assumption as C17. Itrans: without variants of letters. Velthuis: without o and m one character apart (the counterexample shows why)."
  },
  {
   "property": "C27",
   "status": "proved",
   "theorems": [
    "Verif.C27_marked_parts_kept",
    "Verif.C27_variants_violated"
   ],
   "note": "Texts without variants of letters; the counterexample shows why."
  },
  {
   "property": "C36",
   "status": "partial",
   "theorems": [
    "Verif.C36_unknown_source_partial",
    "Verif.C36_unknown_target_partial",
    "Verif.C36_both_unknown",
    "Verif.C36_violated"
   ],
   "note": "Unknown both ways: settled texts come back unchanged. False in general (negation proved): Semitic romanisation standards route through the Semitic script, and some spellings are always normalised. Sources the library normalises and nativisation to four targets are left out."
  },
  {
   "property": "C11",
   "status": "proved",
   "theorems": [
    "Verif.C11_no_letter_left",
    "Verif.C11_disjoint"
   ],
   "note": "All texts, all pairs of plain scripts (Indic and Roman): single-character letters outside the Latin, Hebrew, Arabic and private-use blocks and the dandas, unless the target is written with the same character."
  },
  {
   "property": "C29",
   "status": "proved",
   "theorems": [
    "Verif.C29_letter_by_letter",
    "Verif.C29_append"
   ],
   "note": "All 31 x 30 pairs of Semitic scripts. Assumes that NFD leaves Semitic consonant letters alone and that none is a combining mark (Env.SemiticOps)."
  },
  {
   "property": "C45",
   "status": "proved",
   "theorems": [
    "Verif.C45_round_trip",
    "Verif.C45_violated_word_divider"
   ],
   "note": "Same assumption as C29. The word divider of Ugaritic is removed before the code that turns it into a blank."
  },
  {
   "property": "C46",
   "status": "proved",
   "theorems": [
    "Verif.C46_romanised",
    "Verif.C46_read",
    "Verif.C46_detour",
    "Verif.C46_round_trip",
    "Verif.C46_subscript_violated"
   ],
   "note": "Same assumption as C29, and that str.lower leaves the Latin signs alone (Env.KeepsSigns). Final letter forms, nativised Arabic and two signs that are normalised on reading are left out."
  },
  {
   "property": "C47",
   "status": "proved",
   "theorems": [
    "Verif.C47_no_exception_with_options"
   ],
   "note": "Excludes the options of C48, three options and one pair (Tamil to IPA) left to code outside the model, Japanese kana and ALA-LC romanisation."
  },
  {
   "property": "C48",
   "status": "proved",
   "theorems": [
    "Verif.C48_failing_options",
    "Verif.C48_PersianDMG_unreadable"
   ],
   "note": "Any names of scripts; the target must not be empty or Ignore, for which the text is returned."
  },
  {
   "property": "C49",
   "status": "partial",
   "theorems": [
    "Verif.C49_line_by_line_partial",
    "Verif.C49_two_om_violated",
    "Verif.C49_bar_violated",
    "Verif.C49_cross_violated"
   ],
   "note": "Missing: the sources Thai and LaoPali and ten targets whose rules look across a newline (crossSources, crossTargets), texts with a vertical bar from six sources, texts with all letters of Om where Om is sought, a script converted to itself with nativisation or options, Semitic scripts, pre-options and the post-options of specialPost and crossOptions. For the first three the claim is false, as the witnesses show."
  },
  {
   "property": "C50",
   "status": "partial",
   "theorems": [
    "Verif.C50_word_by_word_partial",
    "Verif.C50_two_om_violated",
    "Verif.C50_cross_violated"
   ],
   "note": "As for C49, with 9 sources and 25 targets excepted."
  },
  {
   "property": "C51",
   "status": "partial",
   "theorems": [
    "Verif.C51_two_spellings_partial",
    "Verif.C51_violated"
   ],
   "note": "Proved for the 29 letters of twoSpellings; false of the code for other canonical decompositions: witnesses proved."
  },
  {
   "property": "C52",
   "status": "proved",
   "theorems": [
    "Verif.C52_capitals_ignored"
   ],
   "note": ""
  },
  {
   "property": "C53",
   "status": "proved",
   "theorems": [
    "Verif.C53_abolished"
   ],
   "note": "The options of the list abolished (Spec/Abolish.lean)."
  },
  {
   "property": "C54",
   "status": "partial",
   "theorems": [
    "Verif.C54_alalc_no_exception_partial",
    "Verif.C54_neutral_kept_partial",
    "Verif.C54_violated"
   ],
   "note": "Fails for the Batak scripts (C54_violated), which are listed as having an ALA-LC romanisation without a table for it; neutral characters with the exceptions of C07."
  },
  {
   "property": "C55",
   "status": "proved",
   "theorems": [
    "Verif.C55_detected_script",
    "Verif.C55_autodetect_no_exception",
    "Verif.C55_unknown_script_unchanged"
   ],
   "note": "Japanese kana and the options of C47 excepted."
  },
  {
   "property": "C56",
   "status": "proved",
   "theorems": [
    "Verif.C56_variant_by_signs",
    "Verif.C56_myanmar"
   ],
   "note": ""
  },
  {
   "property": "C58",
   "status": "partial",
   "theorems": [
    "Verif.C58_option_twice_partial",
    "Verif.C58_violated"
   ],
   "note": "Missing: options outside repeatablePost and repeatablePre, for some of which (swapEe) the claim is false: witness proved."
  },
  {
   "property": "C57",
   "status": "proved",
   "theorems": [
    "Verif.C57_numbers_keep_value",
    "Verif.C57_value",
    "Verif.C57_numbers_romanised",
    "Verif.C57_numbers_read"
   ],
   "note": "The zero digits of Spec/Digits.lean are those of Unicode."
  }
 ]
}