c("C01", "proved", ["C01_same_script_identity"], "All names other than the Semitic romanisation standards, every text.")
c("C02", "proved", ["C02_names_case_insensitive", "C02_resolves_to_listed_name"], "")
c("C03", "proved", ["C03_options_up_to_case_and_unknown", "C03_unknown_option_ignored", "C03_option_case_insensitive"], "")
c("C04", "proved", ["C04_unknown_param_gives_none", "C04_known_param_gives_text", "C04_codes_name_scripts"], "")
c("C07", "partial", ["C07_neutral_kept_partial", "C07_neutral_kept_with_options_partial", "C07_violated", "C07_options_violated"], "The claim fails for the scripts and options of C07_violated and C07_options_violated (proved, with witnesses). Proved for all other covered pairs, with any options and with Semitic scripts, Itrans and romanisation standards (C07_neutral_kept_with_options_partial); kana and RomanLoC are not covered.")
c("C08", "proved", ["C08_neutral_text_unchanged"], "All pairs of 141 sources and 145 targets; Semitic scripts, kana and RomanLoC are not covered.")
c("C09", "proved", ["C09_no_exception", "C09_itrans", "C47_no_exception_with_options"], "141 sources and Itrans, 145 targets, both values of nativize, every text; with C47 also the Semitic scripts, their romanisation standards and options.")
c("C10", "proved", ["C10_markers_do_not_leak", "C10_inherent_marker_does_not_leak"], "U+F000 present in the text survives unless the pair is Indic to Roman.")
c("C24", "partial", ["C24_autodetect_ignores_preoptions", "C24_violated"], "The English claim is false of the code; its negation is proved.")
c("C25", "proved", ["C25_nativised_without_diacritics"], "")
c("C05", "proved", ["C05_code_names_one_script", "C05_known_codes_resolve", "C05_unknown_code_rejected"], "ISO 15924 codes, with and without language part.")
c("C06", "proved", ["C06_code_names_one_script", "C06_known_codes_resolve", "C06_unknown_code_rejected"], "Language codes; secondary codes of an entry are listed with a leading blank, see C38.")
c("C18", "proved", ["C18_indic_to_indic", "C18_latin_to_indic", "C18_indic_to_latin", "C18_latin_to_latin", "C18_longest_first_no_shadow"], "All Indic and Roman scripts but the composite RomanLoC; source RomanSemitic to Roman is deliberately treated otherwise by the code.")
c("C19", "proved", ["C19_tables_exist", "C19_history_irrelevant", "C19_sections_aligned"], "All 146 script modules, all histories of imports.")
c("C20", "proved", ["C20_majority_decides", "C20_autodetect_as_named", "C20_bengali_assamese", "C20_latin"], "")
c("C21", "proved", ["C21_order_irrelevant", "C21_detected_script_order_irrelevant", "C21_ties_to_greatest"], "")
c("C22", "partial", ["C22_detects_partial", "C22_violated", "C22_plugin_latin_violated"], "The claim is false of the code: negation proved. Partial: a script is returned for every text with a named character outside the failing cases.")
c("C23", "proved", ["C23_detected_preoptions", "C23_when_detected", "C23_autodetect_without_preoptions"], "")
SP = "87 Indic scripts, all ordered pairs but 41 of closely related scripts that use one character for different letters; texts of core letters, punctuation, Latin letters, neutral characters, without the letter sequences listed for the script."
c("C12", "proved", ["C12_round_trip", "C12_round_trip_native", "C12_injective"], SP)
c("C13", "proved", ["C13_chunkwise"], SP)
c("C14", "proved", ["C14_detour"], SP)
c("C15", "proved", ["C15_letter_by_letter", "C15_position_by_position"], SP)
c("C16", "partial", ["C16_digits_and_stops_lost", "C16_digits_and_stops_partial"], "The English claim is false of the code for scripts whose tables contain ASCII digits or the full stop: witness proved. Proved for the other covered scripts.")
c("C37", "proved", ["C37_table_pass"], "Every rule list and text meeting the hypotheses; instances are the table passes of C12-C15.")
NU = "Every covered source script, every text of core letters and decimal numbers without leading zeros. The code divides floats, so the model agrees with it for numbers below 8*10^15."
c("C33", "proved", ["C33_kharoshthi_numerals", "C33_numbers_in_text", "C33_decimal"], NU)
c("C34", "proved", ["C34_oldPersian_numerals", "C34_numbers_in_text"], NU)
c("C26", "partial", ["C26_restored", "C26_shielded_partial", "C26_violated"], "The claim is false of the code: negation proved. Proved: shielding followed by unshielding restores every text outside the six letters handed over to the conversion and outside the private characters; the shielded letters survive a letter table that does not mention the private characters.")
c("C28", "proved", ["C28_same_script"], "")
c("C32", "partial", ["C32_options_in_order_partial"], "Missing: the options that also steer other parts of the conversion, equal scripts, and the scripts with a path of their own.")
c("C35", "partial", ["C35_tables_same_after_any_calls_partial"], "The module cache is the only state the modelled code has between calls; the other functions of the model have no state by construction. Missing: the state inside the libraries used.")
c("C38", "partial", ["C38_violated", "C38_first_codes_partial", "C38_first_codes_convert_partial"], "The claim is false of the code for secondary codes: negation proved. Proved for the first code of every entry.")
c("C39", "proved", ["C39_parallel_blocks"], "Ten scripts with parallel Unicode blocks, all ordered pairs, texts as in C12.")
c("C30", "proved", ["C30_other_files_kept", "C30_input_kept", "C30_unsupported", "C30_txt", "C30_docx"], "Libraries (text codec, zip, lxml, BeautifulSoup) are parameters. C30_txt is for calls without options; C30_docx for archives without repeated names.")
c("C31", "partial", ["C31_violated", "C31_options_exchanged", "C31_equal_lists_partial"], "The claim is false of the code: negation proved. Proved for equal lists; what the code does instead is proved as well.")
c("C40", "partial", ["C40_html_partial", "C40_violated"], "Comments become text: negation proved.")
c("C41", "partial", ["C41_failure_writes_nothing_partial", "C41_violated"], "False for text files: negation proved.")
c("C42", "partial", ["C42_docx_names_differ", "C42_names_differ_partial", "C42_violated"], "False for one pair of pairs: negation proved. Proved for docx and, but for that clash, for text and HTML.")
c("C43", "proved", ["C43_syllable_by_syllable", "C43_nukta_violated"], "Why ambiguous spellings are left out: C43_nukta_violated. Proved for 87 Indic scripts and 11 romanisations (all pairs but 34 that share characters), texts of the covered letters.")
c("C17", "proved", ["C17_there_and_back", "C17_itrans", "C17_velthuis", "C17_injective", "C17_aspirate_violated", "C17_run_together_violated"], "Forward C43, backward C44. Assumes that str.lower and NFC leave texts in the letters of IAST, ISO, their Pali variants and Titus alone (Env.KeepsSpelt). Why other texts are left out: the two counterexamples.")
c("C44", "proved", ["C44_spelling_is_read", "C44_itrans", "C44_velthuis", "C44_detour", "C44_velthuis_violated"], "Same assumption as C17. Itrans: without variants of letters. Velthuis: without o and m one character apart (the counterexample shows why).")
c("C27", "proved", ["C27_marked_parts_kept", "C27_variants_violated"], "Texts without variants of letters; the counterexample shows why.")
c("C36", "partial", ["C36_unknown_source_partial", "C36_unknown_target_partial", "C36_both_unknown", "C36_violated"], "Unknown both ways: settled texts come back unchanged. False in general (negation proved): Semitic romanisation standards route through the Semitic script, and some spellings are always normalised. Sources the library normalises and nativisation to four targets are left out.")
c("C11", "proved", ["C11_no_letter_left", "C11_disjoint"], "All texts, all pairs of plain scripts (Indic and Roman): single-character letters outside the Latin, Hebrew, Arabic and private-use blocks and the dandas, unless the target is written with the same character.")
c("C29", "proved", ["C29_letter_by_letter", "C29_append"], "All 31 x 30 pairs of Semitic scripts. Assumes that NFD leaves Semitic consonant letters alone and that none is a combining mark (Env.SemiticOps).")
c("C45", "proved", ["C45_round_trip", "C45_violated_word_divider"], "Same assumption as C29. The word divider of Ugaritic is removed before the code that turns it into a blank.")
c("C46", "proved", ["C46_romanised", "C46_read", "C46_detour", "C46_round_trip", "C46_subscript_violated"], "Same assumption as C29, and that str.lower leaves the Latin signs alone (Env.KeepsSigns). Final letter forms, nativised Arabic and two signs that are normalised on reading are left out.")
c("C47", "proved", ["C47_no_exception_with_options"], "Excludes the options of C48, three options and one pair (Tamil to IPA) left to code outside the model, Japanese kana and ALA-LC romanisation.")
c("C48", "proved", ["C48_failing_options", "C48_PersianDMG_unreadable"], "Any names of scripts; the target must not be empty or Ignore, for which the text is returned.")
c("C49", "partial", ["C49_line_by_line_partial", "C49_two_om_violated", "C49_bar_violated", "C49_cross_violated"], "Missing: the sources Thai and LaoPali and ten targets whose rules look across a newline (crossSources, crossTargets), texts with a vertical bar from six sources, texts with all letters of Om where Om is sought, a script converted to itself with nativisation or options, Semitic scripts, pre-options and the post-options of specialPost and crossOptions. For the first three the claim is false, as the witnesses show.")
c("C50", "partial", ["C50_word_by_word_partial", "C50_two_om_violated", "C50_cross_violated"], "As for C49, with 9 sources and 25 targets excepted.")
c("C51", "partial", ["C51_two_spellings_partial", "C51_violated"], "Proved for the 29 letters of twoSpellings; false of the code for other canonical decompositions: witnesses proved.")
c("C52", "proved", ["C52_capitals_ignored"], "")
c("C53", "proved", ["C53_abolished"], "The options of the list abolished (Spec/Abolish.lean).")
c("C54", "partial", ["C54_alalc_no_exception_partial", "C54_neutral_kept_partial", "C54_violated"], "Fails for the Batak scripts (C54_violated), which are listed as having an ALA-LC romanisation without a table for it; neutral characters with the exceptions of C07.")
c("C55", "proved", ["C55_detected_script", "C55_autodetect_no_exception", "C55_unknown_script_unchanged"], "Japanese kana and the options of C47 excepted.")
c("C56", "proved", ["C56_variant_by_signs", "C56_myanmar"], "")
c("C58", "partial", ["C58_option_twice_partial", "C58_violated"], "Missing: options outside repeatablePost and repeatablePre, for some of which (swapEe) the claim is false: witness proved.")
c("C57", "proved", ["C57_numbers_keep_value", "C57_value", "C57_numbers_romanised", "C57_numbers_read"], "The zero digits of Spec/Digits.lean are those of Unicode.")
