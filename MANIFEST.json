{
 "claims": [
  {
   "property": "C01",
   "status": "proved",
   "theorems": [
    "NumberParser.Props.c01_english_round_trip",
    "NumberParser.Props.c01_english_text"
   ],
   "note": "all n < 10^24, all renderings"
  },
  {
   "property": "C02",
   "status": "proved",
   "theorems": [
    "NumberParser.Props.c02_spanish_round_trip",
    "NumberParser.Props.c02_spanish_text"
   ],
   "note": "all n < 10^60, all renderings"
  },
  {
   "property": "C03",
   "status": "proved",
   "theorems": [
    "NumberParser.Props.c03_hindi_round_trip",
    "NumberParser.Props.c03_hindi_text"
   ],
   "note": "all n < 10^13"
  },
  {
   "property": "C04",
   "status": "proved",
   "theorems": [
    "NumberParser.Props.c04_russian_round_trip",
    "NumberParser.Props.c04_russian_text"
   ],
   "note": "all n < 10^24"
  },
  {
   "property": "C05",
   "status": "proved",
   "theorems": [
    "NumberParser.Props.c05_ukrainian_round_trip",
    "NumberParser.Props.c05_ukrainian_text"
   ],
   "note": "all n < 10^18"
  },
  {
   "property": "C06",
   "status": "proved",
   "theorems": [
    "NumberParser.Props.c06_english_ordinals",
    "NumberParser.Props.c06_english_ordinal_text"
   ],
   "note": "all n < 10^24, all renderings"
  },
  {
   "property": "C07",
   "status": "proved",
   "theorems": [
    "NumberParser.Props.c07_fractions",
    "NumberParser.Props.c07_english_text"
   ],
   "note": "All four separators, all pairs below the language's bound, every rendering; proved for all five languages."
  },
  {
   "property": "C08",
   "status": "proved",
   "theorems": [
    "NumberParser.Props.c08_digits",
    "NumberParser.Props.c08_str"
   ],
   "note": "every digit text incl. other scripts and surrounding white space, every language argument"
  },
  {
   "property": "C09",
   "status": "proved",
   "theorems": [
    "NumberParser.Props.c09_listed_words",
    "NumberParser.Props.c09_as_listed"
   ],
   "note": "every entry, every spelling with the same comparison form; the three Ukrainian entries containing an apostrophe are covered by c09_as_listed"
  },
  {
   "property": "C10",
   "status": "proved",
   "theorems": [
    "NumberParser.Props.c10_english",
    "NumberParser.Props.c10_lists",
    "NumberParser.Props.c10_hindi",
    "NumberParser.Props.c10_hindi_refuted"
   ],
   "note": "English as stated; c10_lists: all word-tokenised languages, any renderings; Hindi with the mark standing apart"
  },
  {
   "property": "C100",
   "status": "proved",
   "theorems": [
    "NumberParser.Props.c100_number",
    "NumberParser.Props.c100_several",
    "NumberParser.Props.c100_ordinal",
    "NumberParser.Props.c100_cardinal",
    "NumberParser.Props.c100_normal",
    "NumberParser.Props.c100_supported",
    "NumberParser.Props.c100_shipped",
    "NumberParser.Props.c100_example",
    "NumberParser.Props.c100_refuted"
   ],
   "note": "any list of languages and any data module (tidy, moderate; for ordinals also plain and faithful)"
  },
  {
   "property": "C101",
   "status": "proved",
   "theorems": [
    "NumberParser.Props.c101_result",
    "NumberParser.Props.c101_parse",
    "NumberParser.Props.c101_number",
    "NumberParser.Props.c101_ordinal",
    "NumberParser.Props.c101_fraction",
    "NumberParser.Props.c101_repository",
    "NumberParser.Props.c101_example"
   ],
   "note": "iterations of loops in the source; built-in operations of Python are not counted"
  },
  {
   "property": "C102",
   "status": "proved",
   "theorems": [
    "NumberParser.Props.c102_parse",
    "NumberParser.Props.c102_number",
    "NumberParser.Props.c102_ordinal",
    "NumberParser.Props.c102_fraction",
    "NumberParser.Props.c102_named",
    "NumberParser.Props.c102_none",
    "NumberParser.Props.c102_added",
    "NumberParser.Props.c102_added_number",
    "NumberParser.Props.c102_order",
    "NumberParser.Props.c102_order_none",
    "NumberParser.Props.c102_reversed",
    "NumberParser.Props.c102_ordinal_word"
   ],
   "note": ""
  },
  {
   "property": "C103",
   "status": "proved",
   "theorems": [
    "NumberParser.Props.c103_parse",
    "NumberParser.Props.c103_number",
    "NumberParser.Props.c103_ordinal",
    "NumberParser.Props.c103_fraction",
    "NumberParser.Props.c103_no_word",
    "NumberParser.Props.c103_none",
    "NumberParser.Props.c103_example",
    "NumberParser.Props.c103_supported"
   ],
   "note": "any list of languages and any data module"
  },
  {
   "property": "C104",
   "status": "proved",
   "theorems": [
    "NumberParser.Props.c104_ordinal",
    "NumberParser.Props.c104_written",
    "NumberParser.Props.c104_converted",
    "NumberParser.Props.c104_round_trip",
    "NumberParser.Props.c104_indian",
    "NumberParser.Props.c104_example"
   ],
   "note": "Names of ordinals for any data module that lists the words of the names of numbers (Names, as in C93); Indian English as instance. Plain, Moderate and Faithful hold for the five languages (c83_supported, c100_supported) and those the repository could load (c83_shipped, c100_shipped)."
  },
  {
   "property": "C105",
   "status": "proved",
   "theorems": [
    "NumberParser.Props.c105_fraction",
    "NumberParser.Props.c105_fraction_text",
    "NumberParser.Props.c105_number",
    "NumberParser.Props.c105_ordinal",
    "NumberParser.Props.c105_indian",
    "NumberParser.Props.c105_indian_sentences",
    "NumberParser.Props.c105_example"
   ],
   "note": "From C84, C92, C93 and C104. FractionWord (Spec/VocabularyNamesInText) says which words can stand in a fraction; Indian English as instance, for all numbers below 10^10."
  },
  {
   "property": "C106",
   "status": "proved",
   "theorems": [
    "NumberParser.Props.c106_number",
    "NumberParser.Props.c106_ordinal",
    "NumberParser.Props.c106_fraction",
    "NumberParser.Props.c106_indian",
    "NumberParser.Props.c106_indian_fraction",
    "NumberParser.Props.c106_example"
   ],
   "note": "From C82, C93, C104 and C105. SameWords (Spec/VocabularyDetectNames) is the condition on other languages that recognise the whole name; the separator '/' is not covered without a language argument; Indian English beside any of the five languages, in any order, as instance, for all numbers below 10^10."
  },
  {
   "property": "C11",
   "status": "proved",
   "theorems": [
    "NumberParser.Props.c11_auto",
    "NumberParser.Props.c11_number_words",
    "NumberParser.Props.c11_fractions"
   ],
   "note": "Every rendering of every spelled number in range, five languages; also any sequence of number words of one language, and fractions."
  },
  {
   "property": "C12",
   "status": "proved",
   "theorems": [
    "NumberParser.Props.c12_idempotent"
   ],
   "note": "all five languages, every text"
  },
  {
   "property": "C13",
   "status": "proved",
   "theorems": [
    "NumberParser.Props.c13_no_number_word_left"
   ],
   "note": ""
  },
  {
   "property": "C14",
   "status": "proved",
   "theorems": [
    "NumberParser.Props.c14_plain_text_unchanged",
    "NumberParser.Props.c14_strip"
   ],
   "note": ""
  },
  {
   "property": "C15",
   "status": "proved",
   "theorems": [
    "NumberParser.Props.c15_ordinary_words_kept"
   ],
   "note": ""
  },
  {
   "property": "C16",
   "status": "proved",
   "theorems": [
    "NumberParser.Props.c16_conjunctions_kept",
    "NumberParser.Props.c16_inside_number",
    "NumberParser.Props.c16_between_numbers",
    "NumberParser.Props.c16_before_word",
    "NumberParser.Props.c16_before_mark",
    "NumberParser.Props.c16_refuted",
    "NumberParser.Props.c55_parse"
   ],
   "note": "The naive expectation is false (c16_refuted); the property states exactly when conjunctions are kept: c16_conjunctions_kept outside runs, the others after a number; c55_parse covers all combinations."
  },
  {
   "property": "C17",
   "status": "proved",
   "theorems": [
    "NumberParser.Props.c17_concat",
    "NumberParser.Props.c17_hindi"
   ],
   "note": "c17_hindi: the mark stands apart"
  },
  {
   "property": "C18",
   "status": "proved",
   "theorems": [
    "NumberParser.Props.c18_parse_agrees"
   ],
   "note": ""
  },
  {
   "property": "C19",
   "status": "proved",
   "theorems": [
    "NumberParser.Props.c19_ordinal_agrees"
   ],
   "note": "word input and digit strings"
  },
  {
   "property": "C20",
   "status": "proved",
   "theorems": [
    "NumberParser.Props.c20_fraction",
    "NumberParser.Props.c20_no_separator",
    "NumberParser.Props.c20_none",
    "NumberParser.Props.c20_cases"
   ],
   "note": "exact characterisation of results, None and exceptions"
  },
  {
   "property": "C21",
   "status": "proved",
   "theorems": [
    "NumberParser.Props.c21_foreign_word",
    "NumberParser.Props.c21_leading_conjunction"
   ],
   "note": ""
  },
  {
   "property": "C22",
   "status": "proved",
   "theorems": [
    "NumberParser.Props.c22_no_number_word",
    "NumberParser.Props.c22_number_words",
    "NumberParser.Props.c22_refuted"
   ],
   "note": "The naive expectation is false (c22_refuted); the property states exactly which texts without number words give a number."
  },
  {
   "property": "C23",
   "status": "proved",
   "theorems": [
    "NumberParser.Props.c23_blank"
   ],
   "note": ""
  },
  {
   "property": "C24",
   "status": "proved",
   "theorems": [
    "NumberParser.Props.c24_supported_number",
    "NumberParser.Props.c24_parse_number",
    "NumberParser.Props.c24_parse",
    "NumberParser.Props.c24_parse_ordinal",
    "NumberParser.Props.c24_ordinal_exact",
    "NumberParser.Props.c24_ordinal_auto",
    "NumberParser.Props.c24_parse_fraction",
    "NumberParser.Props.c24_parse_fraction_auto"
   ],
   "note": "exact characterisation of the texts parse_number, parse_ordinal and parse_fraction raise on"
  },
  {
   "property": "C25",
   "status": "proved",
   "theorems": [
    "NumberParser.Props.c25_unsupported",
    "NumberParser.Props.c25_unsupported_number",
    "NumberParser.Props.c25_unsupported_fraction"
   ],
   "note": ""
  },
  {
   "property": "C26",
   "status": "proved",
   "theorems": [
    "NumberParser.Props.c26_detection",
    "NumberParser.Props.c26_unique",
    "NumberParser.Props.c26_default"
   ],
   "note": ""
  },
  {
   "property": "C27",
   "status": "proved",
   "theorems": [
    "NumberParser.Props.c27_default_language"
   ],
   "note": ""
  },
  {
   "property": "C28",
   "status": "proved",
   "theorems": [
    "NumberParser.Props.c28_case",
    "NumberParser.Props.c28_lower",
    "NumberParser.Props.c28_refuted"
   ],
   "note": "all letters of Unicode except Sigma and dotted capital I; refuted for the latter"
  },
  {
   "property": "C29",
   "status": "proved",
   "theorems": [
    "NumberParser.Props.c29_spacing",
    "NumberParser.Props.c29_detected"
   ],
   "note": "explicit supported language or none"
  },
  {
   "property": "C30",
   "status": "proved",
   "theorems": [
    "NumberParser.Props.c30_leading_space",
    "NumberParser.Props.c30_detected",
    "NumberParser.Props.c30_leading_space_none",
    "NumberParser.Props.c30_not_words",
    "NumberParser.Props.c30_leading_conjunction",
    "NumberParser.Props.c30_refuted"
   ],
   "note": "The naive expectation is false (c30_refuted); the property states exactly when leading white space matters and what it does."
  },
  {
   "property": "C31",
   "status": "proved",
   "theorems": [
    "NumberParser.Props.c31_parse_number",
    "NumberParser.Props.c31_parse"
   ],
   "note": ""
  },
  {
   "property": "C32",
   "status": "proved",
   "theorems": [
    "NumberParser.Props.c32_soft_hyphens"
   ],
   "note": ""
  },
  {
   "property": "C33",
   "status": "proved",
   "theorems": [
    "NumberParser.Props.c33_apostrophes"
   ],
   "note": ""
  },
  {
   "property": "C34",
   "status": "proved",
   "theorems": [
    "NumberParser.Props.c34_accented_letters",
    "NumberParser.Props.c34_accented_letters_ordinal",
    "NumberParser.Props.c34_accents",
    "NumberParser.Props.c34_accents_ordinal",
    "NumberParser.Props.c34_refuted"
   ],
   "note": "Canonically equivalent texts may differ (c34_refuted)."
  },
  {
   "property": "C35",
   "status": "proved",
   "theorems": [
    "NumberParser.Props.c35_hyphen_is_no_sign"
   ],
   "note": "non-negativity of results is in the result type Nat"
  },
  {
   "property": "C36",
   "status": "proved",
   "theorems": [
    "NumberParser.Props.c36_scale_multiplies"
   ],
   "note": ""
  },
  {
   "property": "C37",
   "status": "proved",
   "theorems": [
    "NumberParser.Props.c37_word_adds"
   ],
   "note": "for every class pair: adds exactly if the table mayFollow allows it, else None"
  },
  {
   "property": "C38",
   "status": "proved",
   "theorems": [
    "NumberParser.Props.c38_units_not_merged"
   ],
   "note": ""
  },
  {
   "property": "C39",
   "status": "proved",
   "theorems": [
    "NumberParser.Props.c39_output_stripped"
   ],
   "note": ""
  },
  {
   "property": "C40",
   "status": "proved",
   "theorems": [
    "NumberParser.Props.c40_zero_denominator",
    "NumberParser.Props.c40_refuted"
   ],
   "note": "The naive expectation is false (c40_refuted); the property states exactly when the denominator is 0."
  },
  {
   "property": "C41",
   "status": "proved",
   "theorems": [
    "NumberParser.Props.c41_history",
    "NumberParser.Props.c41_next_call",
    "NumberParser.Props.c41_values"
   ],
   "note": "Calls are modelled as programs over shared mutable objects (imported data modules, class attributes); replies equal those of a fresh process after every history, tables intact."
  },
  {
   "property": "C42",
   "status": "proved",
   "theorems": [
    "NumberParser.Props.c42_tables"
   ],
   "note": ""
  },
  {
   "property": "C43",
   "status": "proved",
   "theorems": [
    "NumberParser.Props.c43_agree",
    "NumberParser.Props.c43_scale_plurals",
    "NumberParser.Props.c43_refuted"
   ],
   "note": "All pairs but one agree; the exception is proved, too."
  },
  {
   "property": "C44",
   "status": "proved",
   "theorems": [
    "NumberParser.Props.c44_tokens"
   ],
   "note": ""
  },
  {
   "property": "C45",
   "status": "proved",
   "theorems": [
    "NumberParser.Props.c45_sentence",
    "NumberParser.Props.c45_hindi"
   ],
   "note": "all five languages"
  },
  {
   "property": "C46",
   "status": "proved",
   "theorems": [
    "NumberParser.Props.c46_ranges",
    "NumberParser.Props.c46_scale_value",
    "NumberParser.Props.c46_more_digits",
    "NumberParser.Props.c46_float_loss",
    "NumberParser.Props.c46_index_error"
   ],
   "note": "Ranges of all words taken from rules; float arithmetic of _count_zero modelled. Also proved: TENS/HUNDREDS are not limited to two/three digits, a rule for 10**24 is lost and the word for 10**35 becomes 100, a rule ending in < raises IndexError."
  },
  {
   "property": "C47",
   "status": "proved",
   "theorems": [
    "NumberParser.Props.c47_entries",
    "NumberParser.Props.c47_distinct",
    "NumberParser.Props.c47_sorted",
    "NumberParser.Props.c47_skip",
    "NumberParser.Props.c47_float_order"
   ],
   "note": "Exact content, distinct words, sorting; order by word needs integral supplementary numbers (counterexample c47_float_order)."
  },
  {
   "property": "C48",
   "status": "proved",
   "theorems": [
    "NumberParser.Props.c48_synonyms"
   ],
   "note": ""
  },
  {
   "property": "C49",
   "status": "proved",
   "theorems": [
    "NumberParser.Props.c49_threads"
   ],
   "note": "Interleaving of the atomic accesses to the shared objects under every schedule; also bounded completion."
  },
  {
   "property": "C50",
   "status": "proved",
   "theorems": [
    "NumberParser.Props.c50_regenerate",
    "NumberParser.Props.c50_ukrainian_drift",
    "NumberParser.Props.c50_ukrainian_effect",
    "NumberParser.Props.c50_other_languages",
    "NumberParser.Props.c50_other_names",
    "NumberParser.Props.c50_without_scale"
   ],
   "note": "82 of 83 modules are regenerated exactly; the Ukrainian one differs by exactly five words."
  },
  {
   "property": "C51",
   "status": "proved",
   "theorems": [
    "NumberParser.Props.c51_read_back",
    "NumberParser.Props.c51_conditions",
    "NumberParser.Props.c51_shipped"
   ],
   "note": "Read back under the stated conditions on words, for all generated outputs; the conditions are shown to be needed; the five shipped files are checked as texts."
  },
  {
   "property": "C52",
   "status": "proved",
   "theorems": [
    "NumberParser.Props.c52_run",
    "NumberParser.Props.c52_order",
    "NumberParser.Props.c52_exception",
    "NumberParser.Props.c52_killed",
    "NumberParser.Props.c52_truncated"
   ],
   "note": "Normal end, listing order, exceptions and kills; c52_truncated shows that a kill can leave an emptied module."
  },
  {
   "property": "C53",
   "status": "proved",
   "theorems": [
    "NumberParser.Props.c53_generate",
    "NumberParser.Props.c53_run",
    "NumberParser.Props.c53_ordinary"
   ],
   "note": "Exact conditions for exceptions."
  },
  {
   "property": "C54",
   "status": "proved",
   "theorems": [
    "NumberParser.Props.c54_number",
    "NumberParser.Props.c54_first_token",
    "NumberParser.Props.c54_none",
    "NumberParser.Props.c54_unique",
    "NumberParser.Props.reading_205003"
   ],
   "note": "The rules are in Spec/Reading.lean (Reading, ReadsAs, OnlyWords). c54_number: result n iff the rules give n; c54_none: None otherwise."
  },
  {
   "property": "C55",
   "status": "proved",
   "theorems": [
    "NumberParser.Props.c55_parse",
    "NumberParser.Props.c55_total"
   ],
   "note": "The rules are in Spec/Reading.lean (Cut, Converted). parse returns exactly the converted text without white space at the ends; every text is converted in exactly one way."
  },
  {
   "property": "C56",
   "status": "proved",
   "theorems": [
    "NumberParser.Props.c56_ordinal",
    "NumberParser.Props.c56_none",
    "NumberParser.Props.c56_blank",
    "NumberParser.Props.c56_numeral"
   ],
   "note": "Exact, for all texts and languages. OnlyNumbers and SingleNumeral are in Spec/Reading.lean."
  },
  {
   "property": "C57",
   "status": "proved",
   "theorems": [
    "NumberParser.Props.c57_case",
    "NumberParser.Props.c57_accents"
   ],
   "note": "parse converts the same numbers whatever the case/accents"
  },
  {
   "property": "C58",
   "status": "proved",
   "theorems": [
    "NumberParser.Props.c58_pieces",
    "NumberParser.Props.c58_number"
   ],
   "note": "All texts, supported languages."
  },
  {
   "property": "C59",
   "status": "proved",
   "theorems": [
    "NumberParser.Props.c59_ordinal",
    "NumberParser.Props.c59_ordinal_text",
    "NumberParser.Props.c59_sentence",
    "NumberParser.Props.c59_start",
    "NumberParser.Props.c59_end"
   ],
   "note": "English ordinals in parse, alone and in sentences"
  },
  {
   "property": "C60",
   "status": "proved",
   "theorems": [
    "NumberParser.Props.c60_digits_kept",
    "NumberParser.Props.c60_digits_before",
    "NumberParser.Props.c60_digits_after",
    "NumberParser.Props.c60_no_number",
    "NumberParser.Props.c60_refuted"
   ],
   "note": "tokens with a digit are kept; neighbours converted on their own; parse_number finds nothing"
  },
  {
   "property": "C61",
   "status": "proved",
   "theorems": [
    "NumberParser.Props.c61_words",
    "NumberParser.Props.c61_prefix"
   ],
   "note": "lower bound by each word; prefixes"
  },
  {
   "property": "C62",
   "status": "proved",
   "theorems": [
    "NumberParser.Props.c62_inside",
    "NumberParser.Props.c62_end",
    "NumberParser.Props.c62_start"
   ],
   "note": "All texts, supported languages; texts without apostrophes (parse_number drops them, parse does not)."
  },
  {
   "property": "C63",
   "status": "proved",
   "theorems": [
    "NumberParser.Props.c63_spacing",
    "NumberParser.Props.c63_leading"
   ],
   "note": "All texts, given or detected language."
  },
  {
   "property": "C64",
   "status": "proved",
   "theorems": [
    "NumberParser.Props.c64_read",
    "NumberParser.Props.c64_error",
    "NumberParser.Props.c64_meaning",
    "NumberParser.Props.c64_blanks",
    "NumberParser.Props.c64_duplicates"
   ],
   "note": "json.load on bytes equals a JSON grammar with meanings (UTF-8, escapes, surrogates, numbers, duplicates)"
  },
  {
   "property": "C65",
   "status": "proved",
   "theorems": [
    "NumberParser.Props.c65_nearest",
    "NumberParser.Props.c65_exact",
    "NumberParser.Props.c65_powers",
    "NumberParser.Props.c65_inexact"
   ],
   "note": "correctly rounded doubles; c65_inexact records that 1e23 is not exact"
  },
  {
   "property": "C66",
   "status": "proved",
   "theorems": [
    "NumberParser.Props.c66_module",
    "NumberParser.Props.c66_left_out",
    "NumberParser.Props.c66_layout",
    "NumberParser.Props.c66_bad_source",
    "NumberParser.Props.c66_bad_supplementary",
    "NumberParser.Props.c66_exception",
    "NumberParser.Props.c66_target",
    "NumberParser.Props.c66_words",
    "NumberParser.Props.c66_lost"
   ],
   "note": "One language, bytes to bytes; c66_lost records that an old module can be emptied. Usual: no values of unexpected types in the supplementary file (see the property)."
  },
  {
   "property": "C67",
   "status": "proved",
   "theorems": [
    "NumberParser.Props.c67_success",
    "NumberParser.Props.c67_run",
    "NumberParser.Props.c67_untouched",
    "NumberParser.Props.c67_order",
    "NumberParser.Props.c67_again",
    "NumberParser.Props.c67_exception",
    "NumberParser.Props.c67_killed"
   ],
   "note": "Runs over directories of bytes, exceptions and kills. Supplementary files without values of unexpected types (Usual); c67_untouched for all files."
  },
  {
   "property": "C68",
   "status": "proved",
   "theorems": [
    "NumberParser.Props.c68_shipped",
    "NumberParser.Props.c68_ukrainian_drift"
   ],
   "note": "en, es, hi, ru: byte for byte; for uk the claim is false, the difference is stated exactly"
  },
  {
   "property": "C69",
   "status": "proved",
   "theorems": [
    "NumberParser.Props.c69_sides",
    "NumberParser.Props.c69_case",
    "NumberParser.Props.c69_spacing",
    "NumberParser.Props.c69_again",
    "NumberParser.Props.c69_refuted"
   ],
   "note": "c69_refuted: the separators are recognised in small letters only, so case does matter for them"
  },
  {
   "property": "C70",
   "status": "proved",
   "theorems": [
    "NumberParser.Props.c70_number",
    "NumberParser.Props.c70_fraction",
    "NumberParser.Props.c70_refuted"
   ],
   "note": "c70_refuted: without the conditions (ordinals, leading minus, apostrophes) the two differ"
  },
  {
   "property": "C71",
   "status": "proved",
   "theorems": [
    "NumberParser.Props.c71_score",
    "NumberParser.Props.c71_join",
    "NumberParser.Props.c71_neutral",
    "NumberParser.Props.c71_swap",
    "NumberParser.Props.c71_single",
    "NumberParser.Props.c71_pieces"
   ],
   "note": ""
  },
  {
   "property": "C72",
   "status": "proved",
   "theorems": [
    "NumberParser.Props.c72_parse",
    "NumberParser.Props.c72_number",
    "NumberParser.Props.c72_ordinal",
    "NumberParser.Props.c72_sentence",
    "NumberParser.Props.c72_refuted"
   ],
   "note": "RecognisedOnlyIn is in Verif/Spec/Recognised.lean. parse_number and parse_ordinal drop apostrophes before reading but not before detecting the language, so the claim is for texts without apostrophes. c72_refuted: why Hindi texts without recognised token are excepted for parse_ordinal."
  },
  {
   "property": "C73",
   "status": "proved",
   "theorems": [
    "NumberParser.Props.c73_parse",
    "NumberParser.Props.c73_digits",
    "NumberParser.Props.c73_number",
    "NumberParser.Props.c73_ordinal",
    "NumberParser.Props.c73_fraction",
    "NumberParser.Props.c73_detected",
    "NumberParser.Props.c73_sharp"
   ],
   "note": "growthFactor in Verif/Spec/Size.lean; c73_sharp: for Spanish, Ukrainian and English no smaller whole factor would do."
  },
  {
   "property": "C74",
   "status": "proved",
   "theorems": [
    "NumberParser.Props.c74_number",
    "NumberParser.Props.c74_several",
    "NumberParser.Props.c74_ordinal",
    "NumberParser.Props.c74_refuted"
   ],
   "note": "Equivalences in both directions; c74_refuted shows why the ordinal must be the last word."
  },
  {
   "property": "C75",
   "status": "proved",
   "theorems": [
    "NumberParser.Props.c75_apart",
    "NumberParser.Props.c75_number",
    "NumberParser.Props.c75_linked",
    "NumberParser.Props.c75_refuted"
   ],
   "note": "iff for lists of any length, five languages; the general claim refuted"
  },
  {
   "property": "C76",
   "status": "proved",
   "theorems": [
    "NumberParser.Props.c76_english",
    "NumberParser.Props.c76_hindi",
    "NumberParser.Props.c76_thousand",
    "NumberParser.Props.c76_refuted"
   ],
   "note": "English and Hindi, all spellings; the reading with a count above 1000 in front of 'thousand' is refuted"
  },
  {
   "property": "C77",
   "status": "proved",
   "theorems": [
    "NumberParser.Props.c77_after_number",
    "NumberParser.Props.c77_mark",
    "NumberParser.Props.c77_after_word",
    "NumberParser.Props.c77_in_front",
    "NumberParser.Props.c77_enclosed",
    "NumberParser.Props.c77_refuted"
   ],
   "note": "all texts, all punctuation characters"
  },
  {
   "property": "C78",
   "status": "proved",
   "theorems": [
    "NumberParser.Props.c78_pipeline",
    "NumberParser.Props.c78_loaded",
    "NumberParser.Props.c78_word",
    "NumberParser.Props.c78_both",
    "NumberParser.Props.c78_without_scale",
    "NumberParser.Props.c78_capitals",
    "NumberParser.Props.c78_repository"
   ],
   "note": "Composition of generator, module text and parser; table values are natural numbers below 10^4300."
  },
  {
   "property": "C79",
   "status": "proved",
   "theorems": [
    "NumberParser.Props.c79_forms",
    "NumberParser.Props.c79_declined",
    "NumberParser.Props.c79_spells",
    "NumberParser.Props.c79_russian",
    "NumberParser.Props.c79_russian_text",
    "NumberParser.Props.c79_spanish",
    "NumberParser.Props.c79_spanish_text",
    "NumberParser.Props.c79_russian_vocabulary",
    "NumberParser.Props.c79_spanish_vocabulary",
    "NumberParser.Props.c79_refuted"
   ],
   "note": "Russian in six cases and Spanish genders, all numbers; inflected forms in every language; the full claim for zero and Ukrainian is refuted"
  },
  {
   "property": "C80",
   "status": "proved",
   "theorems": [
    "NumberParser.Props.c80_reads",
    "NumberParser.Props.c80_none",
    "NumberParser.Props.c80_supported",
    "NumberParser.Props.c80_shipped",
    "NumberParser.Props.c80_polish",
    "NumberParser.Props.c80_portuguese"
   ],
   "note": "For arbitrary data modules (Spec/Vocabulary: Sensible). c80_shipped covers the 66 loadable modules of languages that are not enabled, except Polish; c80_polish shows the exception. c80_none (Props/VocabularyOrdinal): None in all other cases, for tidy and moderate modules."
  },
  {
   "property": "C81",
   "status": "proved",
   "theorems": [
    "NumberParser.Props.c81_converts",
    "NumberParser.Props.c81_exact",
    "NumberParser.Props.c81_total",
    "NumberParser.Props.c81_repository",
    "NumberParser.Props.c81_supported",
    "NumberParser.Props.c81_shipped",
    "NumberParser.Props.c81_portuguese"
   ],
   "note": "parse on the tables of any data module; specification in Spec/VocabularyText.lean"
  },
  {
   "property": "C82",
   "status": "proved",
   "theorems": [
    "NumberParser.Props.c82_repository",
    "NumberParser.Props.c82_named",
    "NumberParser.Props.c82_five",
    "NumberParser.Props.c82_unsupported",
    "NumberParser.Props.c82_converts",
    "NumberParser.Props.c82_reads",
    "NumberParser.Props.c82_one",
    "NumberParser.Props.c82_detected",
    "NumberParser.Props.c82_removed",
    "NumberParser.Props.c82_added",
    "NumberParser.Props.c82_last_unchanged",
    "NumberParser.Props.c82_last_taken",
    "NumberParser.Props.c82_portuguese"
   ],
   "note": "The API with any list of languages (Model/Package); equal to the API of the repository for its five languages."
  },
  {
   "property": "C83",
   "status": "proved",
   "theorems": [
    "NumberParser.Props.c83_reads",
    "NumberParser.Props.c83_none",
    "NumberParser.Props.c83_white_space",
    "NumberParser.Props.c83_white_space_none",
    "NumberParser.Props.c83_blank",
    "NumberParser.Props.c83_numeral",
    "NumberParser.Props.c83_package",
    "NumberParser.Props.c83_supported",
    "NumberParser.Props.c83_shipped",
    "NumberParser.Props.c83_example",
    "NumberParser.Props.c83_example_white_space"
   ],
   "note": "parse_ordinal for any plain data module; texts with apostrophes in a language called hi have rules of their own"
  },
  {
   "property": "C84",
   "status": "proved",
   "theorems": [
    "NumberParser.Props.c84_fraction",
    "NumberParser.Props.c84_no_separator",
    "NumberParser.Props.c84_outcome",
    "NumberParser.Props.c84_words",
    "NumberParser.Props.c84_example"
   ],
   "note": "parse_fraction for any list of languages and modules"
  },
  {
   "property": "C85",
   "status": "proved",
   "theorems": [
    "NumberParser.Props.c85_no_number_word_left",
    "NumberParser.Props.c85_plain_text_unchanged",
    "NumberParser.Props.c85_idempotent",
    "NumberParser.Props.c85_output_stripped",
    "NumberParser.Props.c85_ordinary_words_kept",
    "NumberParser.Props.c85_conjunctions_kept",
    "NumberParser.Props.c85_supported",
    "NumberParser.Props.c85_shipped",
    "NumberParser.Props.c85_example"
   ],
   "note": "For every package, every neat and moderate module and every text (Spec/VocabularyOutput)."
  },
  {
   "property": "C86",
   "status": "proved",
   "theorems": [
    "NumberParser.Props.c86_case",
    "NumberParser.Props.c86_accents",
    "NumberParser.Props.c86_soft_hyphens",
    "NumberParser.Props.c86_apostrophes",
    "NumberParser.Props.c86_spacing",
    "NumberParser.Props.c86_leading_space",
    "NumberParser.Props.c86_example"
   ],
   "note": "For any list of languages and data modules (tidy ones for white space)"
  },
  {
   "property": "C87",
   "status": "proved",
   "theorems": [
    "NumberParser.Props.c87_python311",
    "NumberParser.Props.c87_larger",
    "NumberParser.Props.c87_parse",
    "NumberParser.Props.c87_number",
    "NumberParser.Props.c87_digits",
    "NumberParser.Props.c87_ordinal",
    "NumberParser.Props.c87_fraction",
    "NumberParser.Props.c87_refuted"
   ],
   "note": "c87_python311: the interpreter of all other properties is CPython 3.11 with its default limit of 4300 digits. c87_refuted: the limit 640 refuses Spanish words."
  },
  {
   "property": "C88",
   "status": "proved",
   "theorems": [
    "NumberParser.Props.c88_same",
    "NumberParser.Props.c88_everyday",
    "NumberParser.Props.c88_any_limit",
    "NumberParser.Props.c88_refuted"
   ],
   "note": "White space (str.isspace, re's \\s) is the same in all supported versions and not a parameter. c88_refuted: a character new in a version."
  },
  {
   "property": "C89",
   "status": "proved",
   "theorems": [
    "NumberParser.Props.c89_posix",
    "NumberParser.Props.c89_converted",
    "NumberParser.Props.c89_undecodable",
    "NumberParser.Props.c89_ascii_files",
    "NumberParser.Props.c89_compatible",
    "NumberParser.Props.c89_ascii_run",
    "NumberParser.Props.c89_ascii_error",
    "NumberParser.Props.c89_line_ends",
    "NumberParser.Props.c89_shipped",
    "NumberParser.Props.c89_wrong_words",
    "NumberParser.Props.c89_example"
   ],
   "note": "c89_shipped, c89_wrong_words: refutations of 'runs everywhere'."
  },
  {
   "property": "C90",
   "status": "proved",
   "theorems": [
    "NumberParser.Props.c90_strings",
    "NumberParser.Props.c90_language",
    "NumberParser.Props.c90_parse",
    "NumberParser.Props.c90_number",
    "NumberParser.Props.c90_fraction",
    "NumberParser.Props.c90_no_value",
    "NumberParser.Props.c90_example"
   ],
   "note": "Objects of user-made classes are not modelled."
  },
  {
   "property": "C91",
   "status": "proved",
   "theorems": [
    "NumberParser.Props.c91_same",
    "NumberParser.Props.c91_utf8",
    "NumberParser.Props.c91_messages",
    "NumberParser.Props.c91_meaning",
    "NumberParser.Props.c91_exception",
    "NumberParser.Props.c91_refused",
    "NumberParser.Props.c91_example"
   ],
   "note": "All files and standard outputs; c91_messages and c91_exception for supplementary files without values of unexpected types (Usual)."
  },
  {
   "property": "C92",
   "status": "proved",
   "theorems": [
    "NumberParser.Props.c92_pieces",
    "NumberParser.Props.c92_number",
    "NumberParser.Props.c92_concat",
    "NumberParser.Props.c92_whole",
    "NumberParser.Props.c92_inside",
    "NumberParser.Props.c92_case",
    "NumberParser.Props.c92_accents",
    "NumberParser.Props.c92_spacing",
    "NumberParser.Props.c92_leading",
    "NumberParser.Props.c92_supported",
    "NumberParser.Props.c92_shipped",
    "NumberParser.Props.c92_example"
   ],
   "note": ""
  },
  {
   "property": "C93",
   "status": "proved",
   "theorems": [
    "NumberParser.Props.c93_number",
    "NumberParser.Props.c93_text",
    "NumberParser.Props.c93_named",
    "NumberParser.Props.c93_written",
    "NumberParser.Props.c93_converted",
    "NumberParser.Props.c93_round_trip",
    "NumberParser.Props.c93_indian",
    "NumberParser.Props.c93_indian_round_trip",
    "NumberParser.Props.c93_spanish",
    "NumberParser.Props.c93_norwegian"
   ],
   "note": "Names of numbers are read as the numbers, for any data module and system of names; the Indian English and Spanish data are instances."
  },
  {
   "property": "C94",
   "status": "proved",
   "theorems": [
    "NumberParser.Props.c94_linked",
    "NumberParser.Props.c94_apart",
    "NumberParser.Props.c94_number",
    "NumberParser.Props.c94_exact",
    "NumberParser.Props.c94_closed",
    "NumberParser.Props.c94_conjunctions",
    "NumberParser.Props.c94_example"
   ],
   "note": "All lists of languages and all tidy, moderate data modules; the condition is stated with parse_number and is shown necessary as well."
  },
  {
   "property": "C95",
   "status": "proved",
   "theorems": [
    "NumberParser.Props.c95_after_number",
    "NumberParser.Props.c95_mark",
    "NumberParser.Props.c95_after_word",
    "NumberParser.Props.c95_in_front",
    "NumberParser.Props.c95_enclosed",
    "NumberParser.Props.c95_punctuation",
    "NumberParser.Props.c95_supported",
    "NumberParser.Props.c95_shipped",
    "NumberParser.Props.c95_example"
   ],
   "note": "All lists of languages and all tidy, moderate data modules; language not called hi."
  },
  {
   "property": "C96",
   "status": "proved",
   "theorems": [
    "NumberParser.Props.c96_score",
    "NumberParser.Props.c96_neutral",
    "NumberParser.Props.c96_join",
    "NumberParser.Props.c96_swap",
    "NumberParser.Props.c96_single",
    "NumberParser.Props.c96_covers",
    "NumberParser.Props.c96_unknown",
    "NumberParser.Props.c96_pieces",
    "NumberParser.Props.c96_supported",
    "NumberParser.Props.c96_example"
   ],
   "note": "for every list of languages with tidy data modules and all texts"
  },
  {
   "property": "C97",
   "status": "proved",
   "theorems": [
    "NumberParser.Props.c97_words",
    "NumberParser.Props.c97_prefix",
    "NumberParser.Props.c97_digits",
    "NumberParser.Props.c97_multiplies",
    "NumberParser.Props.c97_adds",
    "NumberParser.Props.c97_parse",
    "NumberParser.Props.c97_moderate",
    "NumberParser.Props.c97_example"
   ],
   "note": "any package and module (Sensible/Tidy+Moderate); example with the languages of the repository and Portuguese"
  },
  {
   "property": "C98",
   "status": "proved",
   "theorems": [
    "NumberParser.Props.c98_no_faults",
    "NumberParser.Props.c98_success",
    "NumberParser.Props.c98_same",
    "NumberParser.Props.c98_exception",
    "NumberParser.Props.c98_reason",
    "NumberParser.Props.c98_targets",
    "NumberParser.Props.c98_untouched",
    "NumberParser.Props.c98_recovers",
    "NumberParser.Props.c98_as_if",
    "NumberParser.Props.c98_full",
    "NumberParser.Props.c98_example"
   ],
   "note": "for files without values of unexpected types with which Python goes on (Usual), as in C66/C67"
  },
  {
   "property": "C99",
   "status": "proved",
   "theorems": [
    "NumberParser.Props.c99_moment",
    "NumberParser.Props.c99_quiet",
    "NumberParser.Props.c99_finished",
    "NumberParser.Props.c99_other",
    "NumberParser.Props.c99_completes",
    "NumberParser.Props.c99_alone",
    "NumberParser.Props.c99_runs",
    "NumberParser.Props.c99_hole",
    "NumberParser.Props.c99_example",
    "NumberParser.Props.c99_mixture",
    "NumberParser.Props.c99_small"
   ],
   "note": "interleaving of opening, writing pieces and closing; sources do not change meanwhile; c99_runs for Usual files, the others for any tasks"
  }
 ]
}