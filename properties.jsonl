{"id": "C01", "title": "English numerals round-trip", "statement": "For every integer n with 0 <= n < 10**24, writing n in standard English words (short scale, optional 'and'/'-' between words, any amount of whitespace between words, any upper/lower-case mix) and calling parse_number(text, 'en') returns exactly n.", "quantifier": "all n below 10**24 and all renderings of the spelling", "why_tests_cant": "10**24 numbers times unboundedly many renderings; the CSV files sample a few hundred.", "anchors": ["number_parser/parser.py:parse_number", "number_parser/parser.py:_build_number", "number_parser/parser.py:_check_validity", "number_parser/parser.py:_check_large_multiplier", "number_parser/data/en.py:info"]}
{"id": "C02", "title": "Spanish numerals round-trip", "statement": "For every integer n with 0 <= n < 10**60, the standard long-scale Spanish spelling of n (mil, millon/millones ... nonillon/nonillones, with 'y' between tens and units, any case, any whitespace) parses with parse_number(text, 'es') to exactly n.", "quantifier": "all n below 10**60 and all renderings", "why_tests_cant": "Range is astronomically large; long-scale groups of six digits interact with the 'larger multiplier' rule in several ways.", "anchors": ["number_parser/parser.py:parse_number", "number_parser/parser.py:_build_number", "number_parser/parser.py:_check_large_multiplier", "number_parser/data/es.py:info"]}
{"id": "C03", "title": "Hindi numerals round-trip", "statement": "For every integer n with 0 <= n < 10**13, the standard Hindi spelling of n (units to 99, sau, hazar, lakh, karod, arab, kharab) parses with parse_number(text, 'hi') to exactly n.", "quantifier": "all n below 10**13 and all whitespace renderings", "why_tests_cant": "10**13 numbers; the Hindi number system groups by two digits, exercised by a handful of samples only.", "anchors": ["number_parser/parser.py:parse_number", "number_parser/parser.py:_build_number", "number_parser/data/hi.py:info"]}
{"id": "C04", "title": "Russian numerals round-trip", "statement": "For every integer n with 0 <= n < 10**24, the standard Russian spelling of n (with the grammatically inflected scale words) parses with parse_number(text, 'ru') to exactly n.", "quantifier": "all n below 10**24 and all renderings", "why_tests_cant": "Same as C01, with inflection.", "anchors": ["number_parser/parser.py:parse_number", "number_parser/parser.py:_build_number", "number_parser/data/ru.py:info"]}
{"id": "C05", "title": "Ukrainian numerals round-trip", "statement": "For every integer n with 0 <= n < 10**18, the standard Ukrainian spelling of n (inflected scale words, the letter-apostrophe spelling) parses with parse_number(text, 'uk') to exactly n.", "quantifier": "all n below 10**18 and all renderings", "why_tests_cant": "Same as C01, with inflection and accent stripping (the letters й and ї decompose).", "anchors": ["number_parser/parser.py:parse_number", "number_parser/parser.py:_build_number", "number_parser/parser.py:_strip_accents", "number_parser/data/uk.py:info"]}
{"id": "C06", "title": "English ordinals round-trip", "statement": "For every integer n with 0 <= n < 10**24, the English ordinal spelling of n (last word in ordinal form) parses with parse_ordinal(text, 'en') to exactly n.", "quantifier": "all n below 10**24 and all renderings", "why_tests_cant": "The ordinal-to-cardinal rewriting is substring/suffix based, so an unlucky word anywhere in the range could be mangled.", "anchors": ["number_parser/parser.py:parse_ordinal", "number_parser/parser.py:_apply_cardinal_conversion"]}
{"id": "C07", "title": "Fractions of spelled numbers", "statement": "For all a, b < 10**24 and each separator word ('divided by', 'over', 'by', '/'), parse_fraction(spell(a) + ' ' + sep + ' ' + spell(b), 'en') returns the string 'a/b' in decimal, unreduced.", "quantifier": "all pairs (a,b) and all four separators", "why_tests_cant": "Quadratically many inputs; separator search is by substring and in a fixed priority order, so it could trigger inside a number word.", "anchors": ["number_parser/parser.py:parse_fraction", "number_parser/parser.py:parse_number"]}
{"id": "C08", "title": "Digit strings are returned as their value", "statement": "For every natural number n of at most 4300 digits, parse_number(str(n), lang) returns n for every lang (including None and unsupported codes), also when surrounded by ordinary whitespace and when written with the decimal digits of any script.", "quantifier": "all digit strings, all languages", "why_tests_cant": "Unbounded set of digit strings.", "anchors": ["number_parser/parser.py:parse_number"]}
{"id": "C09", "title": "Every table word parses to its table value", "statement": "For each supported language, every word listed in its data file, in any spelling whose lower-cased, accent-stripped form is the same single token, parses with parse_number to the number listed for it.", "quantifier": "all table entries of the five languages; all case/accent variants of each", "why_tests_cant": "Accent stripping could merge two table words; variants of each word are unboundedly many.", "anchors": ["number_parser/parser.py:LanguageData", "number_parser/parser.py:_normalize_dict", "number_parser/parser.py:_strip_accents", "number_parser/parser.py:parse_number"]}
{"id": "C10", "title": "Separated lists of numbers convert element-wise", "statement": "For every non-empty list n1..nk of integers below 10**24, parse(', '.join(spell(ni)), 'en') equals ', '.join(str(ni)), and likewise for '. '. In Hindi, where only white space separates words, the same holds with a space in front of the mark (and fails without).", "quantifier": "all finite lists of numbers", "why_tests_cant": "Unbounded list length; state is carried between tokens.", "anchors": ["number_parser/parser.py:parse", "number_parser/parser.py:_build_number"]}
{"id": "C11", "title": "Language auto-detection does not change the value of a spelled number", "statement": "For every n in the range of C01-C05 and each supported language L, parse_number(spelling of n in L) without a language argument returns n.", "quantifier": "all n in range, five languages", "why_tests_cant": "Words shared between languages (Russian and Ukrainian) create ties whose resolution depends on the whole input.", "anchors": ["number_parser/parser.py:_valid_tokens_by_language", "number_parser/parser.py:parse_number"]}
{"id": "C12", "title": "parse is idempotent", "statement": "For every string s and every supported language L, parse(parse(s, L), L) == parse(s, L).", "quantifier": "all strings, all supported languages", "why_tests_cant": "Must hold for arbitrary text; whitespace/skip-token edge cases are unbounded.", "anchors": ["number_parser/parser.py:parse"]}
{"id": "C13", "title": "parse leaves no number word behind", "statement": "For every string s and supported language L, no token of parse(s, L) is a cardinal or ordinal number word of L.", "quantifier": "all strings, all supported languages", "why_tests_cant": "Quantifies over all texts.", "anchors": ["number_parser/parser.py:parse", "number_parser/parser.py:_is_number_token"]}
{"id": "C14", "title": "Text without number words is returned unchanged", "statement": "For every string s none of whose tokens is a number word of L, parse(s, L) returns s with soft hyphens removed and surrounding whitespace stripped.", "quantifier": "all strings without number words", "why_tests_cant": "Quantifies over all texts.", "anchors": ["number_parser/parser.py:parse", "number_parser/parser.py:_tokenize"]}
{"id": "C15", "title": "Ordinary words are preserved verbatim and in order", "statement": "For every string s and supported language L, the tokens of s that are neither blank nor number words nor skip tokens appear in parse(s, L) verbatim and in the same order, and apart from the inserted decimal numbers parse(s, L) contains no other such token.", "quantifier": "all strings, all supported languages", "why_tests_cant": "Quantifies over all texts and interleavings of words and numbers.", "anchors": ["number_parser/parser.py:parse"]}
{"id": "C16", "title": "When conjunctions are preserved", "statement": "A skip token ('and', 'y', '-') that does not come after a number word stays in the text exactly as written. After a number it is kept, lower-cased and with one space on each side, if it stands between two numbers or before an ordinary word; it disappears inside a number, at the end of the text and before a full stop or comma (so the expectation that a conjunction which joins nothing stays as written is false: 'two and' gives '2').", "quantifier": "all strings, all supported languages", "why_tests_cant": "Depends on arbitrary context after the conjunction.", "anchors": ["number_parser/parser.py:parse", "number_parser/parser.py:_build_number"]}
{"id": "C17", "title": "Sentences are converted independently", "statement": "For all texts a and b (b starting with a non-space character once soft hyphens are removed), parse(a + '.' + b, L) == parse(a + '.', L) + parse(b, L) for the word-tokenised languages (en, es, ru, uk); the same for ','. In Hindi the mark has to stand apart: parse(a + ' . ' + b) == parse(a + ' .') + ' ' + parse(b).", "quantifier": "all pairs of strings", "why_tests_cant": "State is carried across tokens; only an argument over all histories shows none leaks past a separator.", "anchors": ["number_parser/parser.py:parse"]}
{"id": "C18", "title": "parse agrees with parse_number", "statement": "If parse_number(s, L) returns n for a text s of words that starts with a number word and has no apostrophes, then parse(s, L) == str(n).", "quantifier": "all strings", "why_tests_cant": "Two different code paths over all strings.", "anchors": ["number_parser/parser.py:parse", "number_parser/parser.py:parse_number"]}
{"id": "C19", "title": "parse_ordinal agrees with parse_number on cardinals", "statement": "If parse_number(s, L) returns n, s contains no apostrophe and some token of s is not blank (after accent stripping), then parse_ordinal(s, L) returns n too.", "quantifier": "all strings, all supported languages", "why_tests_cant": "parse_ordinal re-joins and re-tokenises the text; must be harmless for every text.", "anchors": ["number_parser/parser.py:parse_ordinal", "number_parser/parser.py:parse_number"]}
{"id": "C20", "title": "parse_fraction decision logic", "statement": "parse_fraction(s, L) returns a non-None result exactly when s is non-blank, contains one of the separators, and both sides of the first occurrence of the highest-priority separator present are numbers m and n for parse_number; the result is then the decimal strings of m and n joined by '/'.", "quantifier": "all strings", "why_tests_cant": "Substring search over all strings.", "anchors": ["number_parser/parser.py:parse_fraction"]}
{"id": "C21", "title": "parse_number rejects text with a foreign word", "statement": "If s is not a digit string and one of its tokens (after removing apostrophes) is neither blank nor a cardinal word nor a skip token of L, parse_number(s, L) returns None.", "quantifier": "all strings, all supported languages", "why_tests_cant": "Quantifies over all texts.", "anchors": ["number_parser/parser.py:parse_number"]}
{"id": "C22", "title": "When a text without number words gives a number", "statement": "A text that is neither blank nor a digit string and contains no number word gives 0 if it consists of blank tokens and conjunctions only and does not begin with a conjunction, and None otherwise (so the expectation that it is never a number is false: parse_number('-') is 0). A result other than 0 requires a number word.", "quantifier": "all strings, all supported languages", "why_tests_cant": "Quantifies over all texts without number words, including punctuation-only text.", "anchors": ["number_parser/parser.py:parse_number", "number_parser/parser.py:_build_number"]}
{"id": "C23", "title": "Blank input", "statement": "For every string s of whitespace only, parse_number, parse_ordinal and parse_fraction return None and parse returns '', for every supported language and for None.", "quantifier": "all whitespace strings", "why_tests_cant": "Unbounded set of whitespace strings.", "anchors": ["number_parser/parser.py:parse", "number_parser/parser.py:parse_number", "number_parser/parser.py:parse_ordinal", "number_parser/parser.py:parse_fraction"]}
{"id": "C24", "title": "No exception on text (supported language)", "statement": "For every string s and supported language L (or None), parse(s, L) never raises; parse_number(s, L) raises only if s stripped consists of numeric characters but is not a plain decimal-digit string of at most 4300 digits surrounded by ordinary whitespace (so it never raises on text containing a letter of a number word). parse_fraction raises exactly if it finds a separator and a side is numeric without being such a digit string. parse_ordinal raises exactly if the only token of the text that is not blank is a numeral without being such a digit string.", "quantifier": "all strings", "why_tests_cant": "Quantifies over all Unicode strings.", "anchors": ["number_parser/parser.py:parse", "number_parser/parser.py:parse_number", "number_parser/parser.py:parse_ordinal", "number_parser/parser.py:parse_fraction"]}
{"id": "C25", "title": "Unsupported languages are rejected", "statement": "For every language string L outside the five supported codes: parse and parse_ordinal raise ValueError for every text; parse_number raises ValueError exactly for text that is neither blank nor numeric; parse_fraction exactly if there is a separator and one of the sides, the right one only after a left one without exception, is neither blank nor numeric.", "quantifier": "all language strings and all texts", "why_tests_cant": "Infinite set of language codes and texts.", "anchors": ["number_parser/parser.py:LanguageData.__init__", "number_parser/parser.py:parse", "number_parser/parser.py:parse_number", "number_parser/parser.py:parse_ordinal", "number_parser/parser.py:parse_fraction"]}
{"id": "C26", "title": "Language detection picks the best match", "statement": "The detected language is always one of the supported ones, no supported language recognises more tokens of the text than it does, among equally good ones the one earliest in (en, es, hi, ru, uk) is chosen, and 'en' is chosen when nothing matches; it depends on the text only.", "quantifier": "all strings", "why_tests_cant": "Quantifies over all texts.", "anchors": ["number_parser/parser.py:_valid_tokens_by_language"]}
{"id": "C27", "title": "Omitting the language equals passing the detected one", "statement": "For every text s, calling parse / parse_ordinal / parse_number / parse_fraction without a language gives the same result as passing the detected language explicitly.", "quantifier": "all strings", "why_tests_cant": "Two code paths over all texts.", "anchors": ["number_parser/parser.py:parse", "number_parser/parser.py:parse_ordinal", "number_parser/parser.py:parse_number", "number_parser/parser.py:parse_fraction", "number_parser/parser.py:_valid_tokens_by_language"]}
{"id": "C28", "title": "Letter case does not matter", "statement": "Changing the case of letters of any script anywhere in s (Sigma, which has two small letters, and dotted capital I, whose small form is two characters, excepted) changes neither parse_number(s, L) nor parse_ordinal(s, L) nor the detected language; in particular s.lower() gives the same results as s. For dotted capital I this is refuted: 'sİx' is read as 6, its lower-case form as None.", "quantifier": "all strings and all case changes, all languages and none", "why_tests_cant": "Unbounded inputs; 2^n case variants each.", "anchors": ["number_parser/parser.py:parse_number", "number_parser/parser.py:parse_ordinal", "number_parser/parser.py:_normalize_tokens", "number_parser/parser.py:_valid_tokens_by_language"]}
{"id": "C29", "title": "Spacing inside and after a number does not matter", "statement": "For non-digit text, replacing any whitespace run by any other non-empty whitespace run, and adding or removing trailing whitespace, does not change parse_number(s, L).", "quantifier": "all strings", "why_tests_cant": "Unbounded whitespace variations.", "anchors": ["number_parser/parser.py:_tokenize", "number_parser/parser.py:parse_number", "number_parser/parser.py:_build_number"]}
{"id": "C30", "title": "When leading whitespace matters", "statement": "parse_number(' ' + s, L) == parse_number(s, L) unless s begins with a conjunction; then parse_number(s) is None, and parse_number(' ' + s) is the number that the rest after the conjunction reads as (None if it reads as none). If no language is given, the detected language does not depend on the white space.", "quantifier": "all strings, all supported languages (or the detected one), all leading white space", "why_tests_cant": "Quantifies over all texts.", "anchors": ["number_parser/parser.py:parse_number"]}
{"id": "C31", "title": "Results of word input are bounded and always convertible", "statement": "For every supported language there is a fixed bound (10**1300) such that any number built from words by parse_number or parse, for input of any length, stays below it; hence the integer/string conversion limit of the interpreter is never hit by word input.", "quantifier": "all strings of any length", "why_tests_cant": "Input length is unbounded; multipliers multiply.", "anchors": ["number_parser/parser.py:_build_number", "number_parser/parser.py:_check_validity", "number_parser/parser.py:_check_large_multiplier"]}
{"id": "C32", "title": "Soft hyphens are invisible", "statement": "For every string s, removing all U+00AD characters from s changes neither parse(s, L) nor parse_ordinal(s, L), nor parse_number(s, L) on text that is neither blank nor numeric after removal.", "quantifier": "all strings", "why_tests_cant": "Quantifies over all positions of soft hyphens.", "anchors": ["number_parser/parser.py:_tokenize"]}
{"id": "C33", "title": "Apostrophes are ignored by parse_number", "statement": "For text that, with ' and U+2019 removed, is neither blank nor numeric, parse_number(s, L) equals parse_number of s with those apostrophes removed.", "quantifier": "all strings, supported languages", "why_tests_cant": "Quantifies over all positions of apostrophes.", "anchors": ["number_parser/parser.py:parse_number"]}
{"id": "C34", "title": "When accents matter", "statement": "Dropping or adding accents of letters (characters whose canonical decomposition is a letter with nonspacing marks) does not change the results of parse_number and parse_ordinal (any language, or none given), and the results depend on the comparison forms of the tokens only. A decomposed accent (letter and mark as two characters) splits the word outside Hindi, so canonically equivalent texts may give different results.", "quantifier": "all pairs of strings equal up to accents", "why_tests_cant": "Quantifies over Unicode.", "anchors": ["number_parser/parser.py:_strip_accents", "number_parser/parser.py:_tokenize", "number_parser/parser.py:_normalize_tokens"]}
{"id": "C35", "title": "Hyphen before a number word is not a sign", "statement": "For every n < 10**24, parse_number('-' + spell(n), 'en') returns n: the sign is dropped, and no result of any function is ever negative.", "quantifier": "all n, all strings", "why_tests_cant": "Quantifies over all numbers.", "anchors": ["number_parser/parser.py:parse_number"]}
{"id": "C36", "title": "Appending a larger scale word multiplies", "statement": "If parse_number(s, L) = v for word input s with v > 0, and w is a scale word of L with value p > v (p other than 100), then parse_number(s + ' ' + w, L) = v * p.", "quantifier": "all strings s, all scale words", "why_tests_cant": "Holds for arbitrary prefixes, whatever internal split between total and group.", "anchors": ["number_parser/parser.py:_check_large_multiplier", "number_parser/parser.py:_build_number"]}
{"id": "C37", "title": "Appending after a scale word adds", "statement": "If parse_number(s, L) = v for word input s whose last word is a scale word, and w is a unit, teen, tens or hundreds word of L with value d, then parse_number(s + ' ' + w, L) = v + d; likewise after a hundreds word for units, teens and tens and after a tens word for units; a non-scale word appended in any other case gives None.", "quantifier": "all strings s, all such words", "why_tests_cant": "Holds for arbitrary prefixes.", "anchors": ["number_parser/parser.py:_check_validity", "number_parser/parser.py:_build_number"]}
{"id": "C38", "title": "Adjacent unit words are never merged", "statement": "For every list of unit/teen words w1..wk of L (k >= 2) separated by spaces, parse gives the k separate decimal numbers separated by single spaces, and parse_number gives None.", "quantifier": "all lists of unit words", "why_tests_cant": "Unbounded list length.", "anchors": ["number_parser/parser.py:_check_validity", "number_parser/parser.py:_build_number", "number_parser/parser.py:parse"]}
{"id": "C39", "title": "Output of parse is stripped", "statement": "For every text and language, parse returns a string without leading or trailing whitespace and without soft hyphens.", "quantifier": "all strings", "why_tests_cant": "Quantifies over all texts.", "anchors": ["number_parser/parser.py:parse"]}
{"id": "C40", "title": "When the denominator is zero", "statement": "parse_fraction returns a fraction with denominator 0 exactly if both sides of its separator are numbers and the right one is 0 (so the expectation that the denominator is never 0 is false: 'one over zero' gives '1/0').", "quantifier": "all strings", "why_tests_cant": "Quantifies over all texts.", "anchors": ["number_parser/parser.py:parse_fraction"]}
{"id": "C41", "title": "Results do not depend on call history", "statement": "For every finite sequence of calls to the API, each call returns what it would return as the first call in a fresh process; no call changes the language tables.", "quantifier": "all call histories", "why_tests_cant": "Unbounded histories; tables and class attributes are shared mutable objects.", "anchors": ["number_parser/parser.py:LanguageData"]}
{"id": "C42", "title": "Language tables are consistent", "statement": "In every supported language a normalised word belongs to exactly one class (unit, direct, tens, hundreds, scale), is not a skip token, has one value, and the value lies in the class's range (0-9, 10-99, multiples of ten 20-90, multiples of 100 up to 900, powers of ten from 100).", "quantifier": "all words of all supported tables", "why_tests_cant": "Word collisions appear only after normalisation.", "anchors": ["number_parser/parser.py:LanguageData", "number_parser/data/en.py", "number_parser/data/es.py", "number_parser/data/hi.py", "number_parser/data/ru.py", "number_parser/data/uk.py"]}
{"id": "C43", "title": "Singular and plural scale words agree, except one", "statement": "Whenever the singular and the plural of a Spanish scale word (-llón / -llones) are both listed they denote the same power of ten, with the single exception of decillón (10^60) and decillones (10^66).", "quantifier": "all Spanish scale words", "why_tests_cant": "Table-wide data property.", "anchors": ["number_parser/data/es.py:info"]}
{"id": "C44", "title": "Tokenisation loses nothing", "statement": "For every text and language, joining the tokens gives back the text without soft hyphens; tokens alternate between words without separators and separators.", "quantifier": "all strings", "why_tests_cant": "Quantifies over all texts.", "anchors": ["number_parser/parser.py:_tokenize"]}
{"id": "C45", "title": "Numbers embedded in a sentence", "statement": "For every sequence of ordinary words and spelled numbers below 10**24 (no two numbers adjacent, no conjunction directly after a number), separated by single spaces, parse(text, 'en') is the same sentence with every spelled number replaced by its decimal digits. The same for the other four languages.", "quantifier": "all sentences of that shape", "why_tests_cant": "Unbounded sentence length and vocabulary.", "anchors": ["number_parser/parser.py:parse"]}
{"id": "C46", "title": "Data generator: every emitted number is in its class range", "statement": "For every input rule set, the words the language-data generator takes from the rules have in UNIT_NUMBERS values <= 9, in DIRECT_NUMBERS 10..99, in TENS multiples of ten (not of a hundred) from 20 whose first digit is not 1, in HUNDREDS multiples of a hundred (not of a thousand) whose first digit is not 1 (both up to 9*10**16, beyond which the float arithmetic of the generator is inexact), and in BIG_POWERS_OF_TEN powers of ten >= 100, namely the power of ten of their rule up to 10**22; only supplementary words are exempt.", "quantifier": "all CLDR rule sets", "why_tests_cant": "Input files are arbitrary.", "anchors": ["number_parser_scripts/write_complete_language_data.py:_extract_information", "number_parser_scripts/write_complete_language_data.py:_add_base_words", "number_parser_scripts/write_complete_language_data.py:_add_compound_words", "number_parser_scripts/write_complete_language_data.py:_add_multiplier_words", "number_parser_scripts/write_complete_language_data.py:_count_zero"]}
{"id": "C47", "title": "Data generator: supplementary data wins and output is sorted", "statement": "In the generated file each table is sorted by (value, word), contains exactly the words of the used rules (the last rule for a word decides) and the supplementary words, each once, and a supplementary value overrides an extracted one.", "quantifier": "all rule sets and supplementary files", "why_tests_cant": "Input files are arbitrary.", "anchors": ["number_parser_scripts/write_complete_language_data.py:write_complete_data"]}
{"id": "C48", "title": "Inflections and synonyms are interchangeable", "statement": "Two texts made of number words of L in the same order with the same classes and values (whatever the inflected form, synonym, case or accents) give the same parse_number result.", "quantifier": "all lists of number words", "why_tests_cant": "Number words combine without bound.", "anchors": ["number_parser/parser.py:_build_number", "number_parser/parser.py:parse_number"]}
{"id": "C49", "title": "Threads do not disturb each other", "statement": "When several threads each make a list of API calls, then under every schedule each call returns what it would return as the only call of a fresh process, the language tables stay as in the data files, and every thread that keeps being scheduled finishes.", "quantifier": "all numbers of threads, all lists of calls, all interleavings of their accesses to shared objects", "why_tests_cant": "Schedules cannot be enumerated or reproduced by tests.", "anchors": ["number_parser/parser.py:LanguageData"]}
{"id": "C50", "title": "Which shipped tables the generator produces", "statement": "Running the generator on the rule file and the supplementary file of the repository gives the shipped data module for en, es, hi and ru and for each of the 78 languages that have data but are not enabled; for uk it gives the shipped module without exactly five hand-made words, so that regenerating would lose them (and parse_number of п'ятсот with them).", "quantifier": "all words of all tables of all 83 shipped languages", "why_tests_cant": "No test runs the generator; hand edits of generated files are lost silently.", "anchors": ["number_parser_scripts/write_complete_language_data.py:write_complete_data", "number_parser/data/uk.py:info"]}
{"id": "C51", "title": "A generated data module reads back as what was generated", "statement": "Importing the text that the generator writes gives exactly the dictionary it computed (same words, values, order, skip tokens, scale flag), provided no word has control characters or contains true or false as a whole word; the five shipped modules are exactly such texts and importing them gives the tables the parser uses.", "quantifier": "all generated tables, over all words (quotes, backslashes, any Unicode) and integers", "why_tests_cant": "The text goes through JSON encoding and a regular expression over the whole file before Python reads it as source; which words survive is a question about all strings.", "anchors": ["number_parser_scripts/write_complete_language_data.py:write_complete_data", "number_parser/data/en.py:info"]}
{"id": "C52", "title": "A generator run over the directories writes each module from its own sources only, whatever the order, an exception or a kill", "statement": "After a run without exception every source file that is not left out has exactly its module and no other file in the target directory changes, independently of the listing order; after an exception every target is as before or a complete module; a kill at any moment leaves at most one target broken, and that one is a beginning of its module.", "quantifier": "all sets of source files with distinct targets, all listing orders, all points of failure or kill", "why_tests_cant": "os.listdir order is arbitrary and kill points are unbounded.", "anchors": ["number_parser_scripts/write_complete_language_data.py:write_complete_data"]}
{"id": "C53", "title": "Exactly which rule files make the generator fail", "statement": "Generation of a language raises exactly if a used rule of multiplier form has nothing after its last less-than sign, or zeros of a number beyond the float range have to be counted; a run raises exactly if some source file that is not left out has such a rule or no supplementary file.", "quantifier": "all rule files, all supplementary files, all directories", "why_tests_cant": "The set of rule texts is infinite; the overflow limit lies above 10^300.", "anchors": ["number_parser_scripts/write_complete_language_data.py:_add_multiplier_words", "number_parser_scripts/write_complete_language_data.py:_count_zero", "number_parser_scripts/write_complete_language_data.py:write_complete_data"]}
{"id": "C54", "title": "Exactly which texts are numbers, and which number", "statement": "For every text that is neither blank nor numeric, parse_number returns n exactly if the first token is no conjunction, all tokens are number words, conjunctions or blank, and the number words read in order by the fixed rules (adding below the scale words, multiplying at them, class order, magnitude order) give n; otherwise it returns None. The rules give at most one value.", "quantifier": "all texts that are neither blank nor numeric, all supported languages", "why_tests_cant": "Word sequences of any length combine; only finitely many are ever tested.", "anchors": ["number_parser/parser.py:parse_number", "number_parser/parser.py:_build_number"]}
{"id": "C55", "title": "Exactly how a text is converted", "statement": "For every text, parse returns the text converted by the fixed rules: everything outside runs of number words is kept; a run of number words is cut, as late as possible, into numbers which are written in digits separated by spaces; conjunctions inside a number disappear, those in front of a cut and the last one before an ordinary word stay; a run before a full stop or comma keeps a space only if there was white space; an ordinal ends its run. The rules convert every text in exactly one way.", "quantifier": "all texts, all supported languages", "why_tests_cant": "The output depends on interactions of arbitrarily many tokens.", "anchors": ["number_parser/parser.py:parse", "number_parser/parser.py:_build_number"]}
{"id": "C56", "title": "Exactly which texts are ordinals, and which number", "statement": "For every text, parse_ordinal returns n exactly if the first token is no conjunction and all tokens are cardinal or ordinal number words, conjunctions or blank (ignoring apostrophes in all but the ordinals), and the words read in order by the rules of C54 give n; otherwise None. Two kinds of text are excepted: without any solid token the result is None, and a single numeral is read as digits, or raises ValueError if its characters are numeric but not decimal digits (or more than 4300).", "quantifier": "all texts, all supported languages", "why_tests_cant": "parse_ordinal tokenises, normalises and rewrites the text, joins the pieces and tokenises and normalises again; that no other text slips through depends on every Unicode character.", "anchors": ["number_parser/parser.py:parse_ordinal", "number_parser/parser.py:parse_number", "number_parser/parser.py:_apply_cardinal_conversion", "number_parser/parser.py:_normalize_tokens", "number_parser/parser.py:_tokenize"]}
{"id": "C57", "title": "Letter case and accents do not change what parse converts", "statement": "If two texts differ only in the case of letters (of any script, other than Greek Σ and Turkish İ), then parse succeeds on both or on neither, and its results differ only in the case of letters (any language, or none given). If they differ only in accents of letters, its results differ only in accents.", "quantifier": "all pairs of texts that differ in case or accents, all languages", "why_tests_cant": "Every letter of every text can be changed independently.", "anchors": ["number_parser/parser.py:parse", "number_parser/parser.py:_tokenize", "number_parser/parser.py:_normalize_tokens"]}
{"id": "C58", "title": "parse works piece by piece", "statement": "If the last solid token of a is an ordinary word, a numeral, punctuation or an ordinal, then parse(a + gap + b) = parse(a) + gap + parse(b), for any white space between them (a does not end and b does not begin with white space). If the last solid token of a is a number word and b begins with an ordinary word, then parse(a + gap + b) = parse(a) + one space + parse(b).", "quantifier": "all texts a and b, all gaps, all supported languages", "why_tests_cant": "The pieces are arbitrary, and the parser carries state from one token to the next.", "anchors": ["number_parser/parser.py:parse", "number_parser/parser.py:_build_number"]}
{"id": "C59", "title": "English ordinals in sentences", "statement": "parse replaces every spelling (case, hyphens, white space, 'and') of the English ordinal of n < 10^24 by n in digits; at the beginning, inside or at the end of a text it leaves the conversion of what stands before it (ending with an ordinary word or ordinal) and after it unchanged.", "quantifier": "all n < 10^24, all spellings, all surrounding texts", "why_tests_cant": "10^24 numbers, unboundedly many spellings and contexts.", "anchors": ["number_parser/parser.py:parse", "number_parser/parser.py:_is_ordinal_token", "number_parser/parser.py:_apply_cardinal_conversion"]}
{"id": "C60", "title": "Digits in a text are never touched", "statement": "Every token of the text that contains a decimal digit (7, 21st, ٣) is in parse's output verbatim and in the same order; the only other tokens with digits are the numbers put in. Digits are never combined with number words: what stands behind digits, and digits behind a number, are converted on their own ('2 million' gives '2 1000000'), and parse_number finds no number in a text with digits and anything else.", "quantifier": "all texts, all supported languages", "why_tests_cant": "Must hold for every text and digits of every script.", "anchors": ["number_parser/parser.py:parse", "number_parser/parser.py:_is_number_token", "number_parser/parser.py:_tokenize"]}
{"id": "C61", "title": "Numbers grow with their words", "statement": "If parse_number finds n in a text of words then n is at least the value of each of its number words, and every initial part of the text that still contains a word is a number too, not greater than n.", "quantifier": "all texts, all supported languages", "why_tests_cant": "Unboundedly many words with interacting multiplications.", "anchors": ["number_parser/parser.py:parse_number", "number_parser/parser.py:_build_number"]}
{"id": "C62", "title": "What parse_number reads, parse replaces anywhere", "statement": "If parse_number(m) = n for a text m of words that begins and ends with a number word, then parse replaces m by n in digits at the beginning, inside and at the end of a text, between a part that ends with an ordinary word or ordinal and a part that begins with an ordinary word, and converts those parts as it does on their own.", "quantifier": "all texts m, all surrounding texts, all supported languages", "why_tests_cant": "Unboundedly many numbers and contexts; the parser carries state from token to token.", "anchors": ["number_parser/parser.py:parse", "number_parser/parser.py:parse_number", "number_parser/parser.py:_build_number"]}
{"id": "C63", "title": "White space does not change what parse converts", "statement": "If two texts differ only in the amount and kind of white space between their tokens or at their end, the results of parse differ only in white space too, with a given or a detected language; white space in front of a text does not change the result at all.", "quantifier": "all pairs of such texts, all languages or none", "why_tests_cant": "Unboundedly many texts and kinds of white space.", "anchors": ["number_parser/parser.py:parse", "number_parser/parser.py:_tokenize", "number_parser/parser.py:_build_number"]}
{"id": "C64", "title": "The generator reads JSON", "statement": "Reading a rule file or supplementary file gives a value exactly if its bytes are UTF-8 and a JSON text (RFC 8259, with Python's NaN/Infinity) for this value; otherwise ValueError. The value is unique; white space and the kind of line ends do not matter; of a name that occurs twice the last value counts.", "quantifier": "all byte sequences", "why_tests_cant": "Infinitely many byte sequences, nesting and escapes of any depth.", "anchors": ["number_parser_scripts/write_complete_language_data.py:write_complete_data"]}
{"id": "C65", "title": "Numbers in the files keep their value as far as doubles can", "statement": "A JSON number with a fraction or an exponent gets the value of the nearest IEEE double (ties to even, infinite beyond the range); whole numbers with at most 53 significant bits, in particular 1e0 to 1e22, keep their exact value.", "quantifier": "all decimal numbers", "why_tests_cant": "Infinitely many decimals; rounding errors occur at rare points.", "anchors": ["number_parser_scripts/write_complete_language_data.py:write_complete_data"]}
{"id": "C66", "title": "From the files of a language to its module", "statement": "write_complete_data writes a module for a language exactly if its two files hold rule sets and supplementary data of the right shape; the module has exactly the words of the supplementary file and of the used rules. Files with special names or without spellout rules are passed over. Anything else ends in an exception with all targets unchanged, except that a text without UTF-8 form leaves its own target empty. (Not claimed for supplementary files with values of unexpected types with which Python can go on: a table that is a list or a string, a number written as a string, a skip token that is not a string, a scale that is not a boolean.)", "quantifier": "all file contents (bytes), all previous targets", "why_tests_cant": "All byte contents, including damaged ones.", "anchors": ["number_parser_scripts/write_complete_language_data.py:write_complete_data"]}
{"id": "C67", "title": "Runs of the generator over directories of bytes", "statement": "A run succeeds exactly if no file fails; then every language has the bytes of its own module, other targets are untouched, the listing order does not matter, and running again changes nothing. With an exception, the targets are those of the files before the failing one; killed at any moment, at most one target is incomplete. (For files without values of unexpected types with which Python can go on, as in C66; that targets of other files are not touched holds for all files.)", "quantifier": "all directories, orders, crash points", "why_tests_cant": "All file contents, all orders and all crash points.", "anchors": ["number_parser_scripts/write_complete_language_data.py:write_complete_data"]}
{"id": "C68", "title": "The shipped data is what the shipped sources give", "statement": "Running the generator on the bytes of the repository's JSON files writes, byte for byte, the shipped en.py, es.py, hi.py and ru.py (uk.py has five words more), and importing them gives the tables the parser uses.", "quantifier": "every word of the tables of the supported languages, all previous targets", "why_tests_cant": "A drift between sources and shipped data shows up only for the words concerned.", "anchors": ["number_parser_scripts/write_complete_language_data.py:write_complete_data", "number_parser/data/en.py:info", "number_parser/data/es.py:info", "number_parser/data/hi.py:info", "number_parser/data/ru.py:info", "number_parser/data/uk.py:info"]}
{"id": "C69", "title": "parse_fraction depends only on the two sides", "statement": "If the sides of two texts are read as the same numbers, parse_fraction gives the same for both. The case of letters on the sides does not matter (the separators themselves are recognised in small letters only), nor does the white space on sides written in words. A result of parse_fraction is read as itself by parse_fraction in every language.", "quantifier": "all texts with a separator, all languages", "why_tests_cant": "Tests try a handful of spellings of a handful of fractions.", "anchors": ["number_parser/parser.py:parse_fraction", "number_parser/parser.py:parse_number"]}
{"id": "C70", "title": "Normalising first does not change what is read", "statement": "A text without apostrophes that begins with a cardinal word and is read as n by parse_number is read as n after parse has normalised it. Of a fraction of two such numbers parse makes the numbers in digits with the same separator, and parse_fraction gives the same result for the text and its normalisation.", "quantifier": "all texts of number words, all separators, the five languages", "why_tests_cant": "The composition of two functions is tested for no input at all.", "anchors": ["number_parser/parser.py:parse", "number_parser/parser.py:parse_number", "number_parser/parser.py:parse_fraction"]}
{"id": "C71", "title": "Language detection of composed texts", "statement": "Without a language: the numbers of recognised words of two texts with white space between them add up, for each language; if the same language is detected for two texts, it is detected for the two together; text without recognised words does not influence the detection, and the order of the texts does not matter; a text recognised in one language only is of this language; and parse works piece by piece as with an explicit language.", "quantifier": "all texts, all pieces, all languages", "why_tests_cant": "All pairs of texts in mixtures of five languages.", "anchors": ["number_parser/parser.py:_valid_tokens_by_language", "number_parser/parser.py:parse"]}
{"id": "C72", "title": "Texts of one language without a language argument", "statement": "If every token of a text that some supported language recognises (as a number word or a conjunction) is recognised by the language l, then parse gives without a language argument what it gives with l; so do parse_number and parse_ordinal, for texts without apostrophes (parse_ordinal for Hindi only if some token is recognised). In particular sentences of spelled numbers and ordinary words of one language are converted without a language argument, even if Russian is detected for a Ukrainian text.", "quantifier": "all texts, all five languages", "why_tests_cant": "Every ordinary word next to every number decides the detection; shared words of Russian and Ukrainian are detected as Russian.", "anchors": ["number_parser/parser.py:_valid_tokens_by_language", "number_parser/parser.py:parse", "number_parser/parser.py:parse_number", "number_parser/parser.py:parse_ordinal"]}
{"id": "C73", "title": "Results are not much longer than their texts", "statement": "parse makes a text at most k times longer, and a number read by parse_number or parse_ordinal, and the result of parse_fraction, has at most k times as many characters as the text, where k is 67 for Spanish, 8 for Ukrainian, 5 for Hindi, 3 for English and Russian (and 67 without a language). The number read from some words has at most as many digits as the values of the words together.", "quantifier": "all texts, all five languages", "why_tests_cant": "No test bounds the output for all texts: nested scale words multiply.", "anchors": ["number_parser/parser.py:parse", "number_parser/parser.py:parse_number", "number_parser/parser.py:parse_ordinal", "number_parser/parser.py:parse_fraction", "number_parser/parser.py:_build_number"]}
{"id": "C74", "title": "On texts of number words only, the functions agree", "statement": "A text (without apostrophes) that begins with a cardinal and has only cardinals, conjunctions and white space is converted by parse to the single number n exactly if parse_number reads it as n, and parse_number finds no number exactly if parse makes several numbers of it. If the last word is an ordinal instead, parse gives the single number n exactly if parse_ordinal reads n. (An ordinal in the middle ends a number for parse, not for parse_ordinal.)", "quantifier": "all sequences of number words, all five languages", "why_tests_cant": "Two implementations of grouping are used; agreement is tested on a few texts.", "anchors": ["number_parser/parser.py:parse", "number_parser/parser.py:parse_number", "number_parser/parser.py:parse_ordinal", "number_parser/parser.py:_build_number"]}
{"id": "C75", "title": "Numbers written one after another", "statement": "Numbers below the limits of C01-C05 in words, written one after another with a space between them, are all converted on their own by parse exactly if no number begins with a word that continues the previous one; this is decided by the last digits of the one and the leading digits of the other (in English: 'twenty ten' stays two numbers, 'twenty one' and 'one hundred two' do not). In this case parse_number reads no number in two or more of them, and conjunctions between them are kept, in small letters. That numbers stay apart in general is refuted: 'one hundred two hundred' gives '102 100'.", "quantifier": "all lists of numbers in words, of any length, and all their spellings (separators, case, conjunctions); the five languages", "why_tests_cant": "All lists of numbers; the criterion depends on every pair of neighbours.", "anchors": ["number_parser/parser.py:parse", "number_parser/parser.py:parse_number", "number_parser/parser.py:_build_number", "number_parser/parser.py:_check_validity"]}
{"id": "C76", "title": "Counted hundreds", "statement": "Groups whose hundreds are counted instead of being carried over ('nineteen hundred forty-five', 'twelve hundred million fifteen hundred'), each below 10000 and not greater than the scale word behind it, with falling scale words, are read by parse_number with the value they have, in English and Hindi, in every spelling. A count of more than 1000 in front of 'thousand' is never read as a number ('nineteen hundred thousand' is refuted: parse gives '1900 1000').", "quantifier": "all lists of groups with scale words, all values, and all spellings (separators, case, conjunctions)", "why_tests_cant": "All combinations of groups and spellings, of which there are unboundedly many.", "anchors": ["number_parser/parser.py:parse_number", "number_parser/parser.py:_build_number", "number_parser/parser.py:_check_validity", "number_parser/parser.py:_check_large_multiplier"]}
{"id": "C77", "title": "Punctuation against numbers and words", "statement": "In English, Spanish, Russian and Ukrainian, punctuation written directly against words changes the conversion of neither: after an ordinary word, a numeral or an ordinal, and in front of a text, it stays where it is; directly after a number word a full stop or comma stays attached, every other punctuation mark gets a space in front of it (that punctuation stays attached is refuted: '(two)!' gives '(2 )!').", "quantifier": "all texts before and after, all punctuation characters of Unicode, and every number parse_number reads", "why_tests_cant": "All texts around the mark and all characters that are neither word characters nor white space.", "anchors": ["number_parser/parser.py:parse", "number_parser/parser.py:_tokenize", "number_parser/parser.py:_build_number"]}
{"id": "C78", "title": "From the data files to the parser", "statement": "For every pair of source files on which the generator runs without exception (with a scale flag and harmless words), the parser can load the module found in the target file, and with it parse_number of every supplementary word, in any spelling with the same letters, is the number given in the supplementary file, unless the word is also a conjunction or is listed with another value. For any data module at all, a one-word text has exactly the value the tables give to the word; a word listed with capital letters is never recognised (German data), one that is also a conjunction is read as 0, and a module made without a scale flag cannot be loaded.", "quantifier": "all source files, all data modules, all words and spellings", "why_tests_cant": "The tables pass through JSON, UTF-8, a module text and Python's import before the parser compares words; no test covers this path, and adding words is how the data is extended.", "anchors": ["number_parser_scripts/write_complete_language_data.py:write_complete_data", "number_parser/parser.py:LanguageData", "number_parser/parser.py:parse_number"]}
{"id": "C79", "title": "Declined numbers", "statement": "Every Russian number below 10^24 written in any of the six cases, counting things of any gender, animate or not, and every Spanish number below 10^60 written in the masculine or feminine, alone or before a noun, is read by parse_number as that number, with any spacing and capitals, and so is, in every language, the spelling of a number with any of its words replaced by another listed form of the same class and value; in fractions, lists, sentences, one after another and without a language such forms behave like the usual spelling (C07, C10, C11, C45, C75); conversely, apart from listed exceptions, every word in the Russian and Spanish tables is a form of the number it is listed with. (That all forms are known is refuted: some forms of Russian zero and most Ukrainian forms are missing.)", "quantifier": "all numbers, cases, genders, endings, spacings and capitals", "why_tests_cant": "Six cases times genders times 10^24 numbers; the inflected words come from the data and each has to have the right class for the words around it to combine.", "anchors": ["number_parser/parser.py:parse_number", "number_parser/parser.py:LanguageData", "number_parser/parser.py:_build_number"]}
{"id": "C80", "title": "The reading rules for any vocabulary", "statement": "For every data module in which no word is listed in two classes or also as a conjunction, no word is blank and no scale word is 0, whatever its words and values, parse_number gives a number for a text (neither blank nor numeric) exactly if the first token is no conjunction and all tokens are words of the module, conjunctions or blanks whose classes and values are read as this number by the rules of C54, and it has at most 4300 digits, and finds none in all others (for the modules of C81 with moderate values); the data of all languages in the repository that could be enabled (those with a scale flag) is of this kind, except the Polish one, which lists the word for ten as 1 and as 10", "quantifier": "all data modules of this kind, all texts", "why_tests_cant": "a test knows one vocabulary; this says that editing the data, or enabling a language, cannot change how words are put together", "anchors": ["number_parser/parser.py:LanguageData", "number_parser/parser.py:_build_number", "number_parser/parser.py:_check_validity", "number_parser/parser.py:_check_large_multiplier", "number_parser/parser.py:parse_number", "number_parser/data/pl.py:info"]}
{"id": "C81", "title": "How a text is converted, with any vocabulary", "statement": "For every data module of the kind of C80 in which also no word contains a line break, no word or conjunction is a full stop or comma, and no conjunction stands for a number word, whatever parse returns is the text converted by the rules of C55 with the words of the module (an ordinal ending in ieth, th or neither stands for the first listed of its candidates); the rules convert every text in exactly one way; parse always returns if scale words are powers of ten up to 10^2000 and the other words at most 900; the data of all languages in the repository that could be enabled is of this kind, except the Polish one", "quantifier": "all data modules of this kind, all texts", "why_tests_cant": "a test knows one vocabulary and some texts; this says that editing the data, or enabling a language, cannot change how texts are converted", "anchors": ["number_parser/parser.py:LanguageData", "number_parser/parser.py:_is_number_token", "number_parser/parser.py:_is_ordinal_token", "number_parser/parser.py:_apply_cardinal_conversion", "number_parser/parser.py:_build_number", "number_parser/parser.py:parse", "number_parser/data/pt.py:info"]}
{"id": "C82", "title": "Adding and removing languages", "statement": "Were the list of supported languages another one, with any data modules of the kind of C81: a call that names a language depends on the module of this language only, not on the other languages or their order (so nothing added changes calls naming one of the five), and a name that is not in the list raises ValueError; a call that names none gives what it gives for the first of the languages that recognise the most tokens (English if none recognises any). Removing languages other than the detected one has no effect; nor has adding languages that recognise none of the tokens, or fewer than one of the old languages; a language added at the end has an effect only if it recognises more tokens than every old one, and is then the one used.", "quantifier": "all lists of languages with different names and all their data modules, all texts", "why_tests_cant": "Enabling a language is the planned way to extend the parser; that it cannot disturb the others is a statement about every vocabulary it may bring and every text.", "anchors": ["number_parser/parser.py:SUPPORTED_LANGUAGES", "number_parser/parser.py:LanguageData", "number_parser/parser.py:_valid_tokens_by_language", "number_parser/parser.py:parse", "number_parser/parser.py:parse_number", "number_parser/parser.py:parse_ordinal", "number_parser/parser.py:parse_fraction", "number_parser/data/pt.py:info"]}
{"id": "C83", "title": "Ordinals with any vocabulary", "statement": "For every data module of the kind of C81 whose words and conjunctions are in ordinary writing (no reordered marks), each word containing a word character and a non-numeric one, each conjunction a word character or being a hyphen, and no conjunction standing for a number word, and every language name, if it is not 'hi' (whose texts are split at white space) or the text has no apostrophes, parse_ordinal gives a number for a text (neither blank nor a single numeral) exactly if the first token is no conjunction and all tokens are cardinals or ordinals of the module, conjunctions, blanks or apostrophes, whose classes and values are read as this number by the rules of C54, and it has at most 4300 digits; it finds none in every other text if the values are moderate, and in a blank one; with apostrophes, in a language called 'hi', it reads what parse_number reads after every token has been replaced by the number word it stands for, or by itself with the irregular ordinals replaced, and the apostrophes have been removed then; a single numeral is read as digits or raises ValueError. The data of all languages in the repository that could be enabled is of this kind, except the Polish one.", "quantifier": "all data modules of this kind, all texts", "why_tests_cant": "parse_ordinal converts the text to cardinals, joins it and splits it again; that this loses and invents nothing depends on every word of the vocabulary", "anchors": ["number_parser/parser.py:LanguageData", "number_parser/parser.py:_apply_cardinal_conversion", "number_parser/parser.py:_is_ordinal_token", "number_parser/parser.py:parse_ordinal", "number_parser/parser.py:parse_number", "number_parser/parser.py:_tokenize"]}
{"id": "C84", "title": "Fractions with any list of languages", "statement": "Were the list of supported languages another one, with any data modules: parse_fraction with a named language returns a fraction exactly if both sides of the first occurrence of the first of 'divided by', 'over', 'by', '/' that occurs are numbers for parse_number with this language, and it is these numbers in decimal joined by '/'; without a separator it returns None even for an unknown language; otherwise it returns None if one side is no number and the other raises nothing, and raises what the left side or else the right side raises. With a module of the kind of C80, sides of words are read by the rules.", "quantifier": "all lists of languages, all data modules, all texts", "why_tests_cant": "the separators are English in every language, and which one is used depends on the whole text", "anchors": ["number_parser/parser.py:parse_fraction", "number_parser/parser.py:parse_number", "number_parser/parser.py:LanguageData"]}
{"id": "C85", "title": "What parse does to the rest of a text, with any vocabulary", "statement": "Were the list of supported languages another one, and the named language had a data module of the kind of C81 with moderate values in which every word contains a word character and a non-numeric one and every conjunction is in comparison form and a hyphen or of word characters only: no token of the result of parse is a number word; parse of the result gives the result again; a text without number words comes back unchanged up to soft hyphens and surrounding white space; the result has no white space at its ends and no soft hyphen; the ordinary tokens of the text are in the result verbatim and in order, with only decimal numerals between them, and so are the conjunctions unless one directly follows a cardinal. The data of all languages in the repository that could be enabled is of this kind, except the Polish one.", "quantifier": "all lists of languages, all data modules of this kind, all texts", "why_tests_cant": "a test knows one vocabulary and some texts; words of a new language could in principle be cut differently when the result is parsed again", "anchors": ["number_parser/parser.py:parse", "number_parser/parser.py:LanguageData", "number_parser/parser.py:_build_number", "number_parser/parser.py:_tokenize", "number_parser/parser.py:_is_skip_token"]}
{"id": "C86", "title": "What does not matter, with any list of languages", "statement": "Were the list of supported languages another one, with any data modules: the case and the accents of letters matter neither for parse_number nor for parse_ordinal nor for the language detected; nor do soft hyphens, for these and for parse (for parse_number in a text that is neither blank nor numeric without them); nor do apostrophes for parse_number with a named language, in a text that is neither blank nor numeric without them. With modules of the kind of C81, the kind and amount of white space between the words and at the end does not matter for parse_number and detection in a text that is no digit string, nor does leading white space, if the text does not start with a conjunction.", "quantifier": "all lists of languages, all data modules (of the kind of C81 for white space), all texts", "why_tests_cant": "the claim is about pairs of texts in unboundedly many spellings, and about vocabularies that do not exist yet", "anchors": ["number_parser/parser.py:parse", "number_parser/parser.py:parse_number", "number_parser/parser.py:parse_ordinal", "number_parser/parser.py:_tokenize", "number_parser/parser.py:_strip_accents", "number_parser/parser.py:_valid_tokens_by_language", "number_parser/parser.py:LanguageData"]}
{"id": "C87", "title": "The limit of digits", "statement": "With another limit of sys.set_int_max_str_digits: a larger limit (or none) gives the same result or exception of every call, except that it may succeed where the conversion of a number was refused. From 1300 digits on, or without a limit, it does not matter at all for parse, for parse_number of a text that is no digit string, for parse_ordinal unless the text is a single numeral, and for parse_fraction unless a side is a digit string. With any limit a digit string is read exactly if it has at most as many digits as the limit allows, and raises ValueError otherwise. (That words are never refused is refuted for the smallest limit that can be set: with 640 digits the Spanish 'un nonillón centillón' raises.)", "quantifier": "all limits, all texts, all languages", "why_tests_cant": "the limit is a process-wide setting of the interpreter; the claim ranges over all its values and all texts", "anchors": ["number_parser/parser.py:parse", "number_parser/parser.py:parse_number", "number_parser/parser.py:parse_ordinal", "number_parser/parser.py:parse_fraction", "number_parser/parser.py:_build_number"]}
{"id": "C88", "title": "Other versions of Unicode", "statement": "Two interpreters with the same limit of digits whose character tables agree on the characters of the text (and on ASCII, the characters of the number words, and the lower case and decompositions of all these) give the same result or exception of every call; so for texts of everyday characters (below U+0980 and general punctuation) the results of CPython 3.11 are those of every interpreter with the same tables for these characters, whatever its other characters. (That all supported versions agree on all texts is refuted by characters new in a version: a letter only the newer tables know is a separator for the older.)", "quantifier": "all pairs of interpreters (character tables and limits), all texts", "why_tests_cant": "the supported versions 3.9 to 3.13 have four different Unicode tables; a test runs on one of them and on some texts", "anchors": ["number_parser/parser.py:parse", "number_parser/parser.py:parse_number", "number_parser/parser.py:parse_ordinal", "number_parser/parser.py:parse_fraction", "number_parser/parser.py:_tokenize", "number_parser/parser.py:_strip_accents", "setup.py:setup"]}
{"id": "C89", "title": "The generator with other encodings and line ends", "statement": "The script opens its files without naming an encoding. With any encoding of the locale and any line ends, it does for a language what it does in UTF-8 for the files converted to UTF-8, and writes the module that these have in the encoding and with the line ends of the platform; if the module cannot be encoded the target is left empty with UnicodeEncodeError, and if there is none it is not touched. Bytes that are not in the encoding end the run with a ValueError before the target is touched. Files and modules of ASCII characters are the same in every encoding that contains ASCII; in an ASCII locale a run without exception leaves what it leaves in UTF-8, and every file with a byte outside ASCII raises; the line ends of Windows do not change what importing the module gives. (That the script runs everywhere is refuted: with the western Windows code page the Russian, Ukrainian and Hindi rule files cannot be read.)", "quantifier": "all encodings, line ends and source files", "why_tests_cant": "the files are read in the encoding of the machine the script happens to run on; a test runs on one machine", "anchors": ["number_parser_scripts/write_complete_language_data.py:write_complete_data"]}
{"id": "C90", "title": "Arguments of other types", "statement": "A language argument that is neither a string nor None is treated in every call like the name of an unsupported language (ValueError, unless the language is not looked at). With a text that is no string, parse and parse_ordinal never return: they raise ValueError for an unsupported language and otherwise TypeError for bytes and AttributeError for other objects; parse_number raises AttributeError and parse_fraction TypeError for bytes and AttributeError for other objects, except that both return None for bytes of white space; so no call ever returns a number or text for a text argument that is no string.", "quantifier": "all built-in objects as text and language", "why_tests_cant": "nothing checks types, so what happens depends on which operation meets the object first; scraped values are often None or bytes", "anchors": ["number_parser/parser.py:parse", "number_parser/parser.py:parse_number", "number_parser/parser.py:parse_ordinal", "number_parser/parser.py:parse_fraction", "number_parser/parser.py:_tokenize", "number_parser/parser.py:_valid_tokens_by_language", "number_parser/parser.py:LanguageData"]}
{"id": "C91", "title": "What the generator says", "statement": "A run of write_complete_data without exception says nothing about the two special files, logs one entry for each file without spellout rules, and for every other language prints one line for each key of a used rule set that is not an integer, in the order of the rules, and logs an entry if the supplementary file has no USE_LONG_SCALE. With an exception, everything was said about the files before the failing one, and a beginning of what there is to say about that one. What is said does not change what is written, as long as standard output takes the lines; a key whose line cannot be encoded ends the run with UnicodeEncodeError, after the lines about the rules before it and before the target is touched. (In UTF-8 only keys with lone surrogates are refused.)", "quantifier": "all directories of source files, all encodings of standard output", "why_tests_cant": "The keys and the encodings of standard output are unbounded; a test sees one console.", "anchors": ["number_parser_scripts/write_complete_language_data.py:write_complete_data", "number_parser_scripts/write_complete_language_data.py:_extract_information"]}
{"id": "C92", "title": "Composed and similar texts, with any vocabulary", "statement": "Were the list of supported languages another one, and the named language had a data module of the kind of C81 with moderate values: if a text ends with an ordinary word or an ordinal, parse converts what follows after white space on its own (C58); if it ends with a number word and an ordinary word follows, both parts are converted on their own and one space is left between them; a full stop or comma ends every number (C17, unless the language is called 'hi'); a text beginning with a number word that parse_number reads as n is converted to n, alone and between such texts (C62); white space in front does not matter (C63). With such modules for all languages, and any or no language given, texts that differ in case, accents or white space are converted to texts that differ in these only (C57, C63). The data of all languages in the repository that could be enabled is of this kind, except the Polish one.", "quantifier": "all lists of languages, all data modules of this kind, all texts", "why_tests_cant": "a test knows one vocabulary and some texts; the claims are about pairs of texts put together or respelled, in languages that are not enabled yet", "anchors": ["number_parser/parser.py:parse", "number_parser/parser.py:parse_number", "number_parser/parser.py:LanguageData", "number_parser/parser.py:_build_number", "number_parser/parser.py:_tokenize"]}
{"id": "C93", "title": "Names of numbers, with any vocabulary", "statement": "Were the list of supported languages another one, and the named language had a sensible data module: if the number words of a text form the name of a number n as languages build them (a unit, a word from ten to nineteen, tens, tens and a unit; words for hundreds, or counted hundreds; on the long scale counted thousands; counted larger scale words in falling order, each count below its scale word, a count of one may be missing), then parse_number gives n and parse converts the text to n. If the module lists all words of a system of names below a bound, then the name of every number below the bound is read as that number, in any case, with any accents, and any white space and conjunctions between the words. The data for Indian English in the repository lists the names with lakh and crore below 10^10, the Spanish data those below 10^60.", "quantifier": "all lists of languages, all data modules, all systems of names, all numbers, all texts", "why_tests_cant": "numbers, vocabularies and layouts are unbounded; a test tries some numbers in the languages that are enabled", "anchors": ["number_parser/parser.py:parse", "number_parser/parser.py:parse_number", "number_parser/parser.py:LanguageData", "number_parser/parser.py:_build_number", "number_parser/parser.py:_check_validity"]}
{"id": "C94", "title": "Numbers one after another, with any vocabulary", "statement": "Were the list of supported languages another one, and the named language had a data module of the kind of C81 with moderate values: if several texts each begin and end with a number word (and have no apostrophes) and are read as numbers by parse_number, and no text together with the first word of the next one is a number for parse_number, then parse converts the texts written one after another, with any white space and conjunctions between them, to these numbers with single spaces between them, keeping the conjunctions in lower case; and parse_number finds no number in the whole. If no number begins with a word for zero (or a scale word for one) and no conjunction contains a space, the condition is also necessary. A number that ends with a unit word or a word from ten to nineteen is continued by scale words only.", "quantifier": "all lists of languages, all data modules of this kind, all lists of texts", "why_tests_cant": "lists of numbers (scores, years, phone numbers) of any length in languages that are not enabled yet; which pairs run together depends on every pair of words", "anchors": ["number_parser/parser.py:parse", "number_parser/parser.py:parse_number", "number_parser/parser.py:_build_number", "number_parser/parser.py:_check_validity", "number_parser/parser.py:LanguageData"]}
{"id": "C95", "title": "Punctuation written against numbers and words, with any vocabulary", "statement": "Were the list of supported languages another one, and the named language, not called 'hi', had a data module of the kind of C81 with moderate values: punctuation directly after a number word gets a space in front of it, only a full stop or comma stays attached; after an ordinary word, numeral, other punctuation or ordinal, and in front of a text, punctuation (or a conjunction that is a single such character) stays where it is; the text before it and the rest, with the punctuation, are converted on their own. So a number in brackets or quotation marks is converted, with a space before the closing mark. Every character that is neither a word character nor white space nor an accent nor a soft hyphen nor a conjunction is punctuation in this sense, if every number word of the module contains a word character; the data of all languages in the repository is of this kind.", "quantifier": "all lists of languages, all data modules of this kind, all texts, all characters", "why_tests_cant": "the claim is about every text on both sides of every Unicode punctuation character, in languages that are not enabled yet", "anchors": ["number_parser/parser.py:parse", "number_parser/parser.py:_tokenize", "number_parser/parser.py:_build_number", "number_parser/parser.py:LanguageData"]}
{"id": "C96", "title": "Language detection of composed texts, with any list of languages", "statement": "Were the list of supported languages another one, with data modules of the kind of C81: the numbers of recognised tokens of two texts with white space between them add up in every language; so if the same language is detected for two texts it is detected for both together, the order of the texts does not matter, and text of which no language recognises anything does not influence the detection. A text of which only one language recognises something is of this language: without a language argument all functions give what they give with it. If a language recognises every token any other one does, and for each language earlier in the list one more, it is detected (none being called 'hi'). A text of which no language recognises anything is returned by parse as it is if English is among the languages (and its module has no word taken for an irregular ordinal). Without a language argument, parse works piece by piece on texts of the same language.", "quantifier": "all lists of languages, all data modules of this kind, all texts", "why_tests_cant": "detection compares the counts of all languages over the whole text; a test tries a few texts in the languages that are enabled", "anchors": ["number_parser/parser.py:_valid_tokens_by_language", "number_parser/parser.py:parse", "number_parser/parser.py:parse_number", "number_parser/parser.py:parse_ordinal", "number_parser/parser.py:parse_fraction"]}
{"id": "C97", "title": "How numbers and results grow, with any vocabulary", "statement": "With any list of languages and the vocabulary of any sensible data module: a number that parse_number reads is at least as great as each of its words; its first words are a number too, and not a greater one; it has at most as many digits as the values of its words together. A scale word larger than the number before it (other than one for 100) multiplies it; a word of another class is added if its class may follow that of the last word, and otherwise the text is no number. If the digits of the value of each word and a space are at most F times as long as the word, the result of parse is at most 3F times as long as the text (6006 times for any module of moderate values).", "quantifier": "all lists of languages, all sensible (tidy, moderate) data modules, all texts, all F", "why_tests_cant": "The vocabularies and texts are unbounded; tests can try a few of each.", "anchors": ["number_parser/parser.py:parse", "number_parser/parser.py:parse_number", "number_parser/parser.py:_build_number", "number_parser/parser.py:_check_large_multiplier", "number_parser/parser.py:_check_validity", "number_parser/parser.py:LanguageData"]}
{"id": "C98", "title": "The generator when the operating system fails", "statement": "Listing the source directory, opening or reading a source or supplementary file, opening a target, and writing or closing it can fail with an OSError. A run ends without exception exactly if the directory can be listed and each file has a special name (it is not even opened), or can be read and has no spellout rules, or has a module and nothing fails for it; the targets are then the same as without failures. A run that ends with an exception has come to the first file with which something goes wrong: the targets are those of a run over the files before it, except that if writing stops, the target of this one holds the bytes that were written, and if its module cannot be encoded, it is empty; if something cannot be opened or read, it is as before. An OSError has its reason in a failure, another exception in the files. After any history of runs that failed or were killed, a run without failures leaves behind what it would have left behind without them (unless they wrote targets it does not have), and targets of no source file are never touched.", "quantifier": "all directories, all combinations of failing operations, all points at which a write stops, all histories of runs", "why_tests_cant": "Failures can happen at any operation and after any byte, in any sequence of runs; tests can inject a few.", "anchors": ["number_parser_scripts/write_complete_language_data.py:write_complete_data"]}
{"id": "C99", "title": "Several runs of the generator at the same time", "statement": "Several processes run the generator over the same target directory at the same time; each truncates a target when it opens it and then writes its bytes in pieces of any sizes at its own position. If all processes write the same module to a target, then at any moment the target is as before (no process has begun with it) or holds only bytes of the module at their places and zero bytes; whenever no process has it open it is complete or as before; when all processes have finished, every target is complete. Targets of no process are never touched; no process waits for another. So any number of runs over the same sources, each listing them in its own order, leave behind what one run does. Runs over different sources can leave a mixture.", "quantifier": "all numbers of processes, all schedules, all sizes of the pieces, all crash points", "why_tests_cant": "There are unboundedly many interleavings; a test sees one.", "anchors": ["number_parser_scripts/write_complete_language_data.py:write_complete_data"]}
{"id": "C100", "title": "Agreement of the functions, with any vocabulary", "statement": "Were the list of supported languages another one, and the named language had a data module of the kind of C81 with moderate values: a text without apostrophes that begins with a number word and has only number words, conjunctions and white space is converted by parse to the single number n exactly if parse_number reads it as n (and then the converted text is read as n in every language); parse_number finds no number exactly if parse makes several numbers of it. If the module is of the kind of C83, and none of its words looks like an ordinal of another one: when the last word is an ordinal (and the language is not called 'hi' or the text has no apostrophes), parse gives the single number n exactly if parse_ordinal reads n; and every number with a number word that parse_number reads is read by parse_ordinal too. The data modules of the repository are such (the last condition holds even for all that can be loaded). Without the last condition parse_ordinal may read a cardinal as another number.", "quantifier": "all lists of languages, all data modules of this kind, all texts of number words", "why_tests_cant": "Three implementations of the same idea must agree for every vocabulary and every sequence of words.", "anchors": ["number_parser/parser.py:parse", "number_parser/parser.py:parse_number", "number_parser/parser.py:parse_ordinal", "number_parser/parser.py:_build_number", "number_parser/parser.py:_is_number_token", "number_parser/parser.py:LanguageData"]}
{"id": "C101", "title": "The work is linear in the length of the text", "statement": "All iterations of all loops in the source that a call runs (for statements, comprehensions, generator expressions; its own and those of the functions it calls) are at most a constant number for each character of the text, plus a number that depends on the data modules only, whatever the list of languages and their modules are, and whether the call returns or raises: 28 per character for parse, 12 for parse_number, 94 for parse_ordinal, 12 for parse_fraction; if no language is given, 22 more per character and language. In particular no character makes the parser go back over the text.", "quantifier": "all lists of languages, all data modules, all texts, all language arguments", "why_tests_cant": "A test measures single texts; the bound must hold for texts of every length and shape.", "anchors": ["number_parser/parser.py:parse", "number_parser/parser.py:parse_number", "number_parser/parser.py:parse_ordinal", "number_parser/parser.py:parse_fraction", "number_parser/parser.py:_build_number", "number_parser/parser.py:_valid_tokens_by_language", "number_parser/parser.py:_strip_accents", "number_parser/parser.py:_normalize_tokens", "number_parser/parser.py:_normalize_dict", "number_parser/parser.py:_apply_cardinal_conversion", "number_parser/parser.py:LanguageData"]}
{"id": "C102", "title": "Changing single words of a language", "statement": "What the functions give with a language depends only on what its data module says about the words they look up: parse on the words of the text and on the cardinals these could be ordinals of; parse_number on the words of the text without apostrophes; parse_ordinal besides on the words of the text with ordinals replaced; parse_fraction on the words of the two sides. Two modules with the same scale (or if none of these is a scale word greater than 100 and up to 10000, also with different ones) that do not differ about these give the same result or exception, whatever else they contain and however irregular they are; without a language argument, too, if this holds for all languages. So one more word changes nothing for texts that neither contain it nor a word it could be the cardinal of (the latter is needed: with \"dozen\", \"dozenth\" is converted); and the order of the entries and of the conjunctions in a module matters for no text if no table lists a word twice, as in the five languages.", "quantifier": "all lists of languages, all pairs of data modules, all texts", "why_tests_cant": "There are unboundedly many modules and texts; a test compares single ones.", "anchors": ["number_parser/parser.py:parse", "number_parser/parser.py:parse_number", "number_parser/parser.py:parse_ordinal", "number_parser/parser.py:parse_fraction", "number_parser/parser.py:_build_number", "number_parser/parser.py:_check_validity", "number_parser/parser.py:_check_large_multiplier", "number_parser/parser.py:_apply_cardinal_conversion", "number_parser/parser.py:_is_cardinal_token", "number_parser/parser.py:_valid_tokens_by_language", "number_parser/parser.py:LanguageData"]}
{"id": "C103", "title": "The switch for the long scale", "statement": "Whether a data module sets USE_LONG_SCALE matters only for texts that have a scale word with a value greater than 100 and up to 10000 (as 'thousand'): for every other text, whatever the module contains, the functions give the same with both settings (parse if no word of the text is the ordinal of such a word, either; parse_ordinal if the text with its ordinals replaced has none, either; parse_fraction if the two sides have none). If no module whose switch is changed has such a word, it does not matter for any text, with or without a language argument. Each of the five languages has such a word, and the condition is needed: with the switch Spanish reads 'un billon dos mil millones' as one number (10^12 + 2*10^9), without it as two, and English with the switch would read 'one million two thousand three hundred' as two.", "quantifier": "all lists of languages, all data modules, all texts", "why_tests_cant": "There are unboundedly many modules and texts; a test compares single ones.", "anchors": ["number_parser/parser.py:parse", "number_parser/parser.py:parse_number", "number_parser/parser.py:parse_ordinal", "number_parser/parser.py:parse_fraction", "number_parser/parser.py:_build_number", "number_parser/parser.py:LanguageData"]}
{"id": "C104", "title": "Names of ordinals, with any vocabulary", "statement": "If the cardinals and ordinals of a text are, in this order, a name of n (as C93 says what a name is), then parse_ordinal gives n, in every language with a plain and moderate data module, with any conjunctions, apostrophes and white space between the words, unless the text begins with a conjunction. So if a module lists the words of the names of all numbers below a bound, then the ordinal of every such number is read from its name, in any case and with any accents, whichever of the words are ordinals; and if only the last is (and the text begins with a number word), parse converts the name to the same number. In particular this holds for names written with single spaces; and with the data for Indian English in the repository both read the ordinals of all numbers below 10^10 ('twelve crore thirty four lakh five thousand sixty seventh').", "quantifier": "all data modules and ways of naming numbers that they list, all numbers below the bound, all texts with such a name", "why_tests_cant": "There are infinitely many modules, names and layouts; tests read single ordinals of the languages that exist.", "anchors": ["number_parser/parser.py:parse_ordinal", "number_parser/parser.py:parse", "number_parser/parser.py:_apply_cardinal_conversion", "number_parser/parser.py:_build_number", "number_parser/parser.py:LanguageData"]}
{"id": "C105", "title": "Named numbers in fractions and sentences, with any vocabulary", "statement": "If a data module lists the words of the names of all numbers below a bound (C93), then parse_fraction gives 'a/b', unreduced, for every text whose two sides are written names of a and b; in particular for two names with single spaces and any of the four separators between them, unless a word of the names contains something that looks like a separator. In a sentence the name of a number is replaced by its digits and what stands around it is converted on its own, if an ordinary word or an ordinal comes before it and an ordinary word after it; so is the name of an ordinal, whatever follows. With the data for Indian English in the repository this holds for the fractions of all numbers below 10^10, and for 'they won <number> rupees' and 'this is the <ordinal> of them'.", "quantifier": "all data modules and ways of naming numbers that they list, all numbers below the bound, all sentences around them", "why_tests_cant": "There are infinitely many modules, numbers and sentences; tests read single ones in the languages that exist.", "anchors": ["number_parser/parser.py:parse_fraction", "number_parser/parser.py:parse", "number_parser/parser.py:parse_number", "number_parser/parser.py:_build_number", "number_parser/parser.py:LanguageData"]}
{"id": "C106", "title": "Names of numbers without a language argument, with any list of languages", "statement": "In a parser with any list of languages whose data modules are tidy and moderate, and of which one lists the words of the names of all numbers below a bound (C93): without a language argument, parse and parse_number read the name of every such number, written with single spaces, if each language that recognises all words of the name gives them the same classes and values and is on the same scale - whatever the other languages are and in whatever order they come. parse_ordinal and parse read the ordinals likewise, if those languages also have the same ordinal for the last word, and parse_fraction the fractions of two such numbers with 'divided by', 'over' or 'by' between them, if no language recognises these words. In particular in a parser with Indian English and any of the five languages, in any order, the Indian name of every number below 10^10 ('two crore five lakh'), its ordinal, and the fractions of two such numbers are read without being told the language.", "quantifier": "all lists of languages and their data modules, all ways of naming numbers that one of them lists, all numbers below the bound", "why_tests_cant": "There are infinitely many lists of languages and numbers; a test reads single names with one list.", "anchors": ["number_parser/parser.py:parse", "number_parser/parser.py:parse_number", "number_parser/parser.py:parse_ordinal", "number_parser/parser.py:parse_fraction", "number_parser/parser.py:_valid_tokens_by_language", "number_parser/parser.py:_normalize_tokens", "number_parser/parser.py:LanguageData"]}
