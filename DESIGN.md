# Formal model of scrapinghub/number-parser in Lean 4

## 1. What is modelled

The library is a set of string functions (`number_parser/parser.py`) over five language tables
(`number_parser/data/{en,es,hi,ru,uk}.py`), plus a script that generates these tables from JSON files
(`number_parser_scripts/write_complete_language_data.py`).  Both are modelled function by function as total,
computable Lean functions; every definition cites the file and lines it models.

* A Python `str` is the list of its code points (`PyStr = List Nat`), of any length, with any code points.
* A Python `dict` is an association list in insertion order, with Python's rules for overwriting and merging.
* A raised exception is a value of `Except`.
* A Python `int` that can only be non-negative is a `Nat`; the generator, where keys may be negative, uses `Int`, and
  the binary floating-point arithmetic of its `_count_zero` is modelled exactly (correctly rounded division).
* Shared mutable state (imported modules, class attributes, `sys.modules`) is explicit in `Model/Session.lean`, where
  API calls are programs of atomic steps, so that histories and thread interleavings can be quantified over.
* The file system of the generator is a table from names to contents, with partially written files as possible states.

| Lean module | models |
|---|---|
| `Model/Py.lean` | the Python built-ins used: `str.strip`, `replace`, `find`, slicing, `join`, `dict`, `str(int)` and `int(str)` with the 4300-digit limit |
| `Model/Tables.lean`, `Model/UnicodeData.lean` (generated) | the character tables of CPython 3.11 (Unicode 14.0): word characters, white space, lower case, decompositions, combining classes, category Mn, numeric and decimal characters |
| `Model/Unicode.lean` | `\w`, `str.lower` with the final-sigma rule, `unicodedata.normalize("NFD")` (including Hangul and canonical ordering), `str.isnumeric`, decimal digits |
| `Model/Data.lean` (generated) | the dictionaries of `number_parser/data/{en,es,hi,ru,uk}.py` |
| `Model/Parser.lean` | every function and class of `number_parser/parser.py` |
| `Model/Session.lean` | the same API as programs acting on shared objects; call histories; threads and schedules |
| `Model/Generator.lean` | `write_complete_language_data.py`: rule classification, extraction of words, merging with supplementary data, sorting |
| `Model/RuleData.lean` (generated) | the ten JSON inputs of the five languages |
| `Model/SourcesA.lean` … `SourcesF.lean` (generated) | rules, supplementary file and data module of each of the 78 languages that are not enabled |
| `Model/Emit.lean` | the text the generator writes (`json.dumps`, the `re.sub` of true/false), the directory loop, crashes and kills, and reading the module text back (`import`) |
| `Model/Pipeline.lean` | `LanguageData` made from the text of an arbitrary module; `parse_number`, `parse_ordinal` and `parse` with the tables as a parameter |
| `Model/Package.lean` | the four functions with `SUPPORTED_LANGUAGES` and the data modules as a parameter |
| `Model/Interpreter.lean` | the four functions with the interpreter as a parameter: its character tables (word characters, lower case, decompositions, combining classes, digits, ...) and its limit of digits for conversions between `int` and `str`; white space is fixed |
| `Model/Locale.lean` | the generator with the encoding of the locale and the line ends of the platform as a parameter; ASCII, Latin-1 and cp1252 as instances; import of a module from its bytes |
| `Model/Arguments.lean` | the four functions on Python objects of any built-in type, with the methods looked up at run time (`AttributeError`, `TypeError`) |
| `Model/Json.lean` | `json.loads`: grammar, escapes, surrogates, duplicate names, integers, floats with correct rounding |
| `Model/Files.lean`, `Model/Bytes.lean` | the generator from the bytes of the JSON files to the bytes of the modules: UTF-8, universal newlines, unexpected types, truncation of targets, kills |
| `Model/System.lean` | the generator with failing operations of the operating system (listing, opening, reading, writing, closing) |
| `Model/Concurrent.lean` | several processes running the generator over one target directory: steps (open and truncate, write a piece, close) interleaved in any way |
| `Model/Steps.lean` | the four functions and all they call, with the number of iterations of their loops |
| `Model/Messages.lean` | the same with what is printed and logged, standard output being a parameter |
| `Model/FileBytes.lean` (generated) | the bytes of the ten JSON inputs of the five languages |
| `Model/DataText.lean` (generated) | the texts of the five shipped data files |
| `Spec/*.lean` | specifications that do not use the functions of the model: how numbers are spelled in each language, renderings of a word list as text, tokens, sentences, detection, fractions, ordinals, which rule contributes which word, ... |
| `Proofs/*.lean` | lemmas |
| `Props/*.lean` | the property theorems, each with a concrete case that meets its hypotheses |

The specification files refer to the model only for the data (`Data.*`, through `Spec/Words.lean`) and for the character
classes of Python (`isSpace`, `isWord`, `lower`, `stripAccents` as "comparison form").

## 2. Trusted base

* Lean's kernel.  No axioms besides `propext`, `Classical.choice` and `Quot.sound` (each theorem depends on a subset
  of these three; `vcheck` lists them); no compiled evaluation, concrete facts about the tables are proved with
  `decide +kernel`.  Mathlib is not imported.
* The transcription of the Python source: each definition against the cited lines.
* The generated modules: `tools/gen_unicode.py` (queries the character functions of a CPython 3.11 interpreter, not the
  project), `tools/gen_data.py`, `tools/gen_rules.py`, `tools/gen_sources.py`, `tools/gen_text.py`,
  `tools/gen_bytes.py` (copy the text or bytes of files of /repo).  That
  `Model/Data.lean` is what the shipped texts mean is itself a theorem (`c51_shipped`), and so is that the shipped texts are what the
  generator makes of the bytes of the JSON files (`c68_shipped`).
* That the Python built-ins behave as modelled in `Model/Py.lean` and `Model/Unicode.lean`.

Check of the transcription against the project's own expectations: `tools/conformance` extracts, as text, all
2804 input/expected-output pairs of the project's test suite (parametrized lists and CSV files) and evaluates the model on
them: no mismatch.  `tools/conformance/Generator.lean.txt`
runs the byte-level generator model on all 85 rule files of the repository: it reproduces every shipped data module byte for byte,
except uk.py (see C68).  (These are checks of the model, not proofs, and not part of the build.)

## 3. What is not modelled

* Arguments whose class is not built in (subclasses of `str`, objects with methods of the same names); other types of arguments: C90.
* `number_parser/__init__.py` (`__version__`, re-exports), packaging, `setup.py`.
* Generator: values of unexpected types in a supplementary file with which Python goes on in some unintended way (a table that is a list or a
  string, a number written as a string, a skip token that is not a string, a scale that is not a boolean): what comes of the language
  is an unknown function (`unusualText`, an opaque constant), and the theorems have the hypothesis `Usual` where they need it.
  JSON nested so deeply that Python's recursion limit is hit.  Except in C91, standard output takes every line.
* Generator: failures of the operating system are modelled (C98) as one failing operation; files that change while they are read, and signals inside `print`, are not.
* Data files of languages the parser refuses (`SUPPORTED_LANGUAGES` has five entries), except in C50 and C78 to C86, which are about any data module.
* Other interpreter versions: in the properties other than C87 and C88, Unicode tables and the 4300-digit limit are those of CPython 3.11;
  what carries over to others is said by C87 and C88 (the tables of the other versions themselves are not in the model).
* Memory exhaustion, recursion limits, running time in seconds, signals inside a call of the parser.  C101 counts iterations of the loops in the source; the time the operations of Python (`replace`, `re.split`, `in`, `normalize`, `int`, ...) take is not modelled.

## 4. Properties: model and proof

"Rendering" means: the words in order, any case and any accents that do not change the comparison form, separated by any
gap the language allows (white space, conjunctions, hyphens), with optional leading/trailing white space
(`Spec/Number.lean`).  "Comparison form" is the lower-cased text without accents.

| Property | Theorems (namespace `NumberParser.Props`) | Method |
|---|---|---|
| C01-C05 numerals round-trip | `c0N_*_round_trip` (every rendering), `c0N_*_text` (the standard text) | spelling functions in `Spec/Numerals.lean` by recursion over periods; induction over periods with the builder's state as invariant (`Proofs/Run`, `Seq`, `Render`, `RoundTrip`); tokeniser lemma for renderings |
| C06 English ordinals | `c06_english_ordinals`, `c06_english_ordinal_text` | C01 + the rewriting maps the ordinal form of each final word back; substring lemmas for `replace` |
| C07 fractions | `c07_fractions`, `c07_english_text` | C20 + C01-C05 + the separators do not occur inside spelled numbers |
| C08 digit strings | `c08_digits`, `c08_str` | model of `int()`; every digit script |
| C09 table words | `c09_listed_words`, `c09_as_listed` | table facts in the kernel, lifted to all spellings |
| C10 lists, C45 sentences, C38 adjacent units | `c10_lists`, `c10_hindi`, `c10_hindi_refuted`, `c10_english`, `c45_sentence`, `c45_hindi`, `c38_units_not_merged` | induction over the list of parts; state of the `parse` loop between parts |
| C11 auto-detection | `c11_auto`, `c11_number_words`, `c11_fractions` | argmax specification of detection + cross-language table facts |
| C12 idempotence, C13 no number word left | `c12_idempotent`, `c13_no_number_word_left` | shape invariant of the output tokens |
| C14 plain text, C15 ordinary words, C39, C44 | `c14_*`, `c15_*`, `c39_*`, `c44_tokens` | invariants of the token loop; exact specification of tokens |
| C16 conjunctions | `c16_conjunctions_kept`, `c16_inside_number`, `c16_between_numbers`, `c16_before_word`, `c16_before_mark`, `c16_refuted` | invariant of the loop where no number precedes; C55 for the positions after a number; the naive expectation is refuted |
| C17 sentences independent | `c17_concat`, `c17_hindi` | a separator resets the loop state |
| C18, C19 agreement of the functions | `c18_parse_agrees`, `c19_ordinal_agrees` | both sides factor through the comparison forms of the tokens |
| C20 decision logic of fractions | `c20_fraction`, `c20_none`, `c20_no_separator`, `c20_cases` | specification of the first occurrence of the best separator |
| C21, C22 accepted texts | `c21_*`; `c22_number_words`, `c22_no_number_word`, `c22_refuted` | token check; C54; the naive expectation is refuted |
| C23, C24, C25 blank input, exceptions, unsupported languages | `c23_*`, `c24_*`, `c25_*` | exact characterisation of the raising inputs |
| C26, C27 detection | `c26_*`, `c27_default_language` | first maximum |
| C28, C29, C32, C33 invariances | `c28_case`, `c28_lower`, `c28_refuted`, `c29_*`, `c32_*`, `c33_*` | simulation of two runs; case mapping over the whole lower-case table of Unicode |
| C30 leading white space | `c30_leading_space`, `c30_leading_space_none`, `c30_detected`, `c30_not_words`, `c30_leading_conjunction`, `c30_refuted` | exact case distinction by C54; the naive expectation is refuted |
| C34 accents | `c34_accented_letters`, `c34_accented_letters_ordinal`, `c34_accents`, `c34_accents_ordinal`, `c34_refuted` | whole-table facts about decompositions lifted to texts (`Proofs/Accents`); decomposed accents are a counterexample |
| C31 bounded results | `c31_parse_number`, `c31_parse` | invariant bounding total and group |
| C35 sign | `c35_hyphen_is_no_sign` | C01 with a leading hyphen |
| C36, C37, C48 building rules | `c36_*`, `c37_*`, `c48_synonyms` | the run depends on classes and values only |
| C40, C43 | `c40_denominator`, `c40_zero_denominator`, `c40_refuted`; `c43_scale_plurals`, `c43_agree`, `c43_refuted` | exact conditions; whole-table computation |
| C41 history, C49 threads | `c41_*`, `c49_threads` | invariant on the shared objects, for every history / schedule |
| C42 tables | `c42_tables` | kernel computation over the whole table |
| C46, C47, C53 generator | `c46_*`, `c47_*`, `c53_*` | for every rule set; float rounding lemma for `_count_zero` |
| C50 regeneration | `c50_regenerate`, `c50_ukrainian_drift`, `c50_ukrainian_effect`, `c50_other_languages`, `c50_other_names`, `c50_without_scale` | kernel computation on the embedded files (five languages and the 78 that are not enabled, as rules read from the JSON files by `tools/gen_sources.py`); for uk the exact difference |
| C51 module text | `c51_read_back`, `c51_conditions`, `c51_shipped` | scanner/reader of the emitted text, induction |
| C52 directory runs | `c52_*` | invariant over the runs, including every kill point |
| C54 exact meaning of `parse_number` | `c54_number`, `c54_first_token`, `c54_none`, `c54_unique` | relational reading rules (`Spec/Reading.lean`), both directions by induction over the run (`Proofs/Reading`) |
| C55 exact meaning of `parse` | `c55_parse`, `c55_total` | relational conversion rules, simulation of the loop (`Proofs/Convert`) |
| C56 exact meaning of `parse_ordinal` | `c56_ordinal`, `c56_none`, `c56_blank`, `c56_numeral` | comparison forms are stable under a second normalisation (whole-table facts), ordinary tokens stay ordinary (`Proofs/OrdinalMeaning`), then as C54 |
| C57 case/accents and `parse` | `c57_case`, `c57_accents` | C55's rules look at comparison forms only: transport of a derivation of `Converted` along token-wise similarity (`Proofs/Transport`) |
| C58 piecewise conversion | `c58_pieces`, `c58_number` | derivations of `Converted` compose after a closing token; tokens of a concatenation; stripping (`Proofs/Closed`) |
| C59 ordinals in sentences | `c59_ordinal`, `c59_ordinal_text`, `c59_sentence`, `c59_start`, `c59_end` | tokens of a rendering, C01's arithmetic, rule `ordinal` of C55, then C58 (`Proofs/OrdinalSentence`) |
| C60 digits untouched | `c60_digits_kept`, `c60_digits_before`, `c60_digits_after`, `c60_no_number`, `c60_refuted` | tokens with digits are ordinary (table check + survival of digits under normalisation and replacement), then C15, C58, C21 |
| C61 growth | `c61_words`, `c61_prefix` | induction on `Spec.Reading` (`Proofs/Growth`), via C54 |
| C62 numbers in context | `c62_inside`, `c62_end`, `c62_start` | C18 for the number, C58 for the joints (`Proofs/OpenRun`) |
| C63 white space and `parse` | `c63_spacing`, `c63_leading` | a simulation between derivations of `Converted` over token lists that differ in white tokens (`Proofs/SpacingConvert`) |
| C64 JSON files | `c64_read`, `c64_error`, `c64_meaning`, `c64_blanks`, `c64_duplicates` | the model of `json.loads` and of UTF-8 decoding proved equivalent to a grammar with meanings (`Spec/Json`, `Spec/Utf8`) by induction on the fuel and on derivations (`Proofs/JsonValue`, `Proofs/Utf8`, `Proofs/JsonBreaks`) |
| C65 numbers in files | `c65_nearest`, `c65_exact`, `c65_powers`, `c65_inexact` | correct rounding proved against the definition of the nearest double (`Spec/Double`, `Proofs/Double`) |
| C66 one language | `c66_module`, `c66_left_out`, `c66_layout`, `c66_bad_source`, `c66_bad_supplementary`, `c66_exception`, `c66_target`, `c66_words`, `c66_lost` | refinement: bytes → JSON value → decoded dictionaries → `generate` (`Proofs/Files`) |
| C67 runs over bytes | `c67_success`, `c67_run`, `c67_untouched`, `c67_order`, `c67_again`, `c67_exception`, `c67_killed` | induction on the list of files and on visible states (`Proofs/FileRuns`) |
| C68 shipped bytes | `c68_shipped`, `c68_ukrainian_drift` | evaluation of the model on the bytes of the repository in the kernel, plus C51 |
| C69 fractions and rewriting | `c69_sides`, `c69_case`, `c69_spacing`, `c69_again`, `c69_refuted` | C20 + C28, C29; the numbers in a result have at most 4300 digits (C31, C08), so they are read back |
| C70 normalising first | `c70_number`, `c70_fraction`, `c70_refuted` | C18, C58, C62 for the parts of the text, C08 for the digits |
| C71 detection of composed texts | `c71_score`, `c71_join`, `c71_neutral`, `c71_swap`, `c71_single`, `c71_pieces` | the recognised words of a text are determined by its tokens, and white space separates the tokens; C58 |
| C72 texts of one language without a language argument | `c72_parse`, `c72_number`, `c72_ordinal`, `c72_sentence`, `c72_refuted` | the language detected recognises at least as many tokens as l and no others, so it is l, or Russian for Ukrainian, or nothing is recognised; words of both Cyrillic tables have the same meaning in both (kernel evaluation over the tables), so the runs of C54–C56 are the same |
| C73 results are not much longer than their texts | `c73_parse`, `c73_digits`, `c73_number`, `c73_ordinal`, `c73_fraction`, `c73_detected`, `c73_sharp` | induction over the rules of C54–C56: sums and products have no more digits than their operands together; comparison forms of table words are not longer than the words (check of the character tables); digits per letter of the table words by kernel evaluation |
| C74 on texts of number words only, the functions agree | `c74_number`, `c74_several`, `c74_ordinal`, `c74_refuted` | uniqueness of the word classes and of the rules of C54–C56; a run is converted to a text without spaces exactly if it is not cut |
| C75 numbers written one after another stay apart exactly if no number begins with a word continuing the previous one | `c75_apart`, `c75_number`, `c75_linked`, `c75_refuted` | criterion `Apart` by arithmetic on the last and leading digits (Spec/Apart.lean); proved by the kinds of the last and first words of every spelling and the step of the number builder on them; one iff for lists of any length |
| C76 counted hundreds ("nineteen hundred forty-five") | `c76_english`, `c76_hindi`, `c76_thousand`, `c76_refuted` | words and values in Spec/Hundreds.lean; by induction over the groups with the state of the number builder (no bound on the number of groups other than the scale words); the limit "count > 1000 thousand" from the validity check |
| C77 punctuation against numbers and words | `c77_after_number`, `c77_mark`, `c77_after_word`, `c77_in_front`, `c77_enclosed`, `c77_refuted` | tokens of a concatenation at a character that is no word character; derivations of `Converted` compose there (`Proofs/Punctuation`); which characters are ordinary by whole-table facts |
| C78 from the data files to the parser | `c78_pipeline`, `c78_loaded`, `c78_word`, `c78_both`, `c78_without_scale`, `c78_capitals`, `c78_repository` | the parser with its tables as a parameter (`Model/Pipeline`), read from the module text; composition of C66, C51 and C47 with `parse_number` on one token for arbitrary tables; for the modules of the repository it is the same `parse_number` |
| C79 declined numbers | `c79_forms`, `c79_declined`, `c79_spells`, `c79_russian`, `c79_russian_text`, `c79_spanish`, `c79_spanish_text`, `c79_russian_vocabulary`, `c79_spanish_vocabulary`, `c79_refuted` | the paradigms written down in `Spec/Declension`; the words have the same classes as the base forms, so they are forms (`Lang.Form`) of the number, for which C07, C10, C11, C45 and C75 are stated; the vocabulary: each table word is found in the paradigms |
| C80 reading rules for any vocabulary | `c80_reads`, `c80_none`, `c80_supported`, `c80_shipped`, `c80_polish`, `c80_portuguese` | `parseNumberWith` (Model/Pipeline) on an arbitrary `Info`; the refinement of the builder to word classes (Proofs/Kind) needs only that the classes are disjoint; a Boolean check of a module, sound for `Sensible`, run by the kernel on the shipped modules |
| C81 converting a text with any vocabulary | `c81_converts`, `c81_exact`, `c81_total`, `c81_repository`, `c81_supported`, `c81_shipped`, `c81_portuguese` | `parseWith` (Model/Pipeline) on an arbitrary `Info`; classes of tokens from `Tidy` alone (no facts about the five languages), runs, cuts and the refinement of `parse` to the pure machine as in C55; the bound of Proofs/Bound for moderate values; Boolean checks of a module run by the kernel on the shipped modules |
| C82 adding and removing languages | `c82_repository`, `c82_named`, `c82_five`, `c82_unsupported`, `c82_converts`, `c82_reads`, `c82_one`, `c82_detected`, `c82_removed`, `c82_added`, `c82_last_unchanged`, `c82_last_taken`, `c82_portuguese` | the four functions with the list of languages and their modules as a parameter (`Model/Package`), proved equal to `Model/Parser` for the five; detection as the first maximum of the scores over any list, sublists of it |
| C83 ordinals with any vocabulary | `c83_reads`, `c83_none`, `c83_white_space`, `c83_white_space_none`, `c83_blank`, `c83_numeral`, `c83_package`, `c83_supported`, `c83_shipped`, `c83_example`, `c83_example_white_space` | `parse_ordinal` with the tables as a parameter; what each token becomes, and that the joined text is split into the same words again, from conditions on the characters of the vocabulary; for the Hindi way of splitting, texts with apostrophes are read by rules of their own (`ReplacedOf`) |
| C84 fractions with any list of languages | `c84_fraction`, `c84_no_separator`, `c84_outcome`, `c84_words`, `c84_example` | the proof of C20 for any package |
| C85 the rest of a text, with any vocabulary | `c85_no_number_word_left`, `c85_plain_text_unchanged`, `c85_idempotent`, `c85_output_stripped`, `c85_ordinary_words_kept`, `c85_conjunctions_kept`, `c85_supported`, `c85_shipped`, `c85_example` | the proofs of C12-C16 and C39, from eleven facts about the data of a language that hold for every neat and moderate module |
| C86 what does not matter, with any list of languages | `c86_case`, `c86_accents`, `c86_soft_hyphens`, `c86_apostrophes`, `c86_spacing`, `c86_leading_space`, `c86_example` | tokens of both texts agree after normalisation, as in C28-C34; white space by the solid tokens of C32, for any tidy module; the detected language counts the same tokens |
| C87 the limit of digits | `c87_python311`, `c87_larger`, `c87_parse`, `c87_number`, `c87_digits`, `c87_ordinal`, `c87_fraction`, `c87_refuted` | each step of the two runs gives the same or the one with the smaller limit is refused; no sequence of words makes a number of more than 1300 digits (C73, C31) |
| C88 other versions of Unicode | `c88_same`, `c88_everyday`, `c88_any_limit`, `c88_refuted` | simulation of the two runs, whose tokens stay within the characters both tables know; everyday characters are closed under lower case and decomposition (checked on all of them) |
| C89 the generator with other encodings and line ends | `c89_posix`, `c89_converted`, `c89_undecodable`, `c89_ascii_files`, `c89_compatible`, `c89_ascii_run`, `c89_ascii_error`, `c89_line_ends`, `c89_shipped`, `c89_wrong_words`, `c89_example` | only reading and writing depend on the platform, so the run is that of C66 on converted files; the module text has no carriage return |
| C90 arguments of other types | `c90_strings`, `c90_language`, `c90_parse`, `c90_number`, `c90_fraction`, `c90_no_value`, `c90_example` | the functions on objects (`Model/Arguments`) are those of `Model/Parser` on strings; case distinction at the first operation on the object |
| C91 what the generator says | `c91_same`, `c91_utf8`, `c91_messages`, `c91_meaning`, `c91_exception`, `c91_refused`, `c91_example` | the loop once more with messages (`Model/Messages`); erasing them gives the run of C67; induction on rules, sets and files |
| C92 composed and similar texts, with any vocabulary | `c92_pieces`, `c92_number`, `c92_concat`, `c92_whole`, `c92_inside`, `c92_case`, `c92_accents`, `c92_spacing`, `c92_leading`, `c92_supported`, `c92_shipped`, `c92_example` | induction on the rules of conversion (`ConvertedOf`), which by C82 is what `parse` does: conversions compose at closing words, and similar tokens are converted alike |
| C93 names of numbers, with any vocabulary | `c93_number`, `c93_text`, `c93_named`, `c93_written`, `c93_converted`, `c93_round_trip`, `c93_indian`, `c93_indian_round_trip`, `c93_spanish`, `c93_norwegian` | Spec/VocabularyNumeral defines names by classes and values (`CardinalName`), and systems of names (`Names`); induction over the name gives a reading by the rules of Spec/Reading, induction over the powers gives every number below the bound its name; then C82 and C92 |
| C94 numbers one after another, with any vocabulary | `c94_linked`, `c94_apart`, `c94_number`, `c94_exact`, `c94_closed`, `c94_conjunctions`, `c94_example` | Spec/VocabularyApart states the condition with `parse_number` alone; it is shown equivalent to "the next word cannot be read on", then the cuts of the run are the borders of the numbers (Proofs/VocabularyApart, as for C75); necessity: joining makes the first number greater |
| C95 punctuation, with any vocabulary | `c95_after_number`, `c95_mark`, `c95_after_word`, `c95_in_front`, `c95_enclosed`, `c95_punctuation`, `c95_supported`, `c95_shipped`, `c95_example` | Spec/VocabularyPunctuation; the tokens of the composed text, then composition of conversions as for C92 (Proofs/VocabularyPunctuation, as for C77) |
| C96 detection of composed texts, with any list of languages | `c96_score`, `c96_neutral`, `c96_join`, `c96_swap`, `c96_single`, `c96_covers`, `c96_unknown`, `c96_pieces`, `c96_supported`, `c96_example` | Spec/Package (`ScoreIn`, `DetectedIn`); the tokens that are not blank decide, and those of a composed text are those of its parts (Proofs/PackageDetect, as for C71) |
| C97 growth of numbers and results, with any vocabulary | `c97_words`, `c97_prefix`, `c97_digits`, `c97_multiplies`, `c97_adds`, `c97_parse`, `c97_moderate`, `c97_example` | Spec/VocabularyGrowth (`DigitsWithin`, `ContinuedBy`, `LastClass`); induction on readings (Proofs/Growth, Size) and on conversions (Proofs/VocabularyGrowth); that lower-casing, decomposing and dropping accents makes no character more than three is checked over the Unicode tables in the kernel |
| C98 the generator when the operating system fails | `c98_no_faults`, `c98_success`, `c98_same`, `c98_exception`, `c98_reason`, `c98_targets`, `c98_untouched`, `c98_recovers`, `c98_as_if`, `c98_full`, `c98_example` | Model/System has which operations fail as a parameter; Spec/System (`Undisturbed`, `CanOpen`, `LeftBehind`, `History`); induction on the files and on histories (Proofs/System); what is visible after a failure is also visible for a killed run (C67) |
| C99 several runs at the same time | `c99_moment`, `c99_quiet`, `c99_finished`, `c99_other`, `c99_completes`, `c99_alone`, `c99_runs`, `c99_hole`, `c99_example`, `c99_mixture`, `c99_small` | Model/Concurrent: small steps of processes, any interleaving; Spec/Concurrent (`Finished`, `Quiet`, `NotBegun`, `Agreed`, `WrittenWithin`); an invariant of the reachable states (Proofs/Concurrent): a begun target is within its module, and complete or some process that has it open will overwrite everything from its position on, everything before it being in place |
| C100 agreement of the functions, with any vocabulary | `c100_number`, `c100_several`, `c100_ordinal`, `c100_cardinal`, `c100_normal`, `c100_supported`, `c100_shipped`, `c100_example`, `c100_refuted` | Spec/VocabularyAgreement (`NumberWordsOnly`, `Faithful`); a text of number words is one run, its cut is one number exactly if the run is read as it; from C82, C83, C92 |
| C101 the work is linear in the length of the text | `c101_result`, `c101_parse`, `c101_number`, `c101_ordinal`, `c101_fraction`, `c101_repository`, `c101_example` | Model/Steps: a result with a counter; Spec/Steps (`packageSize`, `detectionWork`); a character has at most four in its lowercase decomposition (checked over the tables), a token takes a constant number and its characters; the tokens taken by `parse` pay in advance for the building of their number (potential 4 per token), conjunctions within `_build_number` for the inner loop |
| C102 changing single words of a language | `c102_parse`, `c102_number`, `c102_ordinal`, `c102_fraction`, `c102_named`, `c102_none`, `c102_added`, `c102_added_number`, `c102_order`, `c102_order_none`, `c102_reversed`, `c102_ordinal_word` | Spec/VocabularyWords (`SameWord`, `Variant`, `CardinalIn`, `Rewritten`, `SameAsRead`); congruence of every function for two `LanguageData` that agree at the words looked up, the previous token and the tokens taken so far being among them; no condition on the modules |
| C103 the switch for the long scale | `c103_parse`, `c103_number`, `c103_ordinal`, `c103_fraction`, `c103_no_word`, `c103_none`, `c103_example`, `c103_supported` | Spec/VocabularyScale (`Between`, `switched`); the proof of C102, the comparison with the largest group value being the same for all words looked up |
| C104 names of ordinals, with any vocabulary | `c104_ordinal`, `c104_written`, `c104_converted`, `c104_round_trip`, `c104_indian`, `c104_example` | Spec/VocabularyOrdinalNames (`OrdinallyWritten`, `OrdinalWordOf`, `enOrdinalOf`); the names of C93 (`Names`), the rules of C83, and C100 for `parse`; instance: the Indian English module |
| C105 named numbers in fractions and sentences, with any vocabulary | `c105_fraction`, `c105_fraction_text`, `c105_number`, `c105_ordinal`, `c105_indian`, `c105_indian_sentences`, `c105_example` | Spec/VocabularyNamesInText (`FractionWord`); C84 with C93 on both sides (a separator inside single-spaced names would be inside a word), C92 with C93 and C104 for sentences; instance: the Indian English module |
| C106 names without a language argument, with any list of languages | `c106_number`, `c106_ordinal`, `c106_fraction`, `c106_indian`, `c106_indian_fraction`, `c106_example` | Spec/VocabularyDetectNames (`SameWords`); a language that lists the name scores all its words, so by C82 the detected one recognises all of them too; then C93, C104 and C105 in that language; instance: Indian English beside any of the five languages |

Status of each property: `MANIFEST.json`.  For C16, C22, C30, C34, C40, C43, C50 and C68 the natural expectation is false of the
code; the property is stated as what is exactly true, and a theorem `..._refuted` (or an explicit difference) records the
expectation that fails.

## 5. Findings

Established by theorems or checked examples in `Props/`:

* Without a language, `parse` is not idempotent: "one two dos" → "1 2 dos" → "1 2 2".
* `parse_ordinal("'")` is 0 and `parse_ordinal("twenty'first")` is 21; `parse_ordinal("½")` raises `ValueError`.
* `parse_number("½")`, `("²")`, `("一")`, `("\x1c3")` raise `ValueError`, as do digit strings of more than 4300 digits (C24).
* `parse_fraction("one two", "xx")` is `None`: an unsupported language goes unnoticed without a separator (C25).
* `parse_number("-")` is 0, `"and two"` is `None` but `" and two"` is 2 (C22, C30).
* `parse("one and", ...)`: conjunctions after a number are dropped or re-spaced (C16).
* Hindi is split at white space only: "दो, तीन" gives "दो, 3" (`c10_hindi_refuted`); punctuation has to stand apart.
* Decomposed accents split words: "veintitrés" in NFD is not recognised (C34).
* `parse_fraction("one over zero")` is `"1/0"` (C40); `parse_fraction("one OVER two")` is `None`: separators count in small letters only (C69).
* `parse_number("-two")` is 2, but `parse("-two")` is "-2", and `parse_number("-2")` is `None`; `parse_number` drops apostrophes, `parse` does not: `parse_number("п'ять")` is 5, `parse` leaves "п'ять" as it is (C70).
* `parse("2 million")` is "2 1000000" (C60); `parse("(two)!")` is "(2 )!" and `parse("twenty%")` is "20 %" (C77).
* Spanish data: decillón 10^60, decillones 10^66 (C43).
* Russian data: some forms of ноль and of нуль are missing ("ноля" is 0, "нуля" is not recognised), "двасти" is not a word; most Ukrainian cases are missing (C79).
* Ukrainian data: the shipped module has five hand-made words which the generator would drop (C50); the plurals of трильйон are missing.
* Data of the languages that are not enabled: twelve data modules have no `USE_LONG_SCALE`, so that `LanguageData` would raise a `KeyError` for them (`c50_without_scale`); words listed with capitals (German `Millionen`, also de-CH, lb) can never be recognised (`c78_capitals`); `number_parser/data/root.py` is not made by the generator, which skips `root.json`.
* Data of the languages that are not enabled: on the long scale with "hundred" as a scale word, "tusen to hundre" (Norwegian, 1200) becomes "1002 100" and "to millioner to tusen to hundre" becomes "2002002 100" (`c93_norwegian`); most of these languages have no conjunctions or hyphens, so that "twenty-one" is not read in Indian English.
* Polish data (not enabled): "dziesięć", ten, is listed as 1 and as 10 (`c80_polish`).
* Interpreter settings: with `sys.set_int_max_str_digits(640)`, the smallest limit, parse raises ValueError for the Spanish "un nonillón centillón"; "twoꟀ" is one word for Python 3.11 and two for one whose Unicode tables do not know U+A7C0 (C87, C88).
* `parse_number(b"")` and `parse_fraction(b" ")` are `None`, other bytes raise; `parse_number("12", 5)` is 12 (C90).
* Generator: `open` without `encoding`: on Windows (cp1252) the Russian, Ukrainian and Hindi rule files raise UnicodeDecodeError; in a Latin-1 locale a word with "í" makes a module that cannot be imported, because its second byte is taken for a soft hyphen (C89).
* Generator: a key with a lone surrogate, or outside ASCII with an ASCII standard output, ends the run with `UnicodeEncodeError` in `print` (`c91_example`).
* Generator: float arithmetic loses 10^24 and turns 10^35 into 100 (C46); a rule ending in `<` raises `IndexError` (C53); words true/false are capitalised in the module (C51); a killed run leaves a truncated module (C52); a lone surrogate in a JSON escape (`"\ud800"`) makes the run end with `UnicodeEncodeError` after the old module was emptied (`c66_lost`); numbers are floats if written with an exponent, so that `1e23` becomes 99999999999999991611392 (`c65_inexact`); `open` without `encoding` depends on the locale.
* Generator: a full disk leaves a broken module behind until the next successful run (`c98_full`); two runs at once over different sources can leave a module that is a mixture of both (`c99_mixture`).

## 6. Testing the theorems

`seeded/LOG.jsonl` lists the edits of the model (realistic bugs) that were tried in a scratch copy, with the theorems that
failed, i.e. that no longer prove, and which theorem statements were found false of the edited model on a concrete instance.
