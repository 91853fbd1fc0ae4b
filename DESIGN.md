# Formal model of scnlib: design

## Approach

The code in `/repo` (scnlib 4.0.1) is modelled function by function as total, computable
Lean 4 functions on lists of code units (`Nat`), with explicit `% 2^k` where machine words
wrap around. A position in a source or in a format string is the list of the units that are
left, so that "inside" is "a suffix". Every model definition cites the file and the lines it
was read from, and says where it simplifies.

- `lean/Verif/Model`: the model.
- `lean/Verif/Spec`: specifications, written without the helpers of the model.
- `lean/Verif/Lemmas`: helper lemmas.
- `lean/Verif/Props`: the property theorems `Cnn_…`, each beside an `example` in which a
  concrete, non-trivial case meets its hypotheses.

Outcomes are `ok`, `err code` and `ub`. Undefined behaviour (a violated `SCN_EXPECT`,
`SCN_ENSURE`, `SCN_UNREACHABLE` or `SCN_UNWRAP`-free access of a failed result, a read past
the end, signed overflow) is the outcome `ub`, or `none` in functions with no error codes.
Loops are bounded by fuel that is shown to suffice, or exhausted fuel is an outcome that
theorems exclude.

When the code violates a property, the negation is proved on concrete inputs, usually for
a whole family of them, and a theorem with the suffix `_partial` states what does hold.

## What is modelled

| module | code | simplified or left to a parameter |
|---|---|---|
| `Basic` | `scan.h` result and error types | errors are their codes; messages are left out |
| `Bits` | `impl.h` 490-590 bit tricks | words are `Nat` modulo 2^64 |
| `Unicode` | `scan.h` 4024-4316, `impl.h` 1239-1566: lengths, decoders, encoders, validation, transcoding | |
| `Space` | `impl.cpp` 108-224, `impl.h` 428-488: whitespace finders; `impl.h` 1935-2240 reading algorithms | |
| `IntParse` | `impl.cpp` 935-1240: digit loops, tables, overflow check, store | |
| `IntReader` | `impl.h` 2242-2395, 3256-3475, 3527-3658: sign, prefix, digits, separators | locale: separator is a parameter |
| `Strings` | `impl.h` 4789-5366: word, character-set and character-count readers | |
| `Readers` | `impl.h` 5382-5980: booleans, characters, pointers, strings and string views, regex strings (`impl.h` 4371-4480), default argument reader | the regex engine is a parameter (`LocaleData.regex`) |
| `ArgReader` | `impl.h` 2401-2950, 5980-6266: text width, `take_width`, fill, alignment, width, precision | |
| `Format` | `scan.h` 6822-7799: format string and specification parser | parametrised by a handler, as the templates are |
| `Checks` | `scan.h` 7897-8020, 6741-6819, 8519-8675, 9035-9134: specification checks, compile-time checker | |
| `VScan` | `impl.cpp` 1313-1797: driver, argument bookkeeping | readers of fields are a parameter (`Env`); `Readers` gives the built-in one |
| `Args` | `scan.h` 5749-5776, 6028-6236, 3762-3784: argument store, `to_errc` | |
| `Buffer` | `scan.h` 4323-4790, 4854-5165, `impl.h` 1134-1229: scan buffers, files | a file is a list, a position and an `ungetc` capacity |
| `Regex` | `impl.h` 4679-4697: unescaping of patterns | |
| `RegexMatch` | `impl.h` 4300-4783: flags, strings and captures for the three regex engines | the engines are parameters (`Engine`), assumed to find groups inside the text (`Spec.EngineOk`) |
| `ScanInt` | `scan.h` 9888-9914, `impl.cpp` 1799-1808, `impl.h` 3539-3573: `scan_int` | |
| `FileScan` | `impl.cpp` 1821-1879, `impl.h` 1134-1148: scan calls on files, `input` | the positions the readers look at are a parameter |
| `WidthIter` | `impl.h` 2457-2815: `counted_width_iterator`, forwards, backwards, comparisons | |
| `Ranges` | `ranges.h` 149-499: ranges, tuples, maps | element scanners are a parameter |
| `Istream` | `istream.h` 57-209: stream buffer and scanner | `operator>>` is the list of what it does with the buffer |
| `Chrono` | `chrono.h` 266-1535, `impl.cpp` 2040-3600: chrono formats, checker, setters, reader | `std::time_get` facets, the scan of character sets and subsecond digits are parameters (`ChronoCfg`); `scanSetStd` instantiates the second |
| `Calendar` | `chrono.h` 32-369, 1539-1726: calendar types, `to_tm`, time points | `std::mktime` is a parameter |
| `Float` | `impl.cpp` 340-913, `impl.h` 3664-4285: float reader, localized reader, choice of the conversion | the conversions `fast_float` and `strtod` are parameters; theorems assume they read the longest number (`Spec.ConvOk`) |
| `BufScan` | `impl.cpp` 1748-1788, `impl.h` 5891-5932, 6158-6234, 979-1010: scan calls on sources that are not contiguous | where the segments end is a parameter |
| `Sources` | `scan.h` 5243-5365, 6698-6726: what a source contributes, the range left over | |
| `Api` | `scan.h` 6378-6484, 9417-9429, 9655-9742, 9810-9840: what `scan` and `scan_value` return | |
| `Matches` | `impl.h` 4699-4783, 5840-5888: `regex_matches` among the destinations | the engines are parameters |
| `Iterators` | `scan.h` 4442-4707, `impl.h` 68-419: `forward_iterator`, `advance`, `next`, `distance` | |
| `CustomScan` | `scan.h` 4442-4630, 8919-8991, `impl.h` 2968-3041, 5934-5980, 6268-6292, `impl.cpp` 1513-1568: scanners of custom types and their contexts | a scanner is what it does with its context (`ScanProg`); `position()` is left out |
| `DateArgs` | `impl.cpp` 3557-3592, `chrono.h` 1477-1551: dates and times as arguments of a call | as `Chrono` |
| `Discard` | `scan.h` 9008-9174, `impl.cpp` 230-243: scanners of built-in types, `discard<T>` | sources that are contiguous |
| `RangeArgs` | `ranges.h` 305-518, `impl.cpp` 230-252: ranges and tuples as arguments of a call | sources that are contiguous; the member scanners that a user sets up |
| `CLocale` | `impl.h` 1823-1862, `impl.cpp` 495-543: the guard for the C locale | one category; `setlocale` is a parameter |
| `Expected` | `scan.h` 325-2067: `expected<T, E>`: storage, lifetimes, assignments, operations, exceptions | objects are values; what is left after a move, and layout, are left out |
| `ExpectedVoid` | `scan.h` 518-599, 750-840, 1051-1165: `expected<void, E>` | as `Expected` |
| `Scannable` | `scan.h` 5228-5861, 9013-9031, 9150-9168, 9330-9351, `ranges.h` 110-317, 482-491, `fwd.h` 1062-1100, `impl.cpp` 254-283: which sources and destinations compile | types are what the templates ask about them |

## Properties

Status, what is proved, and what is missing. The statements are in `properties.jsonl`, the theorem names also in `MANIFEST.json`.

- **C01 Integer scanning of types up to 32 bits returns the mathematical value or an overflow error** (proved): Value parser and whole reader equal the specification scanDigits/scanInt for 8/16/32-bit types in all bases. Reader version excludes byte 0x10 right after the sign on narrow contiguous sources (defect recorded under C07). `C01_upto32`, `C01_reader_upto32`.
- **C02 64-bit integer scanning never silently wraps** (partial): Violated by the code: numerals of full length whose wrapped value is large are accepted. Exact behaviour characterised; exact set of correct bases proved for each signedness and sign. `C02_counterexample`, `C02_exact_partial`, `C02_reader_exact_partial`, `C02_uint64_bases_partial`, `C02_int64_plus_bases_partial`, `C02_int64_minus_bases_partial`, `C02_int64_decimal`.
- **C03 Every integer value round-trips through its textual form in every base** (proved): All values, all types, all bases, all following text. `C03_roundtrip`.
- **C04 The 8-bytes-at-a-time decimal test and conversion equal digit-by-digit processing** (proved): `C04_swar`, `C04_all_words`.
- **C05 The fast decimal path and the general path agree** (proved): `C05_fast_eq_regular`.
- **C06 scan_int_exhaustive_valid agrees with the numeral's value on its documented domain** (partial): Zero padding to 20 or more digits violates an internal SCN_EXPECT (undefined behaviour) although the documented preconditions hold. `C06_counterexample`, `C06_partial`.
- **C07 Base prefixes are recognised exactly as documented** (partial): Byte 0x10 is accepted for '0' in a prefix on contiguous narrow sources. `C07_prefix_partial`, `C07_prefix_other_sources`, `C07_lone_prefix`, `C07_counterexample`.
- **C08 A minus sign is rejected for unsigned decimal, accepted signs do not change the digits** (proved): `C08_minus_unsigned`, `C08_plus_transparent`, `C08_two_signs`, `C08_minus_negates`.
- **C09 A failed integer scan consumes nothing that changes the target** (proved): `C09_no_digits`.
- **C10 Thousands separators are transparent to the value** (partial): False in octal after a leading zero. `C10_thsep_partial`, `C10_transparent_partial`, `C10_counterexample`.
- **C11 UTF-8 decoding inverts encoding** (proved): `C11_utf8_decode`, `C11_utf8_decode_valid`, `C11_utf8_decode_all`.
- **C12 UTF-16 decoding inverts encoding** (proved): `C12_utf16_decode`, `C12_utf16_decode_all`, `C12_lone_low`, `C12_lone_high`.
- **C13 Decoding arbitrary bytes always makes progress and stays within the input** (proved): All three encodings, arbitrary units. Also: validated text meets the preconditions of the unchecked decoders. `C13_progress`, `C13_partition`, `C13_replacement`, `C13_validate_total`, `C13_validated_safe`, `C13_unvalidated_unsafe`.
- **C14 Validated narrow strings are well-formed UTF-8** (partial): Violated: overlong forms and surrogates are accepted. The accepted set is characterised exactly and these are shown to be the only gap. `C14_violated`, `C14_wellformed_accepted_partial`, `C14_accepted_iff_partial`, `C14_gap_partial`.
- **C15 Transcoding between narrow and wide strings preserves the code points** (partial): Full for 4-byte wchar_t and for UTF-16 to UTF-8; UTF-8 to UTF-16 holds on the BMP and is violated for every supplementary code point. `C15_narrow_to_wide32_partial`, `C15_wide32_to_narrow_partial`, `C15_round_trip_partial`, `C15_wide16_to_narrow_partial`, `C15_narrow_to_wide16_partial`, `C15_wide16_violated`.
- **C16 The whitespace set is the documented one and is independent of the search path** (proved): Well-formed sources of any encoding, plus arbitrary bytes on the block-wise path. `C16_whitespace_set`, `C16_find_space`, `C16_find_nonspace`, `C16_any_bytes`, `C16_until_all_layouts`, `C16_while_all_layouts`.
- **C17 Byte-lane bit tricks are exact** (proved): `C17_has_zero_byte`, `C17_has_zero_byte_first`, `C17_has_byte_between_marks`, `C17_has_byte_between`, `C17_has_byte_greater`, `C17_has_byte_greater_range`, `C17_first_nonmatching`, `C17_first_nonmatching_none`, `C17_first_matching`, `C17_first_matching_none`, `C17_log2_fast`, `C17_log2_pow2_fast`, `C17_byteswap`.
- **C18 Scanning words with {} splits the source on whitespace** (partial): Proved for fewer than 64 words, all encodings, any whitespace; from 64 fields on no call succeeds. `C18_words_partial`, `C18_violated_many`.
- **C19 Every argument is assigned at most once, and all of them on success** (partial): At most once: every format string, any number of arguments. All on success: proved for format strings accepted by the compile-time check; violated for run-time format strings (a specification error can be dropped and the field silently skipped). `C19_at_most_once`, `C19_success_writes_all_partial`, `C19_argument_skipped`.
- **C20 No argument is written after the first failure** (proved): Any number of arguments, any format string, arbitrary readers. `C20_no_write_after_failure`.
- **C21 The reported error is the cause of the failure** (partial): Violated: a failure before the last argument is reported as invalid_format_string. The set of possible codes, and the cases where the code is right, are proved. `C21_error_masked`, `C21_error_cause_partial`, `C21_last_field_error_partial`, `C21_accepted_failure_has_cause_partial`.
- **C22 Mixing automatic and manual argument indexing is rejected** (partial): Compile-time half proved; run-time half violated: only fields with a specification for custom types look at the error that the parse context records (proved). `C22_compile_time_ids`, `C22_mixed_rejected_at_compile_time`, `C22_mixed_accepted_at_run_time`, `C22_custom_run_time_partial`.
- **C23 Scanning more than 64 arguments is well-defined** (partial): Violated for 64 or more arguments: undefined for 64 and for numbers that are not multiples of 8, an error after reading everything for the others; proved below 64. `C23_many_never_succeed`, `C23_many_undefined`, `C23_many_all_read_error`, `C23_few_well_defined_partial`, `C23_few_success_iff_partial`.
- **C24 Literal text in the format string matches itself** (partial): Proved for characters of one code unit; violated for every character of several code units (never matches). `C24_literal_partial`, `C24_literal_between_fields_partial`, `C24_multi_unit_never_matches`, `C24_violated`.
- **C25 Whitespace in the format string matches any amount of whitespace** (partial): Violated only when whitespace in the format meets the end of the source. `C25_whitespace_partial`, `C25_between_fields_partial`, `C25_violated`.
- **C26 Parsing a format string terminates without reading outside it** (partial): All strings; with regex match arguments those without L, because L in their specification reaches SCN_ENSURE(false). Run time: fewer than 64 arguments (C23). `C26_run_time_partial`, `C26_compile_time_partial`, `C26_specs_partial`, `C26_regex_localized_violated`.
- **C27 Numbers inside format specifications are read exactly or rejected** (proved): All digit strings for width and precision; all numbers for argument ids (leading zeros are rejected). `C27_width`, `C27_precision`, `C27_arg_id`, `C27_arg_id_leading_zero`.
- **C28 Format specifications round-trip** (partial): Round trip for all documented combinations except the four violated ones; character sets and regexes are C30 and C58. `C28_roundtrip_partial`, `C28_width_above_precision_rejected`, `C28_violated_bracket_fill`, `C28_violated_wide_fill`, `C28_wide_fill_truncated`, `C28_pair_fill_rejected`, `C28_violated_localized_string`, `C28_violated_empty_before_align`.
- **C29 Each argument type accepts exactly the documented presentation types** (partial): All built-in types and all specifications; the documented but rejected combinations are listed in C29_violated. `C29_run_time_partial`, `C29_compile_agrees_partial`, `C29_localized`, `C29_violated`.
- **C30 Character-set fields match exactly the described set** (partial): Proved for all unambiguously written sets in which no range starts at or below U+007F and ends at or above it, all three encodings and all well-formed sources. Violated otherwise: for every range crossing the end of ASCII the ASCII characters of the range are rejected (proved for all such ranges), and on malformed sources a non-ASCII set swallows undecodable units. `C30_charset_partial`, `C30_crossing_range_violated`, `C30_malformed_violated`.
- **C31 A scan buffer presents exactly the underlying source** (proved): All three buffer kinds, all chunkings, all access sequences. `C31_presents_source`, `C31_segments`.
- **C32 Nested scanning sees the remaining source unchanged** (partial): Violated: nested scans over a refilled buffer duplicate or lose the current view, or throw; proved in the remaining states. `C32_violated`, `C32_view_duplicated`, `C32_view_lost`, `C32_throws`, `C32_nested_partial`.
- **C33 After scanning from a file or stream, the next unread character is the first unconsumed one** (partial): Proved given enough ungetc capacity (otherwise reported as invalid_source_state). Violated for unbuffered files once the end has been met: giving anything back is undefined behaviour. `C33_buffered_partial`, `C33_unbuffered_partial`, `C33_unbuffered_end_undefined`, `C33_failure_reported`.
- **C34 The returned unused range is a suffix of the source** (proved): For arbitrary readers that move forward; those of the built-in types are shown to (not of char32_t, characters of the other width and regex_matches). `C34_unused_range`, `C34_suffix`, `C34_builtin_partial`.
- **C35 Precision limits the consumed text width** (proved): Well-formed sources; on malformed text the limit is lost (C35_malformed_unlimited). A precision of 0 is no limit (C35_zero_no_limit). `C35_view`, `C35_consumed`, `C35_malformed_unlimited`, `C35_zero_no_limit`.
- **C36 Minimum width and fill are enforced** (partial): Every well-formed source, every specification and every reader that reads whole characters; integers, strings, booleans (also with the names of the locale), code points, wide characters (in UTF-16 within the basic plane), `char` on ASCII text, addresses, floats and integers, also with the separators (and the decimal point) of a locale, and regular expressions (of an engine that matches whole characters) are shown to be such readers. Not shown for: localized octal integers (C10). The fill is the effective one: a wide fill above U+00FF is truncated (C28_violated_wide_fill). `C36_field_partial`, `C36_success_partial`, `C36_int_partial`, `C36_string_partial`, `C36_bool_partial`, `C36_char_partial`, `C36_pointer_partial`, `C36_float_partial`, `C36_localized_int_partial`, `C36_localized_float_partial`, `C36_regex_partial`.
- **C37 Boolean scanning accepts exactly the documented spellings** (proved): All presentations, all sources. With L the locale's names are used; if one name begins with the other the longer is never read. `C37_spellings`, `C37_unambiguous`, `C37_default_field`, `C37_localized_partial`, `C37_violated_localized`.
- **C38 Character fields read exactly one character** (partial): char: all sources. char32_t and wide wchar_t: well-formed text. Violated: undefined behaviour at the end of the source with a specification, and on malformed text. `C38_char`, `C38_code_point_partial`, `C38_invalid_partial`, `C38_violated_at_end`, `C38_violated_truncated`, `C38_violated_malformed`.
- **C39 The float reader consumes exactly a floating-point numeral** (partial): Whatever is read is the longest number; what is no number is rejected. The conversions fast_float and strtod are parameters that read the longest number of a text that begins with a digit. Violated: .5 is never read, nor a..f first in the hexadecimal presentation, nor nan before an unclosed parenthesis; and 0x before a non-digit depends on the source. `C39_reads_longest_number`, `C39_roundtrip_partial`, `C39_rejects_other_text`, `C39_same_on_all_sources_partial`, `C39_violated`.
- **C40 Case-insensitive matching only equates letters of different case** (partial): Violated for non-letters on the contiguous narrow path. `C40_counterexample`, `C40_letters_partial`, `C40_other_sources`.
- **C41 Contiguous and segmented sources give the same result** (partial): Whole calls agree for ASCII (and any wide) text, however it is cut, and for all well-formed text that is cut between characters, floating-point numbers without L included, unless a field without specifications is cut short (Model/BufScan.lean). Violated: default fields after the first read only the current segment of a buffer; also when a segment boundary cuts a multi-byte whitespace character, and on malformed text; whitespace search agrees otherwise. `C41_space_search_partial`, `C41_space_search_ascii`, `C41_violated_split_space`, `C41_violated_malformed`, `C41_violated_segment`, `C41_later_fields_truncated`, `C41_first_int_field_partial`, `C41_specs_field_partial`, `C41_default_field_partial`, `C41_call_partial`, `C41_specs_call_partial`, `C41_text_field_partial`, `C41_text_default_partial`, `C41_text_call_partial`, `C41_text_specs_call_partial`, `C41_violated_call`.
- **C42 scan_value and scan with {} agree** (proved): With the short cut and through the general path. `C42_value_agrees`.
- **C43 12-hour clock conversion is correct** (proved): All hours, all spellings of am/pm in any case, either order, for std::tm and datetime_components; for std::tm also inside any format. `C43_tm`, `C43_I_p`, `C43_p_I`, `C43_I_p_components`, `C43_p_I_components`.
- **C44 Two-digit years and centuries combine per POSIX** (partial): Proved for std::tm. Violated for datetime_components, whose year becomes 2000 (or 0 with a century) whatever the digits are. `C44_y`, `C44_Cy`, `C44_violated_components`.
- **C45 Day-of-year parsing accepts 1..366** (partial): Proved for std::tm. Violated for datetime_components, which accepts only 1 to 7. `C45_tm`, `C45_violated_components`.
- **C46 %T, %R, %F, %D fields round-trip** (partial): Proved for std::tm with any format of modelled conversions. For datetime_components without short years and late days of the year, for which it is violated (C44, C45). `C46_roundtrip_tm`, `C46_roundtrip_components_partial`, `C46_T`, `C46_R`, `C46_F`, `C46_D`, `C46_T_components`, `C46_R_components`, `C46_F_components`.
- **C47 Conflicting date specifications are detected** (partial): No text is accepted with a conflicting format, except formats with all three kinds of day, which are accepted (violation); %c is never accepted (violation). That compatible formats are accepted is C46. `C47_rejected_tm_partial`, `C47_rejected_components_partial`, `C47_violated_c`, `C47_violated_three_days`.
- **C48 UTC offset parsing is correct** (proved): All two-digit hours and minutes, both signs, any following text; datetime_components and tm_gmtoff. `C48_hhmm`, `C48_hh_colon_mm`, `C48_hh`, `C48_h_colon_mm`.
- **C49 Sequence scanning round-trips** (partial): Proved for all elements that are read as shown (integers, floating-point numbers, booleans, characters, pointers, nested ranges and tuples), any whitespace, any brackets. (Which element types are linked is C101.) Violated for strings, which swallow separators and the closing bracket. `C49_roundtrip_partial`, `C49_integers`, `C49_integer_sets`, `C49_nested`, `C49_unused`, `C49_violated_strings`.
- **C50 Range and tuple scanning never reads past the end** (partial): Proved for brackets and separators of at most one code unit (the defaults). Violated for longer ones: a source that ends within one is read past its end. `C50_ranges_partial`, `C50_tuples_partial`, `C50_integers`, `C50_violated_long_bracket`.
- **C51 An istream-based scanner leaves the position right after what was extracted** (partial): Proved for extractors that read, peek and stop. Violated for extractors that give characters back. `C51_position_partial`, `C51_violated_unget_after_peek`, `C51_violated_second_unget`, `C51_violated_putback`.
- **C52 Argument lookup returns the argument supplied at that index** (proved): Any number of arguments of any types, packed and unpacked. `C52_lookup`, `C52_type_codes`.
- **C53 Error codes map to the documented errno-style conditions** (proved): `C53_conditions`.
- **C54 Fill skipping and whitespace skipping never consume field text** (proved): `C54_whitespace`, `C54_fill`, `C54_fill_any_source`.
- **C55 Pointer fields read an optionally prefixed hexadecimal address** (proved): All digit strings, either case, with or without prefix; all 64-bit addresses. `C55_accepts`, `C55_roundtrip`.
- **C56 Chrono format parsing terminates inside the format string** (partial): Proved for any handler, for well-formed formats whose last character is one code unit, and for all formats without characters of several code units. Violated: a literal character of several code units swallows the unit behind it, beyond the end of the format or over the closing brace. `C56_inside_partial`, `C56_inside_single_partial`, `C56_check_partial`, `C56_empty`, `C56_violated_end`, `C56_violated_brace`.
- **C57 Regex pattern unescaping removes exactly the escaping backslashes** (proved): All patterns. `C57_unescape`, `C57_unescape_text`.
- **C58 A regex specification yields exactly the written pattern and flags** (partial): Proved for all patterns that do not start with an alignment character and in which no backslash precedes the closing slash; both exceptions are violations. `C58_regex_partial`, `C58_violated_anchor`, `C58_violated_backslash`.
- **C59 Leading whitespace is skipped and not counted in the field width** (partial): Violated: whitespace is counted in width and precision, and not skipped at all with an explicit alignment. Proved without width, precision and alignment. `C59_violated`, `C59_partial`.
- **C60 Text width of code points is the documented one** (partial): The ranges used are an approximation of the documented ones. `C60_blocks_partial`, `C60_violated`.
- **C61 Fields and literals are processed strictly left to right** (partial): Any readers; fewer than 64 fields (C23). `C61_left_to_right_partial`.
- **C62 A printed record is read back by the same format string** (partial): Fewer than 64 fields (C23), literal texts of one-unit characters and whitespace (C24). `C62_record_roundtrip_partial`.
- **C63 Integer presentations of characters yield the integer** (partial): Proved: what is consumed and which texts are rejected, by the size of the type. Violated: the destination keeps its previous value. `C63_extent_partial`, `C63_violated`.
- **C64 Tuples and maps round-trip** (proved): Members of any types that are read as shown (see C49). `C64_tuple_roundtrip`, `C64_map_entry`.
- **C65 Scanned date and time fields are in their ranges** (proved): Formats of modelled conversions: exactly the fields of the format. Any format whatever: each field is in range or unchanged. Nothing is claimed about tm_gmtoff and subseconds. `C65_tm`, `C65_components`, `C65_any_format_tm`, `C65_any_format_components`.
- **C66 A date or time scan leaves a tail of its source** (proved): The locale facet and the scan of character sets are assumed to stay inside their texts. `C66_unread`.
- **C67 Names of months and weekdays** (proved): %b %B %h %a %A into std::tm and datetime_components. `C67_month`, `C67_weekday`, `C67_month_rejected`, `C67_weekday_rejected`.
- **C68 ISO weekday numbers** (partial): Violated for every number: each of 1 to 7 is stored as the day before, and 0 is accepted. `C68_violated`, `C68_rejected_partial`.
- **C69 Date and time scans are well-defined** (partial): Proved for std::tm; for tm_with_tz without %Z, and datetime_components without %Z and %.S. Violated with %Z: if no name can be read, the failed result is accessed. The locale facet and the scan of character sets are assumed to be well-defined. `C69_tm`, `C69_text_tm`, `C69_tm_with_tz_partial`, `C69_components_partial`, `C69_violated`.
- **C70 Calendar types** (partial): Proved for formats that determine the type (short years, centuries and late days of the year as in C44, C45). Violated: a format that does not determine the type is accepted, and a component that is not there is accessed. `C70_roundtrip_partial`, `C70_in_range`, `C70_defined_partial`, `C70_violated`.
- **C71 Time points** (partial): Proved for formats with year, month and day, without short years, for counts that fit 64 bits. mktime is assumed to be that of UTC. Violated: without a day, a time in the month before is read; nanoseconds overflow from 2263 on. `C71_roundtrip_partial`, `C71_fraction_partial`, `C71_rejected`, `C71_violated_day`, `C71_violated_overflow`.
- **C72 A std::tm read directly, and one made of components** (partial): Proved for all formats without short years, centuries and days of the year, which are violated for datetime_components (C44, C45). `C72_tm_partial`, `C72_violated`.
- **C73 Localized floating-point numbers** (partial): Decimal numbers that begin with a digit. Violated in locales with . for the separator (German): the decimal point is dropped, so 0,5 is read as 5 and 1.234,5 as 12345. `C73_localized_partial`, `C73_violated`.
- **C74 No input is undefined behaviour** (partial): Proved for every format string, every source, every locale and fewer than 64 destinations of integers, floating-point numbers, booleans, characters of the source, pointers, strings, string views and discarded fields, with any widths, character sets and regular expressions. The regex engine, the conversion of digits and the locale are parameters that stay inside their texts. Also proved for char32_t and characters of the other width on well-formed text, if they are read without a specification. Violated for them else: with any specification at the end of the source, with precision 1 before a character of width 2, on truncated code points, and on code points above U+10FFFF. regex_matches destinations are covered, with std::regex and Boost, for format strings that were checked at compile time, and for others if they have no L and no specification without a regular expression or set; violated for them else. See C79 for RE2. `C74_field_partial`, `C74_scan_partial`, `C74_text_partial`, `C74_checked_partial`, `C74_captures_partial`, `C74_std_captures`, `C74_boost_captures`, `C74_violated`, `C74_violated_end`, `C74_violated_captures`, `C74_violated_chars`.
- **C75 What is read is not left dangling** (proved): Format strings that are checked at compile time. One made by runtime_format is not checked: nothing at run time keeps a view from pointing into a temporary buffer. `C75_checked`, `C75_run_time`.
- **C76 Strings read are parts of the source** (partial): Strings read from text in another encoding into 2-byte wide characters are excepted if there are characters above U+FFFF (violated, C15). The regex engine and the locale are parameters. `C76_string_partial`, `C76_string_default_partial`, `C76_view`, `C76_view_default`.
- **C77 Numbers out of range in dates and times** (proved): First conversion of a format, any rest; std::tm, tm_with_tz and datetime_components. %u is C68; days of the year in datetime_components are also rejected from 8 on (C45). `C77_out_of_range`, `C77_too_short`.
- **C78 Flags of regular expressions** (partial): Proved for std::regex. Violated for Boost: without /s, the dot matches a newline all the same (match_not_dot_newline is not given). Violated for RE2: ^ and $ match at lines exactly if /m is not given. The meaning of the options of the engines is taken from their documentation. `C78_std`, `C78_boost_partial`, `C78_violated_boost`, `C78_re2_partial`, `C78_violated_re2`.
- **C79 Captures of regular expressions** (partial): Proved for std::regex; engines are parameters. Proved for RE2 if all groups with names take part in the match; violated else, as a missing capture is accessed. Proved for Boost if the texts of groups with names differ from those of all other groups; violated else, and for names in quotation marks, as names are found by comparing texts. Patterns are those of C58. `C79_std`, `C79_re2_partial`, `C79_boost_partial`, `C79_unsupported`, `C79_violated_re2`, `C79_violated_boost`.
- **C80 Strings and captures agree** (partial): Proved for texts that do not begin with whitespace and matches that end between two characters, if the engine finds the same match with and without groups. Violated else: whitespace is skipped in front of regex_matches only, and only strings are checked for valid text. `C80_std_partial`, `C80_boost_partial`, `C80_re2_partial`, `C80_violated`.
- **C81 Scan calls are read field by field** (partial): Proved for any readers of the fields (also those of custom types) and fewer than 64 arguments (C23). Literal texts have no braces (C22). The error that is reported may be that of an invalid format string instead (C21). `C81_success_partial`, `C81_failure_partial`, `C81_undefined_partial`.
- **C82 Specifications select the documented reading** (partial): Integers, floating-point numbers, booleans and strings with a regular expression, in any call of C81. Numbers are those of C02, C39 and C73, with their exceptions. Characters and pointers are C38 and C36; string letters and character sets are C29 and C30. `C82_integer_letters_partial`, `C82_integer_localized_partial`, `C82_float_letters_partial`, `C82_float_localized_partial`, `C82_bool_letters`, `C82_regex_string_partial`.
- **C83 scan_int agrees with format strings** (partial): Proved but for a control character 0x10 in front of the digits (C07); 64-bit types as in C02. The agreement with format strings holds for all bytes. `C83_reads_partial`, `C83_reads_upto32_partial`, `C83_roundtrip`, `C83_agrees`.
- **C84 Scan calls on a file continue each other** (partial): Proved for files with an accessible buffer that take back what was read ahead; else see C33. The readers are parameters that leave a tail of what they are given. `C84_one_call_partial`, `C84_many_calls_partial`, `C84_input`.
- **C85 The iterator that counts columns is an iterator** (partial): Proved for counting and for <, <= and >=. Violated: > is the negation of what it should be; -- does not undo ++ at the beginning of a character of several units. `C85_columns`, `C85_order_partial`, `C85_back_partial`, `C85_violated_greater`, `C85_violated_back`.
- **C86 Names of time zones and fractions of seconds** (partial): Proved with the scan of a set that the code uses, for the conversions alone. Of the conversion of the digits to a double, only whether it gives 1 is modelled. Violated: a text without a name is undefined behaviour, not an error; a fraction of 17 nines or more is rounded to 1, against an assertion; in wide text the decimal point of a locale is cut to a char. `C86_zone`, `C86_fraction_partial`, `C86_fraction_exact_partial`, `C86_fraction_double_partial`, `C86_fraction_locale_partial`, `C86_violated_zone`, `C86_violated_rounding`, `C86_violated_decimal_point`.
- **C87 An accepted date and time format is not called invalid later** (partial): Proved for formats without %c, %Z and two conversions for the month, unless literal text is not what stands in the source. Violated: literal text that does not match is reported as an invalid format string; formats with the name and the number of a month are accepted and fail on every source that fits them, and so do formats with %S and %.S. `C87_accepted_tm_partial`, `C87_accepted_tm_with_tz_partial`, `C87_accepted_components_partial`, `C87_violated_literal`, `C87_violated_months`, `C87_violated_fraction`.
- **C88 Localized conversions of dates and times are read by the locale, in place** (partial): Proved for one conversion, all of them but %EC and %Oy. Violated: every localized conversion is read from the begin of the source, not from where the one before it has ended; and for %Oy the facet is asked for %Ey. `C88_localized_tm_partial`, `C88_localized_tm_with_tz_partial`, `C88_localized_components_partial`, `C88_localized_invalid`, `C88_violated_position`, `C88_violated_short_year`.
- **C89 Without L, the modifiers E and O make no difference** (partial): Proved for all formats of the conversions of the table in Spec/Chrono.lean. Violated: %OW is accepted as a day of the week while %W is rejected, and %Ou is rejected. `C89_modifiers_partial`, `C89_violated_week`.
- **C90 A tm_with_tz holds what a std::tm would hold, and the time zone** (proved): For all formats and sources; the last for the formats of the conversions of Spec/Chrono.lean (%Z and %.S are in C86). `C90_accepted`, `C90_same`, `C90_zone_kept`, `C90_offsets_agree`, `C90_roundtrip`.
- **C91 Padded values are read back by the same specification** (partial): Proved unless the value or what follows can be confused with its padding; records below 64 fields, with any braces in the literal texts and any numbering of the arguments. Localized fields are not covered. Violated: words and booleans without an alignment are printed at the left but only read at the right of their field; a word in a left-aligned field without the type s takes the fill with it; fill is skipped beyond the width; whitespace in the format string takes the padding of the field after it. `C91_field_partial`, `C91_columns_partial`, `C91_record_partial`, `C91_numbered_partial`, `C91_violated_left`, `C91_violated_confused`, `C91_violated_record`.
- **C92 Scanning can go on in the unused range** (partial): Proved for automatic and explicit numbering and any literal texts of one-unit characters and whitespace, fewer than 64 arguments. Violated where the first format string ends in whitespace and the second begins with it; the last element of a character array is never scanned. `C92_general_success_partial`, `C92_general_undefined_partial`, `C92_general_failure_partial`, `C92_success_partial`, `C92_undefined_partial`, `C92_failure_partial`, `C92_unused`, `C92_violated_whitespace`, `C92_violated_array`.
- **C93 The result of a scan call** (partial): Proved for fewer than 64 arguments. Violated by format strings that are only checked at run time: an argument can be passed over and keeps its initial value. `C93_fields_partial`, `C93_failure_partial`, `C93_checked_partial`, `C93_value`, `C93_violated_skipped`.
- **C94 A date and time is read exactly if it is written** (partial): Formats without %u and %Z, whose fields are different and compatible. Violated: the character 14 counts as a period in a.m. and p.m.; the hours and minutes of an offset are not checked. For datetime_components also without %y and %C, and the day of the year goes up to 7 only (C44, C45). `C94_tm_partial`, `C94_tm_with_tz_partial`, `C94_components_partial`, `C94_violated_am`, `C94_violated_offset`.
- **C95 An expected holds one object, which is destroyed once** (partial): Proved for errors that are copied and moved without exceptions (as scan_error) and operations that do not throw where the code relies on it. Violated: conversions lose a default value; emplace has its nothrow condition inverted; an error whose construction throws makes the value before it be destroyed twice; a copy that throws destroys an error that was never made. For expected<void, E> the assignments need no conditions at all, but the copies that throw have the same defect. Objects that have been moved from are not modelled. `C95_created_partial`, `C95_lifetimes_partial`, `C95_violated_convert`, `C95_violated_emplace`, `C95_violated_error`, `C95_violated_copy`, `C95_void_created_partial`, `C95_void_lifetimes`, `C95_violated_void_copy`.
- **C96 An assignment to an expected assigns or throws** (partial): Violated: the assignment of a value over an error swallows exceptions; copying a std::string over an error terminates the program if the copy throws; a default constructor that throws terminates it as well; copy assignment is not compiled for types whose copies and moves may throw. That the expected is unchanged after an exception is proved for moves over errors, and for all assignments of expected<void, E>. `C96_assigned_partial`, `C96_returns`, `C96_unchanged_partial`, `C96_violated_swallowed`, `C96_violated_terminated`, `C96_violated_default`, `C96_violated_compile`, `C96_void`.
- **C97 The operations of expected with functions are those of sums** (proved): Functions that do not throw. `C97_refines`, `C97_laws`, `C97_void`.
- **C98 Numbers are read in the classic C locale, which is then restored** (partial): Proved for names below 64 characters, in one thread. Violated: longer names are copied beyond the end of a buffer of 64. Only platforms without POSIX or Microsoft conversions with a locale use the guard. `C98_restored_partial`, `C98_violated_long`.
- **C99 Scanners of custom types see the rest of the source, and the locale** (partial): Violated: for the format string "{}" with one argument the locale of the call is not passed on; on a null source (a default constructed string_view) looking at a segment, as ranges, dates and built-in types in a scanner do, is undefined. On sources in pieces proved for scanners that look at characters one by one. `C99_contiguous_partial`, `C99_buffer_partial`, `C99_null_partial`, `C99_call_partial`, `C99_violated_null`, `C99_violated_locale`.
- **C100 Doubled braces in literal texts match one brace, anywhere in a call** (partial): Violated for the reported error: when a text with an opening brace fails, the parser stops before the next field, whose argument then counts as missing: invalid_format_string is reported for a valid format string. Fewer than 64 arguments (C23), texts of one-unit characters and whitespace (C16). `C100_success_partial`, `C100_failure_partial`, `C100_undefined_partial`, `C100_violated_error`.
- **C101 What can be scanned from and into is decided by the compiler** (partial): Violated: disabling char disables regex_matches; in C++17 is_scannable holds for every type without a scanner and for const types; bool, char32_t, pointers and wchar_t from narrow sources cannot be elements or discarded, as their scanners are not instantiated; ranges and tuples cannot be read from wide sources; references are not rejected; views with other traits are accepted. Types are described by what the templates ask about them; overload resolution and the rules for aggregates are encoded in the model. `C101_destination_partial`, `C101_is_scannable_partial`, `C101_elements_partial`, `C101_arguments_partial`, `C101_source_partial`, `C101_explanation`, `C101_violated_regex_flag`, `C101_violated_cpp17`, `C101_violated_elements`, `C101_violated_wide_ranges`, `C101_violated_references`, `C101_violated_traits`.
- **C102 On well-formed text a scan stays between the characters** (proved): Separators and decimal points of the locale are single units and its names of truth values well-formed; segments that are read on their own end between characters; floating-point conversions read the longest numeral (ConvOk). Destinations of types of the program are left out, as their scanners can stop anywhere. `C102_between`, `C102_between_buffered`, `C102_char_splits`, `C102_wchar_splits`.
- **C103 The iterators over a source go through it, and are moved like numbers** (partial): Violated: moved backward from its bound, a bidirectional iterator with a sentinel that cannot be subtracted goes beyond the bound; prev_backtrack is wrong for iterators of a buffer whose begin is not at position 0. The library itself reaches neither of the two. Iterators over a null pointer are C99. `C103_buffer`, `C103_view`, `C103_equal`, `C103_batch`, `C103_advance`, `C103_to`, `C103_bounded`, `C103_bounded_back_partial`, `C103_violated_bound`, `C103_distance`, `C103_previous_partial`, `C103_violated_previous`, `C103_less`.
- **C104 What a scan has consumed is scanned the same on its own** (partial): Violated: whitespace in the format string matches nothing before other text, but is an error at the end of the source. The positive theorem is for a rest that is empty or begins with whitespace, or for formats of ASCII characters without whitespace. Destinations: all but char, localized floating-point numbers, and wchar_t from UTF-16; contiguous sources; regex engines that look at no more than they take. `C104_consumed_alone_partial`, `C104_consumed_alone_violated`.
- **C105 String fields take the documented text** (partial): Violated: without a letter, a field aligned to the left or centered goes up to whitespace, not up to the fill character. The positive theorems cover everything else over contiguous sources; sets with no range that crosses the end of ASCII (C30). `C105_string_fields_partial`, `C105_unlimited`, `C105_set_fields_partial`, `C105_set_specs_partial`, `C105_violated_no_letter`.
- **C106 The locale matters only to fields that ask for it** (proved): Two locales with the same regular expression engine. Custom scanners are given the locale (C99) and may do what they want with it; the three date and time scanners of the library are covered. `C106_call`, `C106_buffered`, `C106_field`, `C106_chrono`.
- **C107 Dates and times in calls with other fields** (partial): Contiguous sources, lines with at least one date, below 64 fields; date formats without %Z and fractions of seconds, of different and compatible fields, or one conversion that the locale of the call reads; for datetime_components without %y and %C and up to the seventh day of the year (C44, C45). Violated: on a null source (a default constructed string_view) scanning a date is undefined. `C107_log_line_partial`, `C107_violated_null`.
- **C108 A discarded value is read as one that is kept** (partial): Contiguous sources, below 64 arguments, format strings that are well formed, also for the arguments that are kept; discarded values without L, without regular expressions, and with a width or precision from plain ASCII or wide text only. A failure may be reported as one of the format string. Violated: localized discarded values are read with the global locale instead of that of the call; with format strings checked at run time, errors in the specification of a discarded value go unnoticed. `C108_discarded_partial`, `C108_violated_locale`, `C108_violated_errors`.
- **C109 Lines with lists, sets, maps and tuples among other values are read back** (partial): Contiguous sources, fewer than 64 fields, no L, tuples and maps without specifications, elements that end where they can be told from what follows (a word in a list takes the comma with it, see C49_violated_strings). That ranges do not compile for wide sources, and that some element types are not linked, is C101. Violated: with L the elements of a range are read in the global locale instead of that of the call. `C109_line_partial`, `C109_violated_locale`.
- **C110 Ranges and tuples are read exactly if they are written with their brackets and separators** (proved): For brackets and separators of at most one character, as those of the library are; longer ones that a user sets are C50_violated_long_bracket. C110_integers spells out the elements; for other types the elements are what their scanner reads, which is the subject of the properties of that type. `C110_ranges`, `C110_tuples`, `C110_collections`, `C110_collections_default`, `C110_integers`.
- **C111 The numbers of arguments are only names** (partial): Violated from 64 arguments on, where the order decides whether the call is undefined (see C23). Below that, for contiguous sources, built-in types, specifications that are accepted (see C28, C29) and literal texts without braces; errors for texts with braces are C100. `C111_numbers_partial`, `C111_explicit_partial`, `C111_violated_many`.
- **C112 Whitespace in the format string in front of a field that skips whitespace makes no difference** (partial): Violated for fields with a width, as whitespace counts as part of their width (see C59). Proved for contiguous sources, fewer than 64 arguments, fields with nothing but L and a letter, and whitespace that does not follow other whitespace of the format string. Which error is reported if a call fails is not part of it: whitespace of the format string at the end of the source is C25. `C112_spaces_partial`, `C112_violated_width`.
- **C113 A scan call does the same in every encoding** (partial): Violated for sources with U+0010, which counts as the digit 0 of a prefix in narrow sources only, and for literal texts of characters of several code units (see C24). Proved for all other contiguous sources, fewer than 64 arguments, literal texts of ASCII and whitespace without braces, and specifications without sets, regular expressions and L whose fill is one code unit in UTF-16 and UTF-32 and below 256. `C113_encodings_partial`, `C113_violated_dle`, `C113_violated_literal`.
- **C114 A wider integer type reads the same** (partial): Single fields: for all sources, contiguous or in segments. Whole calls: contiguous sources, fewer than 64 arguments, specifications without sets and regular expressions, no char32_t arguments. `C114_widened_partial`, `C114_field`, `C114_default`, `C114_same_sign_needed`.
- **C115 Numbers are read without regard to the case of letters** (partial): The reader: all sources but those with U+0010 in front of the digits in contiguous narrow ones. Whole calls: contiguous well-formed sources without U+0010, fields without a specification or with a letter only, literal texts without letters, fewer than 64 arguments. Floating-point numbers: the reader, on all sources, for conversions that do not regard case, except where the library does not read a number as documented (C39), and without L. `C115_integer_partial`, `C115_default_partial`, `C115_letter_partial`, `C115_pointer_partial`, `C115_call_partial`, `C115_float_partial`, `C115_not_for_bool`.
- **C116 A plus sign, leading zeros and the prefix of the base make no difference** (proved): For the readers of integers and floating-point numbers, on every kind of source. Also for whole fields without a specification or with a letter, behind whitespace, on contiguous well-formed sources. Leading zeros of floating-point numbers are up to the conversions, and not claimed. `C116_leading_zeros`, `C116_prefix`, `C116_plus`, `C116_plus_float`, `C116_field_plus`, `C116_field_zeros`, `C116_letter_field`, `C116_fixed_base_needed`.
- **C117 A minus sign negates the number behind it** (proved): For fields with a letter in a call see C116_letter_field. Numerals that wrap instead of overflowing (C02) are covered: they wrap to opposite values. Floating-point numbers without L; copysign is a parameter that sets the sign whatever it was. `C117_opposite`, `C117_behind_minus`, `C117_refused`, `C117_float`, `C117_field`.
- **C118 A code point that is read is one of Unicode** (partial): Violated: in UTF-32 any value is read; in UTF-16 a lead surrogate at the end of the source; in UTF-8 surrogates, values up to 0x13FFFF (undefined behaviour for wchar_t) and encodings that are longer than necessary. Proved that these are the only exceptions. Specifications without width, precision and alignment. What else is undefined behaviour instead of an error is C38. `C118_utf8_partial`, `C118_utf16_partial`, `C118_utf32_partial`, `C118_specs`, `C118_wchar_partial`, `C118_violated_utf8`, `C118_violated_utf16`, `C118_violated_utf32`, `C118_violated_wchar`.
- **C119 Strings that are read are well-formed text** (partial): Proved for UTF-16 sources, into both encodings. Violated in UTF-8 and UTF-32: surrogates and encodings longer than necessary are accepted (C14); proved if the source has none of them, as every well-formed one. Strings of 2-byte characters read from other encodings are C15. `C119_utf16`, `C119_string_partial`, `C119_view_partial`, `C119_well_formed_sources`, `C119_validated`, `C119_violated`.

## Where the code disagrees with a property

Each of these is a theorem: the negation of the property on a concrete family of inputs (with an `example`). Beside it a `_partial` theorem states what does hold.

- **C02** `C02_counterexample` (Integers.lean): Negation of C02: "30000000000000000000" is scanned into a `uint64_t` as 11553255926290448384 (3*10^19 modulo 2^64) without any error.
- **C06** `C06_counterexample` (Integers.lean): Negation of C06: "00000000000000000001" is a valid in-range base-10 integer, but the call violates an internal `SCN_EXPECT` (undefined behaviour in release builds).
- **C07** `C07_counterexample` (Integers.lean): Negation of C07 on contiguous narrow sources: the control byte 0x10 is taken for '0' in a prefix, so "\x10x1f" scans as hexadecimal 31.
- **C10** `C10_counterexample` (Integers.lean): Negation of C10 in octal: "0,17" is read as 0 leaving ",17", while "017" is 15.
- **C14** `C14_violated` (Unicode.lean): C14 is violated: the overlong encoding C0 A0 of a space is accepted, and so is the encoded surrogate ED A0 80; neither is well-formed UTF-8.
- **C15** `C15_wide16_violated` (Unicode.lean): C15 is violated for 2-byte wide strings outside the Basic Multilingual Plane: no supplementary code point survives, because the second unit is built with the wrong base and is a high surrogate.
- **C18** `C18_violated_many` (Readers.lean): C18 is violated from 64 words on: the call never succeeds.
- **C19** `C19_argument_skipped` (Driver.lean): C19 is violated for run-time format strings: "{:d} {:L}" on "1 2" with arguments `int, std::string, int` succeeds although argument 1 never receives a value. The specification error of the second field is dropped and the parser is sent back to the end of the first field.
- **C21** `C21_error_masked` (Driver.lean): C21 is violated: "{} {}" on "abc 1" fails because the first field is not a number, but the reported error is `invalid_format_string`.
- **C22** `C22_mixed_accepted_at_run_time` (Driver.lean): C22 is violated at run time: "{} {1}" and "{1} {}" both succeed.
- **C23** `C23_many_never_succeed` (Driver.lean): C23 is violated: with 64 or more arguments no call ever succeeds, whatever the format string and the source.
- **C24** `C24_violated` (Format.lean): "Ä" does not match "Ä".
- **C25** `C25_violated` (Format.lean): C25 is violated at the end of the source: "{} " on "42" fails although "possibly none" is present.
- **C26** `C26_regex_localized_violated` (Format.lean): C26 is violated for regex match arguments: `L` in their specification reaches an assertion.
- **C28** `C28_violated_bracket_fill` (Format.lean): C28 is violated: the fill `[` (documented: any character but `{` and `}`) is taken for a character set.
- **C28** `C28_violated_wide_fill` (Format.lean): C28 is violated: in a wide format string the fill U+2014 is read back as U+0014.
- **C28** `C28_violated_localized_string` (Format.lean): C28 is violated: `L` is documented to have no effect on strings, but is rejected.
- **C28** `C28_violated_empty_before_align` (Format.lean): C28 is violated: in "{:}<" the empty specification's closing brace is taken for a fill, and the field never ends.
- **C29** `C29_violated` (Format.lean): C29 is violated: `c` and `r` are documented for integers, `c` for `char`, and `c` is the only letter for `char32_t`, which the compile-time check rejects while accepting all the integer letters that the run-time check rejects. The documented letter `O` is no letter at all.
- **C30** `C30_crossing_range_violated` (Charset.lean): C30 fails for ranges that cross the end of ASCII: `[a-b]` with `a ≤ 127 ≤ b` rejects every ASCII character it lists, so a source starting with one fails.
- **C30** `C30_malformed_violated` (Charset.lean): C30 fails for malformed sources: the set `[ä]` consumes a byte that is no character at all (and the field then fails its encoding check), where the ASCII set `[a]` stops before it.
- **C32** `C32_violated` (Buffers.lean): The negation of C32: over the characters `1234`, after the first two have been read one by one, a nested scan of the rest sees `2 2 4` instead of `2 3 4`.
- **C33** `C33_unbuffered_end_undefined` (Buffers.lean): C33 is violated for files read character by character: once the end of the file has been met, giving back anything (in particular after every failed scan of a nonempty file) violates a precondition and takes the front of an empty view.
- **C35** `C35_malformed_unlimited` (Fields.lean): The limit is lost on malformed text: a stray continuation byte makes the view unlimited.
- **C37** `C37_violated_localized` (Readers.lean): With the `L` flag and a locale in which one name begins with the other ("yes", "yesn't") the longer name is never read: its beginning is taken for the shorter one.
- **C38** `C38_violated_at_end` (Readers.lean): C38 is violated at the end of the source: a `char32_t` field with any specification (say `{:c}`) and nothing left to read reads through the end (the violated `SCN_EXPECT` of `read_code_point_into`), while `{}` reports `end_of_input`. The same for `wchar_t` from a narrow source.
- **C38** `C38_violated_truncated` (Readers.lean): C38 is violated on malformed text: a truncated sequence at the end of the source is handed to the decoder for valid text, for every lead byte of a multi-byte sequence.
- **C38** `C38_violated_malformed` (Readers2.lean): C38 is violated by malformed text that is long enough: the lead byte of a character of two bytes with anything else than a continuation behind it, an ASCII character for example, is undefined behaviour, where an error should be reported.
- **C39** `C39_violated` (Float.lean): Numbers that are not read: `.5`, in all presentations that have it; `a` in the hexadecimal one; `nan` before a parenthesis that is not closed; and `0`, before `x` and something that is no digit, on sources that are not contiguous, while it is read from the others.
- **C40** `C40_counterexample` (Integers.lean): Negation of C40: byte 0x10 "matches" the character '0' of "0x".
- **C41** `C41_violated_split_space` (Space.lean): C41 is violated when a segment boundary cuts a multi-byte whitespace character: the word search on `a U+2028 b` delivered as `61 E2 80 | A8 62` runs past the separator, while the string search stops at it; and whitespace skipping on `20 E2 80 | A8 62` stops inside the separator.
- **C41** `C41_violated_malformed` (Space.lean): C41 is also violated on malformed text without any cut: skipping whitespace stops at a stray continuation byte in a string but silently swallows it in a segmented source.
- **C41** `C41_violated_segment` (Buffers.lean): The negation of C41: in `12 34` the second field is 3 in a non-contiguous source and 34 in a string.
- **C41** `C41_violated_call` (Layouts.lean): The negation of C41 for whole calls, and the difference a specification makes: of `12 34`, in a source of one-unit segments, `{} {}` leaves the 4 unread (the second value is 3), and `{:d} {:d}` reads all of it.
- **C44** `C44_violated_components` (Chrono.lean): Into `datetime_components` short years and centuries are lost: `%y` gives the year 2000 and `%C%y` the year 0, whatever the numbers are.
- **C45** `C45_violated_components` (Chrono.lean): Into `datetime_components`, the days of the year from the 8th on are rejected.
- **C47** `C47_violated_c` (Chrono.lean): `%c` is never accepted: a text that shows a date and time just as `%c` prescribes is rejected as a wrong format string, although the check of the format string let it pass.
- **C47** `C47_violated_three_days` (Chrono.lean): The day of the week, of the month and of the year together are accepted.
- **C49** `C49_violated_strings` (Ranges.lean): C49 fails for strings: an element extends to the next whitespace, so that the text of a sequence of strings without whitespace (e.g. "[a,b]") is an error, whatever the strings.
- **C50** `C50_violated_long_bracket` (Ranges.lean): C50 fails for a bracket of more than one code unit: a source that ends within it is read past its end.
- **C51** `C51_violated_unget_after_peek` (Istream.lean): C51 fails when the extractor peeks before it puts back: after `get`, `peek`, `unget` on "ab" the position should be at "a"; it is at "b", and getting two characters from there yields "b" twice.
- **C51** `C51_violated_second_unget` (Istream.lean): C51 fails when the extractor puts back twice, even if it got characters in between: the precondition of `pbackfail` is violated, for every source of at least two characters.
- **C51** `C51_violated_putback` (Istream.lean): C51 fails when the extractor uses `putback`: the precondition of `pbackfail` is violated, even for the character just extracted.
- **C56** `C56_violated_end` (Chrono2.lean): A format that ends with a literal character of several code units is read past its end, for every such character.
- **C56** `C56_violated_brace` (Chrono2.lean): A closing brace behind a literal character of several code units does not end the format: the next one does.
- **C58** `C58_violated_anchor` (Regex.lean): C58 fails for anchored patterns: in `{:/^abc/}` the slash is taken as a fill character and the `^` as an alignment, and the rest is rejected. The same goes for every pattern starting with an alignment character `a`: the alignment is set.
- **C58** `C58_violated_backslash` (Regex.lean): C58 fails for patterns ending with an (escaped) backslash: in `/a\\/` the closing slash is taken as escaped.
- **C59** `C59_violated` (Fields.lean): C59 is violated: whitespace counts towards the width ("{:3}" accepts " 1", which is one column wide), and towards the precision ("{:.2}" on " 12" fails), and is not skipped when there is an alignment ("{:*>}" on " 1" fails).
- **C60** `C60_violated` (Fields.lean): C60 is violated: U+231A WATCH, U+A960 HANGUL CHOSEONG TIKEUT-MIEUM and U+1F680 ROCKET have East_Asian_Width=W (EastAsianWidth.txt) but width one.
- **C63** `C63_violated` (Readers.lean): C63 is violated: a `char` field with an integer presentation (`{:d}` on "65") reads the integer, consumes it, and then stores the destination's previous value, whatever was read. The same for `wchar_t`.
- **C68** `C68_violated` (Chrono3.lean): `%u` is the number of the weekday with Monday as 1 and Sunday as 7. No number is read as that: for each `d` from 1 to 7 the day before is stored, and 0 is read, as Saturday.
- **C69** `C69_violated` (Chrono4.lean): `{:%Z}` passes the check, and is undefined on every text that has no name of a time zone where one is expected: the error is recorded, and then the value that is not there is used.
- **C70** `C70_violated` (Calendar.lean): With a format that does not determine the calendar type, which passes the check, the scan of every text that was written with it is undefined.
- **C71** `C71_violated_day` (Calendar2.lean): With a format that has the year and the month but not the day, a time point of the month before is read: the day counts as 0.
- **C71** `C71_violated_overflow` (Calendar2.lean): Times from 2263 on into a time point in nanoseconds overflow a signed 64-bit integer, which is undefined.
- **C72** `C72_violated` (Calendar3.lean): With `%y` the results differ for every short year but 00.
- **C73** `C73_violated` (Float2.lean): In a locale with `.` for the separator and `,` for the point, such as the German one, the point is dropped with the separators: `0,5` is read as `05`, and `1.234,5` as `12345`, and no error is given.
- **C74** `C74_violated` (Defined.lean): C74 is violated: reading a `char32_t` with `{:c}` at the end of the source, or with `{}` from a truncated code point, and a `wchar_t` (4 bytes) from that same narrow source, is undefined behaviour.
- **C74** `C74_violated_end` (Defined2.lean): C74 is violated for every specification of a `char32_t` field that is accepted, whatever its width, alignment and fill: at the end of the source, the first code point is read all the same.
- **C74** `C74_violated_captures` (Defined3.lean): C74 is violated for `regex_matches` and a format string that was not checked: a specification without a regular expression is undefined behaviour for every source, whatever else it has, as the reader asserts that there is one after it has noted the error.
- **C74** `C74_violated_chars` (Fraction.lean): C74 is violated on well-formed text too: a `char32_t` or a `wchar_t` (4 bytes) that is to be read with a precision of 1 from a source that begins with a character of width 2 is read from an empty range; and a code point above U+10FFFF in a narrow source cannot be turned into a `wchar_t` of 2 bytes.
- **C78** `C78_violated_boost` (RegexMatch.lean): C78 fails for Boost without `/s`: `.` matches a newline all the same, as the search does not ask for anything else. The other modes are those that are asked for.
- **C78** `C78_violated_re2` (RegexMatch.lean): C78 fails for RE2: `^` and `$` match at lines exactly if that is not asked for.
- **C79** `C79_violated_re2` (RegexMatch.lean): C79 fails for RE2 if a group with a name does not take part in the match: its name is given to a capture that is not there, which is undefined.
- **C79** `C79_violated_boost` (RegexMatch.lean): C79 fails for Boost if two captures have the same text: names are found by comparing texts, so `(?<x>a)` at `a` names the whole match `x`. And names that are written with quotation marks are not found: `(?'x'a)b` at `ab` has no names. In both cases, the captures are not those of the engine.
- **C80** `C80_violated` (RegexMatch.lean): C80 fails for texts that begin with whitespace, as it is skipped for `regex_matches` only, and for matches that do not end between two characters, as only strings are checked: with `a` at ` a`, and with `.` at a character that the engine takes for two.
- **C85** `C85_violated_greater` (WidthIter.lean): C85 is violated by `>`: it says the opposite, for all iterators of all texts.
- **C85** `C85_violated_back` (WidthIter.lean): C85 is violated at the beginnings of characters of several units: after `++` and `--` the iterator says that more units of a character are to come, although no character has been begun.
- **C86** `C86_violated_zone` (Zones.lean): C86 fails for a text without a name: on all of them `%Z` is undefined, instead of an error.
- **C86** `C86_violated_rounding` (Zones3.lean): C86 fails for fractions with 17 or more nines: as a `double` they are 1, which `set_subsec` asserts not to be.
- **C86** `C86_violated_decimal_point` (Zones3.lean): C86 fails for the decimal points of locales that are not ASCII characters, in wide text: `consume_ch` takes a `char`, and compares something else. The text with the decimal point of the locale is rejected.
- **C87** `C87_violated_literal` (Chrono5.lean): The check accepts `{:%R}`, which stands for `%H:%M`; then the format is reported as invalid for every hour that is followed by anything but a colon, rather than that the text is not a time.
- **C87** `C87_violated_months` (Chrono5.lean): The check accepts `{:%b%m}`, as it does not record that the name of a month sets the month; then the format is reported as invalid for every name of a month that is followed by a number of a month.
- **C87** `C87_violated_fraction` (Fraction.lean): The check accepts `{:%S%.S}`, as it does not record that a fraction of a second comes with the seconds; then no source at all is read, and the format is reported as invalid for two numbers of seconds of which the second one has a fraction.
- **C88** `C88_violated_position` (Locale.lean): The second of two conversions is not read where the first has ended, at `p1`, but at the begin of the source, where the first is: with `{:L%x%X}`, if what is there can also be read as a time, then that is the time, and the position is after it; and if it cannot, then the scan fails. What stands at `p1` does not matter.
- **C88** `C88_violated_short_year` (Locale.lean): With `{:L%Oy}`, the year in the century in other digits, the locale is asked for `%Ey`, the year in the era: where it does not read that, the scan fails, although it may read `%Oy`.
- **C89** `C89_violated_week` (Modifiers.lean): `%OW` should be the number of the week, which is not supported: `%W` is rejected. It is accepted as the day of the week, and read as `%u` is; and `%Ou`, the day of the week, is rejected.
- **C91** `C91_violated_left` (Padded.lean): C91 fails: a word or boolean printed without an alignment in a field wider than itself (with its padding at the right, as `std::format` prints it) is never read back by the field with the same specification; the field is reported to be too short, whatever follows.
- **C91** `C91_violated_confused` (Padded.lean): C91 fails without the conditions of `PaddedField.Clear`: a word in a left-aligned field without the type `s` takes the fill with it ("{:*<6}" with "ab" reads back "ab****"); a value that begins with the fill loses it ("{:0>5}" with 0 is skipped completely, and with "{:0>5.5}" that is reported as an invalid fill); the fill is skipped beyond the width of the field, so that a following field loses what belongs to it ("{:*<4}" with 7 before "***" leaves nothing).
- **C91** `C91_violated_record` (Padded.lean): C91 fails for a record with whitespace before a padded value: the whitespace of the format string takes the padding with it, and the field is then too short. "x {:5}" printed with 42 is "x 42"; without the width the record is read.
- **C92** `C92_violated_whitespace` (Continued.lean): C92 is not kept where whitespace meets whitespace: "a " and then " " fails on "a " (the second call is at the end of its source), and "a " succeeds.
- **C92** `C92_violated_array` (Continued.lean): Not all of a source is scanned: the last element of a non-empty array never is, even when the array is not a string literal.
- **C93** `C93_violated_skipped` (Api.lean): C93 is not kept by format strings that are only checked at run time: "{:d} {:L}" for an `int`, a string and an `int` succeeds on "1 2", and returns the initial string.
- **C94** `C94_violated_am` (DateRead.lean): The code takes the character 14 for a period in `a.m.` and `p.m.`: `1a`, 14, `m`, 14 is read with `%I%p` as one o'clock, though it shows no date. (`/repo/src/scn/impl.cpp` compares characters by exclusive or with 32, whatever they are.)
- **C94** `C94_violated_offset` (DateRead.lean): Hours and minutes of an offset are not checked: `+9999` is accepted by `%z`.
- **C95** `C95_violated_convert` (Expected.lean): C95 fails for the conversion from an `expected` of other types: a default value is made first, and never destroyed. (The conversion is compiled only if `expected_operations_base`, which has no default constructor of its own, inherits that of the storage.)
- **C95** `C95_violated_emplace` (Expected.lean): C95 fails for `emplace` with a constructor that may throw: over an error, the error is not destroyed, and if the constructor does throw, the destructor destroys what is not alive; so does it over a value.
- **C95** `C95_violated_error` (Expected.lean): C95 fails for the assignment of an error over a value, if the error cannot be made: the value is destroyed twice.
- **C95** `C95_violated_copy` (Expected.lean): C95 fails for a copy that throws, if errors have a destructor: an error that was never made is destroyed.
- **C95** `C95_violated_void_copy` (ExpectedVoid.lean): C95 fails for a copy of an `expected<void, E>` that throws, if errors have a destructor: one that was never made is destroyed.
- **C96** `C96_violated_swallowed` (Expected.lean): C96 fails for the assignment of a value over an error: if its constructor throws, the exception is swallowed, and the assignment returns with the old error in place.
- **C96** `C96_violated_terminated` (Expected.lean): C96 fails for the copy of a value over an error, if moves do not throw (such as those of `std::string`): if the copy throws, the program is terminated.
- **C96** `C96_violated_default` (Expected.lean): C96 fails for a default value whose constructor throws, if there is a destructor: the program is terminated.
- **C96** `C96_violated_compile` (Expected.lean): C96 fails for the copy assignment of values that may throw in copies and moves: it is not compiled.
- **C98** `C98_violated_long` (CLocale.lean): C98 fails for locales with names of 64 characters or more: they are copied beyond the end of the buffer.
- **C99** `C99_violated_null` (CustomScan.lean): C99 is violated for null sources: the iterators of a null view are taken for those of a buffer, so that looking at the segment, as all ranges, dates and built-in types in a scanner of a custom type do, is undefined; on an empty source that is not null, it is the end of the input. In a field with and without a specification.
- **C99** `C99_violated_locale` (CustomScan.lean): C99 is violated for the format string "{}" with one argument: the scanner does not see the locale of the call, but an empty one.
- **C100** `C100_violated_error` (Braces.lean): C100 is violated for the reported error: when a text with an opening brace does not match, the parser stops before it has looked at the field after it, so that the field's argument counts as missing and the format string, which is valid, is reported as invalid: "{{{}" for "x5". Without an opening brace, "a{}" or "}}{}", the error is that of the literal text, as it should be.
- **C101** `C101_violated_regex_flag` (Scannable.lean): C101 and the flags: taking `char` out of the library takes `regex_matches` out as well, though not strings read by regular expressions; the flag that is asked about is that of the character type.
- **C101** `C101_violated_cpp17` (Scannable.lean): In C++17 `is_scannable` holds for every type that is not built in, and for every `const` type: the primary template of `scanner`, which is meant not to be constructible, is an aggregate, and the test initializes it with braces.
- **C101** `C101_violated_elements` (Scannable.lean): A `bool` is a scannable destination, but a `std::vector<bool>` or a `discard<bool>` is not linked: there is no instantiation of the scanner of `bool`.
- **C101** `C101_violated_wide_ranges` (Scannable.lean): Ranges and tuples are read from narrow sources, of the elements of `C101_elements_partial`; from wide sources none is: whatever the elements are, the scanner does not compile, as its brackets are narrow literals.
- **C101** `C101_violated_references` (Scannable.lean): The assertion that "Scan argument types must not be references" holds for all types: it is the negation of a conjunction that begins with false.
- **C101** `C101_violated_traits` (Scannable.lean): "Strings with custom Traits are not supported", says the assertion, of `std::basic_string_view` too: but a view with other traits is not seen as a view; it is taken like any contiguous range.
- **C103** `C103_violated_bound` (Iterators.lean): C103 is violated: moved backward by any `n` from the bound, with a sentinel that cannot be subtracted, the iterator goes one beyond the bound (with one that can be, it stays); at the begin of the range that is undefined.
- **C103** `C103_violated_previous` (Iterators.lean): C103 is violated: for iterators of a buffer that do not begin at position 0, `prev_backtrack` goes too far.
- **C104** `C104_consumed_alone_violated` (Alone.lean): Whitespace in the format matches no whitespace at all before other text, but at the end of the source it is an error: "{} " on "1x" reads 1 and leaves "x", and fails on "1".
- **C105** `C105_violated_no_letter` (Strings.lean): C105 is violated without a letter, which is documented to mean `s`: aligned to the left or centered, such a field still goes up to whitespace, and takes the fill for text. `{:*<}` reads "ab**" out of "ab** c", and `{:*<s}` reads "ab"; on "a b*", `{:*<}` reads "a", and `{:*<s}` reads "a b".
- **C107** `C107_violated_null` (LogLine.lean): C107 is violated for null sources (a default constructed `std::string_view`), which have the same text as an empty string: scanning a date from one is undefined, whatever the format; from an empty string it is the end of the input. In a field of a call, `customSpecs`.
- **C108** `C108_violated_locale` (Discard.lean): C108 is violated for localized fields: a discarded value is read with the global locale, not with that of the call. With `,` between groups of digits in the locale of the call, "{:L}{}" on "1,000;" reads 1000, and then ";" if the number is kept; if it is discarded, the string is ",000;".
- **C108** `C108_violated_errors` (Discard.lean): C108 is violated for format strings that are checked at run time: what is wrong with the specification of a discarded value goes unnoticed. "{:5.3d}", with a width above the precision, fails for an `int`, and discards "12345".
- **C109** `C109_violated_locale` (ListLine.lean): C109 is violated for localized fields: the elements are read with the global locale, not with that of the call. With `'` between groups of digits in the locale of the call, "{:L}" on "1'000" reads 1000 into an `int`; on "[1'000]" it fails for a `std::vector<int>`.
- **C111** `C111_violated_many` (Renumber.lean): C111 is violated from 64 arguments on: with 65 of them, "{0}{1}…{64}" for "x" is an error, which is the same with the arguments in the reverse order, "{64}{63}…{0}", but there the bits of argument 64 are looked up behind the end of an array (C23).
- **C112** `C112_violated_width` (Loose.lean): C112 is violated for fields with a width, as the whitespace in front of a value counts there (C59): "{:3}" reads 1 from " 1", but " {:3}" fails, as whitespace is skipped by the format string, and the rest is too short.
- **C113** `C113_violated_dle` (AnyEncoding.lean): C113 is violated for U+0010: "{:x}" reads 31 from it and "x1F" in a narrow source, as the code looks for the digit 0 of a prefix with `| 0x20`, but fails in a wide one.
- **C113** `C113_violated_literal` (AnyEncoding.lean): C113 is violated for literal texts of several code units: "é{}" matches "é5" in UTF-32, but not in UTF-8 (C24).
- **C118** `C118_violated_utf8` (CodePointValue.lean): C118 is violated in UTF-8, in each of the three ways: the bytes of a surrogate, those of a value beyond Unicode, and a space in three bytes.
- **C118** `C118_violated_utf16` (CodePointValue.lean): C118 is violated in UTF-16: any lead surrogate at the end of the source is read as a code point, where anywhere else it is undefined behaviour if no trail surrogate follows (C38).
- **C118** `C118_violated_utf32` (CodePointValue.lean): C118 is violated in UTF-32 by every value: what is no code point of Unicode is read like one.
- **C118** `C118_violated_wchar` (CodePointValue.lean): C118 is violated for `wchar_t` fields over UTF-8: the bytes of a value beyond Unicode are undefined behaviour (the precondition of `encode_code_point_as_wide_character`), where a `char32_t` field reads the value.
- **C119** `C119_violated` (TextForm.lean): C119 is violated in UTF-32 and UTF-8: a surrogate is read into a string; from UTF-32 into a narrow string it becomes bytes that are not UTF-8.

Found while modelling, and not stated as a property: `mktime` converts from local time and
its failure (-1) is not checked in `time_since_unix_epoch` (`chrono.h` 345-369).

## Testing the theorems

Realistic wrong programs are made by editing one model definition in a copy outside this
repository, and rebuilding. Each attempt is a line of `seeded/LOG.jsonl`: the definition,
the edit, the claim it breaks, the theorems that failed, and the theorems that were
tightened because they did not.

## Trusted base

- The Lean kernel (4.33.0) and the axioms `propext`, `Classical.choice`, `Quot.sound`.
  There are no axioms of our own, no `sorry`, no `native_decide` and no `bv_decide`.
- The reading of the C++ source: that each definition says what the cited lines do.
- The specifications in `lean/Verif/Spec`.
- Platform: LP64, little-endian, 8-bit `char`, 32-bit `int`, 64-bit `std::size_t`; `wchar_t`
  of 32 bits, and of 16 bits as a separate encoding.

Not modelled: memory allocation; exceptions other than in `Expected`; the conversion of floating-point digits
(`fast_float`, `strtod`, `std::from_chars`); regex engines; `std::locale` facets and the C
library's `mktime`, whose results are parameters; the operating system's file I/O; the
compile-time plumbing of argument types (concepts, overload resolution) beyond `Scannable`; `scn::input`, `prompt` and `xchar` overloads, which only forward.

### Axioms per theorem

- no axioms (5 theorems): `C60_violated`, `C51_violated_unget_after_peek`, `C51_violated_second_unget`, `C52_type_codes`, `C92_unused`.
- `propext` (52 theorems): `C40_counterexample`, `C13_unvalidated_unsafe`, `C17_first_nonmatching_none`, `C17_log2_pow2_fast`, `C41_violated_split_space`, `C41_violated_malformed`, `C28_violated_localized_string`, `C29_run_time_partial`, `C29_compile_agrees_partial`, `C29_localized`, `C29_violated`, `C32_violated`, `C32_throws`, `C33_failure_reported`, `C58_violated_backslash`, `C51_position_partial`, `C51_violated_putback`, `C53_conditions`, `C56_empty`, `C74_violated_captures`, `C84_input`, `C87_violated_fraction`, `C93_value`, `C94_violated_offset`, `C95_created_partial`, `C95_violated_convert`, `C95_violated_emplace`, `C95_violated_error`, `C95_violated_copy`, `C95_void_created_partial`, `C95_violated_void_copy`, `C96_assigned_partial`, `C96_violated_terminated`, `C96_violated_default`, `C96_violated_compile`, `C96_void`, `C97_refines`, `C97_laws`, `C97_void`, `C99_null_partial`, `C99_violated_null`, `C101_destination_partial`, `C101_is_scannable_partial`, `C101_elements_partial`, `C101_source_partial`, `C101_explanation`, `C101_violated_regex_flag`, `C101_violated_cpp17`, `C101_violated_elements`, `C101_violated_wide_ranges`, `C101_violated_references`, `C101_violated_traits`.
- `propext`, `Quot.sound` (91 theorems): `C04_all_words`, `C07_counterexample`, `C08_minus_unsigned`, `C08_plus_transparent`, `C10_counterexample`, `C17_has_byte_greater_range`, `C41_violated_call`, `C19_at_most_once`, `C19_argument_skipped`, `C20_no_write_after_failure`, `C21_error_masked`, `C21_error_cause_partial`, `C22_compile_time_ids`, `C22_mixed_accepted_at_run_time`, `C42_value_agrees`, `C28_violated_bracket_fill`, `C28_violated_wide_fill`, `C28_violated_empty_before_align`, `C30_malformed_violated`, `C32_view_duplicated`, `C32_view_lost`, `C35_malformed_unlimited`, `C57_unescape`, `C57_unescape_text`, `C59_violated`, `C37_spellings`, `C37_unambiguous`, `C37_localized_partial`, `C37_violated_localized`, `C38_char`, `C38_violated_at_end`, `C38_violated_truncated`, `C38_violated_malformed`, `C63_violated`, `C49_unused`, `C74_std_captures`, `C74_violated`, `C74_violated_end`, `C74_violated_chars`, `C75_checked`, `C78_std`, `C78_boost_partial`, `C78_violated_boost`, `C78_re2_partial`, `C79_violated_boost`, `C91_violated_confused`, `C91_violated_record`, `C92_violated_whitespace`, `C92_violated_array`, `C93_violated_skipped`, `C94_violated_am`, `C95_lifetimes_partial`, `C95_void_lifetimes`, `C96_returns`, `C96_unchanged_partial`, `C96_violated_swallowed`, `C98_restored_partial`, `C98_violated_long`, `C99_contiguous_partial`, `C99_violated_locale`, `C100_violated_error`, `C101_arguments_partial`, `C103_to`, `C103_violated_bound`, `C103_distance`, `C103_previous_partial`, `C103_violated_previous`, `C103_less`, `C104_consumed_alone_violated`, `C105_violated_no_letter`, `C106_field`, `C106_chrono`, `C107_violated_null`, `C108_violated_locale`, `C108_violated_errors`, `C109_violated_locale`, `C111_violated_many`, `C112_violated_width`, `C113_violated_dle`, `C113_violated_literal`, `C115_not_for_bool`, `C116_plus`, `C116_plus_float`, `C116_fixed_base_needed`, `C117_refused`, `C117_float`, `C118_utf32_partial`, `C118_specs`, `C118_violated_utf8`, `C118_violated_utf32`, `C118_violated_wchar`.
- `propext`, `Classical.choice`, `Quot.sound` (373 theorems): `C01_upto32`, `C01_reader_upto32`, `C02_counterexample`, `C02_exact_partial`, `C02_reader_exact_partial`, `C02_uint64_bases_partial`, `C02_int64_plus_bases_partial`, `C02_int64_minus_bases_partial`, `C02_int64_decimal`, `C03_roundtrip`, `C04_swar`, `C05_fast_eq_regular`, `C06_counterexample`, `C06_partial`, `C07_prefix_partial`, `C07_prefix_other_sources`, `C07_lone_prefix`, `C08_two_signs`, `C08_minus_negates`, `C09_no_digits`, `C10_thsep_partial`, `C10_transparent_partial`, `C40_letters_partial`, `C40_other_sources`, `C11_utf8_decode`, `C11_utf8_decode_valid`, `C11_utf8_decode_all`, `C12_utf16_decode`, `C12_utf16_decode_all`, `C12_lone_low`, `C12_lone_high`, `C13_progress`, `C13_partition`, `C13_replacement`, `C13_validate_total`, `C13_validated_safe`, `C14_violated`, `C14_wellformed_accepted_partial`, `C14_accepted_iff_partial`, `C14_gap_partial`, `C15_narrow_to_wide32_partial`, `C15_wide32_to_narrow_partial`, `C15_round_trip_partial`, `C15_wide16_to_narrow_partial`, `C15_narrow_to_wide16_partial`, `C15_wide16_violated`, `C16_whitespace_set`, `C16_find_space`, `C16_find_nonspace`, `C16_any_bytes`, `C16_until_all_layouts`, `C16_while_all_layouts`, `C17_has_zero_byte`, `C17_has_zero_byte_first`, `C17_has_byte_between_marks`, `C17_has_byte_between`, `C17_has_byte_greater`, `C17_first_nonmatching`, `C17_first_matching`, `C17_first_matching_none`, `C17_log2_fast`, `C17_byteswap`, `C41_space_search_partial`, `C41_space_search_ascii`, `C41_violated_segment`, `C41_later_fields_truncated`, `C41_first_int_field_partial`, `C41_specs_field_partial`, `C41_default_field_partial`, `C41_call_partial`, `C41_specs_call_partial`, `C41_text_field_partial`, `C41_text_default_partial`, `C41_text_call_partial`, `C41_text_specs_call_partial`, `C19_success_writes_all_partial`, `C21_last_field_error_partial`, `C21_accepted_failure_has_cause_partial`, `C22_mixed_rejected_at_compile_time`, `C22_custom_run_time_partial`, `C23_many_never_succeed`, `C23_many_undefined`, `C23_many_all_read_error`, `C23_few_well_defined_partial`, `C23_few_success_iff_partial`, `C34_unused_range`, `C34_suffix`, `C34_builtin_partial`, `C24_literal_partial`, `C24_literal_between_fields_partial`, `C24_multi_unit_never_matches`, `C24_violated`, `C25_whitespace_partial`, `C25_between_fields_partial`, `C25_violated`, `C26_run_time_partial`, `C26_compile_time_partial`, `C26_specs_partial`, `C26_regex_localized_violated`, `C27_width`, `C27_precision`, `C27_arg_id`, `C27_arg_id_leading_zero`, `C28_roundtrip_partial`, `C28_width_above_precision_rejected`, `C28_wide_fill_truncated`, `C28_pair_fill_rejected`, `C30_charset_partial`, `C30_crossing_range_violated`, `C31_presents_source`, `C31_segments`, `C32_nested_partial`, `C33_buffered_partial`, `C33_unbuffered_partial`, `C33_unbuffered_end_undefined`, `C35_view`, `C35_consumed`, `C35_zero_no_limit`, `C36_field_partial`, `C36_success_partial`, `C36_int_partial`, `C36_string_partial`, `C36_bool_partial`, `C36_char_partial`, `C36_pointer_partial`, `C36_float_partial`, `C36_localized_int_partial`, `C36_localized_float_partial`, `C36_regex_partial`, `C54_whitespace`, `C54_fill`, `C54_fill_any_source`, `C58_regex_partial`, `C58_violated_anchor`, `C59_partial`, `C60_blocks_partial`, `C18_words_partial`, `C18_violated_many`, `C37_default_field`, `C38_code_point_partial`, `C38_invalid_partial`, `C55_accepts`, `C55_roundtrip`, `C61_left_to_right_partial`, `C62_record_roundtrip_partial`, `C63_extent_partial`, `C49_roundtrip_partial`, `C49_integers`, `C49_integer_sets`, `C49_nested`, `C49_violated_strings`, `C50_ranges_partial`, `C50_tuples_partial`, `C50_integers`, `C50_violated_long_bracket`, `C52_lookup`, `C64_tuple_roundtrip`, `C64_map_entry`, `C43_tm`, `C43_I_p`, `C43_p_I`, `C43_I_p_components`, `C43_p_I_components`, `C44_y`, `C44_Cy`, `C44_violated_components`, `C45_tm`, `C45_violated_components`, `C46_roundtrip_tm`, `C46_roundtrip_components_partial`, `C46_T`, `C46_R`, `C46_F`, `C46_D`, `C46_T_components`, `C46_R_components`, `C46_F_components`, `C47_rejected_tm_partial`, `C47_rejected_components_partial`, `C47_violated_c`, `C47_violated_three_days`, `C48_hhmm`, `C48_hh_colon_mm`, `C48_hh`, `C48_h_colon_mm`, `C56_inside_partial`, `C56_inside_single_partial`, `C56_check_partial`, `C56_violated_end`, `C56_violated_brace`, `C65_tm`, `C65_components`, `C65_any_format_tm`, `C65_any_format_components`, `C66_unread`, `C67_month`, `C67_weekday`, `C67_month_rejected`, `C67_weekday_rejected`, `C68_violated`, `C68_rejected_partial`, `C69_tm`, `C69_text_tm`, `C69_tm_with_tz_partial`, `C69_components_partial`, `C69_violated`, `C70_roundtrip_partial`, `C70_in_range`, `C70_defined_partial`, `C70_violated`, `C71_roundtrip_partial`, `C71_fraction_partial`, `C71_rejected`, `C71_violated_day`, `C71_violated_overflow`, `C72_tm_partial`, `C72_violated`, `C39_reads_longest_number`, `C39_roundtrip_partial`, `C39_rejects_other_text`, `C39_same_on_all_sources_partial`, `C39_violated`, `C73_localized_partial`, `C73_violated`, `C74_field_partial`, `C74_scan_partial`, `C74_text_partial`, `C74_checked_partial`, `C74_captures_partial`, `C74_boost_captures`, `C75_run_time`, `C76_string_partial`, `C76_string_default_partial`, `C76_view`, `C76_view_default`, `C77_out_of_range`, `C77_too_short`, `C78_violated_re2`, `C79_std`, `C79_re2_partial`, `C79_boost_partial`, `C79_unsupported`, `C79_violated_re2`, `C80_std_partial`, `C80_boost_partial`, `C80_re2_partial`, `C80_violated`, `C81_success_partial`, `C81_failure_partial`, `C81_undefined_partial`, `C82_integer_letters_partial`, `C82_integer_localized_partial`, `C82_float_letters_partial`, `C82_float_localized_partial`, `C82_bool_letters`, `C82_regex_string_partial`, `C83_reads_partial`, `C83_reads_upto32_partial`, `C83_roundtrip`, `C83_agrees`, `C84_one_call_partial`, `C84_many_calls_partial`, `C85_columns`, `C85_order_partial`, `C85_back_partial`, `C85_violated_greater`, `C85_violated_back`, `C86_zone`, `C86_fraction_partial`, `C86_fraction_exact_partial`, `C86_fraction_double_partial`, `C86_fraction_locale_partial`, `C86_violated_zone`, `C86_violated_rounding`, `C86_violated_decimal_point`, `C87_accepted_tm_partial`, `C87_accepted_tm_with_tz_partial`, `C87_accepted_components_partial`, `C87_violated_literal`, `C87_violated_months`, `C88_localized_tm_partial`, `C88_localized_tm_with_tz_partial`, `C88_localized_components_partial`, `C88_localized_invalid`, `C88_violated_position`, `C88_violated_short_year`, `C89_modifiers_partial`, `C89_violated_week`, `C90_accepted`, `C90_same`, `C90_zone_kept`, `C90_offsets_agree`, `C90_roundtrip`, `C91_field_partial`, `C91_columns_partial`, `C91_record_partial`, `C91_numbered_partial`, `C91_violated_left`, `C92_general_success_partial`, `C92_general_undefined_partial`, `C92_general_failure_partial`, `C92_success_partial`, `C92_undefined_partial`, `C92_failure_partial`, `C93_fields_partial`, `C93_failure_partial`, `C93_checked_partial`, `C94_tm_partial`, `C94_tm_with_tz_partial`, `C94_components_partial`, `C99_buffer_partial`, `C99_call_partial`, `C100_success_partial`, `C100_failure_partial`, `C100_undefined_partial`, `C102_between`, `C102_between_buffered`, `C102_char_splits`, `C102_wchar_splits`, `C103_buffer`, `C103_view`, `C103_equal`, `C103_batch`, `C103_advance`, `C103_bounded`, `C103_bounded_back_partial`, `C104_consumed_alone_partial`, `C105_string_fields_partial`, `C105_unlimited`, `C105_set_fields_partial`, `C105_set_specs_partial`, `C106_call`, `C106_buffered`, `C107_log_line_partial`, `C108_discarded_partial`, `C109_line_partial`, `C110_ranges`, `C110_tuples`, `C110_collections`, `C110_collections_default`, `C110_integers`, `C111_numbers_partial`, `C111_explicit_partial`, `C112_spaces_partial`, `C113_encodings_partial`, `C114_widened_partial`, `C114_field`, `C114_default`, `C114_same_sign_needed`, `C115_integer_partial`, `C115_default_partial`, `C115_letter_partial`, `C115_pointer_partial`, `C115_call_partial`, `C115_float_partial`, `C116_leading_zeros`, `C116_prefix`, `C116_field_plus`, `C116_field_zeros`, `C116_letter_field`, `C117_opposite`, `C117_behind_minus`, `C117_field`, `C118_utf8_partial`, `C118_utf16_partial`, `C118_wchar_partial`, `C118_violated_utf16`, `C119_utf16`, `C119_string_partial`, `C119_view_partial`, `C119_well_formed_sources`, `C119_validated`, `C119_violated`.
