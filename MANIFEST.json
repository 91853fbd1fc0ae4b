{
 "claims": [
  {
   "property": "C01",
   "status": "proved",
   "theorems": [
    "Scn.C01_upto32",
    "Scn.C01_reader_upto32"
   ],
   "note": "Value parser and whole reader equal the specification scanDigits/scanInt for 8/16/32-bit types in all bases. Reader version excludes byte 0x10 right after the sign on narrow contiguous sources (defect recorded under C07)."
  },
  {
   "property": "C02",
   "status": "partial",
   "theorems": [
    "Scn.C02_counterexample",
    "Scn.C02_exact_partial",
    "Scn.C02_reader_exact_partial",
    "Scn.C02_uint64_bases_partial",
    "Scn.C02_int64_plus_bases_partial",
    "Scn.C02_int64_minus_bases_partial",
    "Scn.C02_int64_decimal"
   ],
   "note": "Violated by the code: numerals of full length whose wrapped value is large are accepted. Exact behaviour characterised; exact set of correct bases proved for each signedness and sign."
  },
  {
   "property": "C03",
   "status": "proved",
   "theorems": [
    "Scn.C03_roundtrip"
   ],
   "note": "All values, all types, all bases, all following text."
  },
  {
   "property": "C04",
   "status": "proved",
   "theorems": [
    "Scn.C04_swar",
    "Scn.C04_all_words"
   ],
   "note": ""
  },
  {
   "property": "C05",
   "status": "proved",
   "theorems": [
    "Scn.C05_fast_eq_regular"
   ],
   "note": ""
  },
  {
   "property": "C06",
   "status": "partial",
   "theorems": [
    "Scn.C06_counterexample",
    "Scn.C06_partial"
   ],
   "note": "Zero padding to 20 or more digits violates an internal SCN_EXPECT (undefined behaviour) although the documented preconditions hold."
  },
  {
   "property": "C07",
   "status": "partial",
   "theorems": [
    "Scn.C07_prefix_partial",
    "Scn.C07_prefix_other_sources",
    "Scn.C07_lone_prefix",
    "Scn.C07_counterexample"
   ],
   "note": "Byte 0x10 is accepted for '0' in a prefix on contiguous narrow sources."
  },
  {
   "property": "C08",
   "status": "proved",
   "theorems": [
    "Scn.C08_minus_unsigned",
    "Scn.C08_plus_transparent",
    "Scn.C08_two_signs",
    "Scn.C08_minus_negates"
   ],
   "note": ""
  },
  {
   "property": "C09",
   "status": "proved",
   "theorems": [
    "Scn.C09_no_digits"
   ],
   "note": ""
  },
  {
   "property": "C10",
   "status": "partial",
   "theorems": [
    "Scn.C10_thsep_partial",
    "Scn.C10_transparent_partial",
    "Scn.C10_counterexample"
   ],
   "note": "False in octal after a leading zero."
  },
  {
   "property": "C11",
   "status": "proved",
   "theorems": [
    "Scn.C11_utf8_decode",
    "Scn.C11_utf8_decode_valid",
    "Scn.C11_utf8_decode_all"
   ],
   "note": ""
  },
  {
   "property": "C12",
   "status": "proved",
   "theorems": [
    "Scn.C12_utf16_decode",
    "Scn.C12_utf16_decode_all",
    "Scn.C12_lone_low",
    "Scn.C12_lone_high"
   ],
   "note": ""
  },
  {
   "property": "C13",
   "status": "proved",
   "theorems": [
    "Scn.C13_progress",
    "Scn.C13_partition",
    "Scn.C13_replacement",
    "Scn.C13_validate_total",
    "Scn.C13_validated_safe",
    "Scn.C13_unvalidated_unsafe"
   ],
   "note": "All three encodings, arbitrary units. Also: validated text meets the preconditions of the unchecked decoders."
  },
  {
   "property": "C14",
   "status": "partial",
   "theorems": [
    "Scn.C14_violated",
    "Scn.C14_wellformed_accepted_partial",
    "Scn.C14_accepted_iff_partial",
    "Scn.C14_gap_partial"
   ],
   "note": "Violated: overlong forms and surrogates are accepted. The accepted set is characterised exactly and these are shown to be the only gap."
  },
  {
   "property": "C15",
   "status": "partial",
   "theorems": [
    "Scn.C15_narrow_to_wide32_partial",
    "Scn.C15_wide32_to_narrow_partial",
    "Scn.C15_round_trip_partial",
    "Scn.C15_wide16_to_narrow_partial",
    "Scn.C15_narrow_to_wide16_partial",
    "Scn.C15_wide16_violated"
   ],
   "note": "Full for 4-byte wchar_t and for UTF-16 to UTF-8; UTF-8 to UTF-16 holds on the BMP and is violated for every supplementary code point."
  },
  {
   "property": "C16",
   "status": "proved",
   "theorems": [
    "Scn.C16_whitespace_set",
    "Scn.C16_find_space",
    "Scn.C16_find_nonspace",
    "Scn.C16_any_bytes",
    "Scn.C16_until_all_layouts",
    "Scn.C16_while_all_layouts"
   ],
   "note": "Well-formed sources of any encoding, plus arbitrary bytes on the block-wise path."
  },
  {
   "property": "C17",
   "status": "proved",
   "theorems": [
    "Scn.C17_has_zero_byte",
    "Scn.C17_has_zero_byte_first",
    "Scn.C17_has_byte_between_marks",
    "Scn.C17_has_byte_between",
    "Scn.C17_has_byte_greater",
    "Scn.C17_has_byte_greater_range",
    "Scn.C17_first_nonmatching",
    "Scn.C17_first_nonmatching_none",
    "Scn.C17_first_matching",
    "Scn.C17_first_matching_none",
    "Scn.C17_log2_fast",
    "Scn.C17_log2_pow2_fast",
    "Scn.C17_byteswap"
   ],
   "note": ""
  },
  {
   "property": "C18",
   "status": "partial",
   "theorems": [
    "Scn.C18_words_partial",
    "Scn.C18_violated_many"
   ],
   "note": "Proved for fewer than 64 words, all encodings, any whitespace; from 64 fields on no call succeeds."
  },
  {
   "property": "C19",
   "status": "partial",
   "theorems": [
    "Scn.C19_at_most_once",
    "Scn.C19_success_writes_all_partial",
    "Scn.C19_argument_skipped"
   ],
   "note": "At most once: every format string, any number of arguments. All on success: proved for format strings accepted by the compile-time check; violated for run-time format strings (a specification error can be dropped and the field silently skipped)."
  },
  {
   "property": "C20",
   "status": "proved",
   "theorems": [
    "Scn.C20_no_write_after_failure"
   ],
   "note": "Any number of arguments, any format string, arbitrary readers."
  },
  {
   "property": "C21",
   "status": "partial",
   "theorems": [
    "Scn.C21_error_masked",
    "Scn.C21_error_cause_partial",
    "Scn.C21_last_field_error_partial",
    "Scn.C21_accepted_failure_has_cause_partial"
   ],
   "note": "Violated: a failure before the last argument is reported as invalid_format_string. The set of possible codes, and the cases where the code is right, are proved."
  },
  {
   "property": "C22",
   "status": "partial",
   "theorems": [
    "Scn.C22_compile_time_ids",
    "Scn.C22_mixed_rejected_at_compile_time",
    "Scn.C22_mixed_accepted_at_run_time",
    "Scn.C22_custom_run_time_partial"
   ],
   "note": "Compile-time half proved; run-time half violated: only fields with a specification for custom types look at the error that the parse context records (proved)."
  },
  {
   "property": "C23",
   "status": "partial",
   "theorems": [
    "Scn.C23_many_never_succeed",
    "Scn.C23_many_undefined",
    "Scn.C23_many_all_read_error",
    "Scn.C23_few_well_defined_partial",
    "Scn.C23_few_success_iff_partial"
   ],
   "note": "Violated for 64 or more arguments: undefined for 64 and for numbers that are not multiples of 8, an error after reading everything for the others; proved below 64."
  },
  {
   "property": "C24",
   "status": "partial",
   "theorems": [
    "Scn.C24_literal_partial",
    "Scn.C24_literal_between_fields_partial",
    "Scn.C24_multi_unit_never_matches",
    "Scn.C24_violated"
   ],
   "note": "Proved for characters of one code unit; violated for every character of several code units (never matches)."
  },
  {
   "property": "C25",
   "status": "partial",
   "theorems": [
    "Scn.C25_whitespace_partial",
    "Scn.C25_between_fields_partial",
    "Scn.C25_violated"
   ],
   "note": "Violated only when whitespace in the format meets the end of the source."
  },
  {
   "property": "C26",
   "status": "partial",
   "theorems": [
    "Scn.C26_run_time_partial",
    "Scn.C26_compile_time_partial",
    "Scn.C26_specs_partial",
    "Scn.C26_regex_localized_violated"
   ],
   "note": "All strings; with regex match arguments those without L, because L in their specification reaches SCN_ENSURE(false). Run time: fewer than 64 arguments (C23)."
  },
  {
   "property": "C27",
   "status": "proved",
   "theorems": [
    "Scn.C27_width",
    "Scn.C27_precision",
    "Scn.C27_arg_id",
    "Scn.C27_arg_id_leading_zero"
   ],
   "note": "All digit strings for width and precision; all numbers for argument ids (leading zeros are rejected)."
  },
  {
   "property": "C28",
   "status": "partial",
   "theorems": [
    "Scn.C28_roundtrip_partial",
    "Scn.C28_width_above_precision_rejected",
    "Scn.C28_violated_bracket_fill",
    "Scn.C28_violated_wide_fill",
    "Scn.C28_wide_fill_truncated",
    "Scn.C28_pair_fill_rejected",
    "Scn.C28_violated_localized_string",
    "Scn.C28_violated_empty_before_align"
   ],
   "note": "Round trip for all documented combinations except the four violated ones; character sets and regexes are C30 and C58."
  },
  {
   "property": "C29",
   "status": "partial",
   "theorems": [
    "Scn.C29_run_time_partial",
    "Scn.C29_compile_agrees_partial",
    "Scn.C29_localized",
    "Scn.C29_violated"
   ],
   "note": "All built-in types and all specifications; the documented but rejected combinations are listed in C29_violated."
  },
  {
   "property": "C30",
   "status": "partial",
   "theorems": [
    "Scn.C30_charset_partial",
    "Scn.C30_crossing_range_violated",
    "Scn.C30_malformed_violated"
   ],
   "note": "Proved for all unambiguously written sets in which no range starts at or below U+007F and ends at or above it, all three encodings and all well-formed sources. Violated otherwise: for every range crossing the end of ASCII the ASCII characters of the range are rejected (proved for all such ranges), and on malformed sources a non-ASCII set swallows undecodable units."
  },
  {
   "property": "C31",
   "status": "proved",
   "theorems": [
    "Scn.C31_presents_source",
    "Scn.C31_segments"
   ],
   "note": "All three buffer kinds, all chunkings, all access sequences."
  },
  {
   "property": "C32",
   "status": "partial",
   "theorems": [
    "Scn.C32_violated",
    "Scn.C32_view_duplicated",
    "Scn.C32_view_lost",
    "Scn.C32_throws",
    "Scn.C32_nested_partial"
   ],
   "note": "Violated: nested scans over a refilled buffer duplicate or lose the current view, or throw; proved in the remaining states."
  },
  {
   "property": "C33",
   "status": "partial",
   "theorems": [
    "Scn.C33_buffered_partial",
    "Scn.C33_unbuffered_partial",
    "Scn.C33_unbuffered_end_undefined",
    "Scn.C33_failure_reported"
   ],
   "note": "Proved given enough ungetc capacity (otherwise reported as invalid_source_state). Violated for unbuffered files once the end has been met: giving anything back is undefined behaviour."
  },
  {
   "property": "C34",
   "status": "proved",
   "theorems": [
    "Scn.C34_unused_range",
    "Scn.C34_suffix",
    "Scn.C34_builtin_partial"
   ],
   "note": "For arbitrary readers that move forward; those of the built-in types are shown to (not of char32_t, characters of the other width and regex_matches)."
  },
  {
   "property": "C35",
   "status": "proved",
   "theorems": [
    "Scn.C35_view",
    "Scn.C35_consumed",
    "Scn.C35_malformed_unlimited",
    "Scn.C35_zero_no_limit"
   ],
   "note": "Well-formed sources; on malformed text the limit is lost (C35_malformed_unlimited). A precision of 0 is no limit (C35_zero_no_limit)."
  },
  {
   "property": "C36",
   "status": "partial",
   "theorems": [
    "Scn.C36_field_partial",
    "Scn.C36_success_partial",
    "Scn.C36_int_partial",
    "Scn.C36_string_partial",
    "Scn.C36_bool_partial",
    "Scn.C36_char_partial",
    "Scn.C36_pointer_partial",
    "Scn.C36_float_partial",
    "Scn.C36_localized_int_partial",
    "Scn.C36_localized_float_partial",
    "Scn.C36_regex_partial"
   ],
   "note": "Every well-formed source, every specification and every reader that reads whole characters; integers, strings, booleans (also with the names of the locale), code points, wide characters (in UTF-16 within the basic plane), `char` on ASCII text, addresses, floats and integers, also with the separators (and the decimal point) of a locale, and regular expressions (of an engine that matches whole characters) are shown to be such readers. Not shown for: localized octal integers (C10). The fill is the effective one: a wide fill above U+00FF is truncated (C28_violated_wide_fill)."
  },
  {
   "property": "C37",
   "status": "proved",
   "theorems": [
    "Scn.C37_spellings",
    "Scn.C37_unambiguous",
    "Scn.C37_default_field",
    "Scn.C37_localized_partial",
    "Scn.C37_violated_localized"
   ],
   "note": "All presentations, all sources. With L the locale's names are used; if one name begins with the other the longer is never read."
  },
  {
   "property": "C38",
   "status": "partial",
   "theorems": [
    "Scn.C38_char",
    "Scn.C38_code_point_partial",
    "Scn.C38_invalid_partial",
    "Scn.C38_violated_at_end",
    "Scn.C38_violated_truncated",
    "Scn.C38_violated_malformed"
   ],
   "note": "char: all sources. char32_t and wide wchar_t: well-formed text. Violated: undefined behaviour at the end of the source with a specification, and on malformed text."
  },
  {
   "property": "C39",
   "status": "partial",
   "theorems": [
    "Scn.C39_reads_longest_number",
    "Scn.C39_roundtrip_partial",
    "Scn.C39_rejects_other_text",
    "Scn.C39_same_on_all_sources_partial",
    "Scn.C39_violated"
   ],
   "note": "Whatever is read is the longest number; what is no number is rejected. The conversions fast_float and strtod are parameters that read the longest number of a text that begins with a digit. Violated: .5 is never read, nor a..f first in the hexadecimal presentation, nor nan before an unclosed parenthesis; and 0x before a non-digit depends on the source."
  },
  {
   "property": "C40",
   "status": "partial",
   "theorems": [
    "Scn.C40_counterexample",
    "Scn.C40_letters_partial",
    "Scn.C40_other_sources"
   ],
   "note": "Violated for non-letters on the contiguous narrow path."
  },
  {
   "property": "C41",
   "status": "partial",
   "theorems": [
    "Scn.C41_space_search_partial",
    "Scn.C41_space_search_ascii",
    "Scn.C41_violated_split_space",
    "Scn.C41_violated_malformed",
    "Scn.C41_violated_segment",
    "Scn.C41_later_fields_truncated",
    "Scn.C41_first_int_field_partial",
    "Scn.C41_specs_field_partial",
    "Scn.C41_default_field_partial",
    "Scn.C41_call_partial",
    "Scn.C41_specs_call_partial",
    "Scn.C41_text_field_partial",
    "Scn.C41_text_default_partial",
    "Scn.C41_text_call_partial",
    "Scn.C41_text_specs_call_partial",
    "Scn.C41_violated_call"
   ],
   "note": "Whole calls agree for ASCII (and any wide) text, however it is cut, and for all well-formed text that is cut between characters, floating-point numbers without L included, unless a field without specifications is cut short (Model/BufScan.lean). Violated: default fields after the first read only the current segment of a buffer; also when a segment boundary cuts a multi-byte whitespace character, and on malformed text; whitespace search agrees otherwise."
  },
  {
   "property": "C42",
   "status": "proved",
   "theorems": [
    "Scn.C42_value_agrees"
   ],
   "note": "With the short cut and through the general path."
  },
  {
   "property": "C43",
   "status": "proved",
   "theorems": [
    "Scn.C43_tm",
    "Scn.C43_I_p",
    "Scn.C43_p_I",
    "Scn.C43_I_p_components",
    "Scn.C43_p_I_components"
   ],
   "note": "All hours, all spellings of am/pm in any case, either order, for std::tm and datetime_components; for std::tm also inside any format."
  },
  {
   "property": "C44",
   "status": "partial",
   "theorems": [
    "Scn.C44_y",
    "Scn.C44_Cy",
    "Scn.C44_violated_components"
   ],
   "note": "Proved for std::tm. Violated for datetime_components, whose year becomes 2000 (or 0 with a century) whatever the digits are."
  },
  {
   "property": "C45",
   "status": "partial",
   "theorems": [
    "Scn.C45_tm",
    "Scn.C45_violated_components"
   ],
   "note": "Proved for std::tm. Violated for datetime_components, which accepts only 1 to 7."
  },
  {
   "property": "C46",
   "status": "partial",
   "theorems": [
    "Scn.C46_roundtrip_tm",
    "Scn.C46_roundtrip_components_partial",
    "Scn.C46_T",
    "Scn.C46_R",
    "Scn.C46_F",
    "Scn.C46_D",
    "Scn.C46_T_components",
    "Scn.C46_R_components",
    "Scn.C46_F_components"
   ],
   "note": "Proved for std::tm with any format of modelled conversions. For datetime_components without short years and late days of the year, for which it is violated (C44, C45)."
  },
  {
   "property": "C47",
   "status": "partial",
   "theorems": [
    "Scn.C47_rejected_tm_partial",
    "Scn.C47_rejected_components_partial",
    "Scn.C47_violated_c",
    "Scn.C47_violated_three_days"
   ],
   "note": "No text is accepted with a conflicting format, except formats with all three kinds of day, which are accepted (violation); %c is never accepted (violation). That compatible formats are accepted is C46."
  },
  {
   "property": "C48",
   "status": "proved",
   "theorems": [
    "Scn.C48_hhmm",
    "Scn.C48_hh_colon_mm",
    "Scn.C48_hh",
    "Scn.C48_h_colon_mm"
   ],
   "note": "All two-digit hours and minutes, both signs, any following text; datetime_components and tm_gmtoff."
  },
  {
   "property": "C49",
   "status": "partial",
   "theorems": [
    "Scn.C49_roundtrip_partial",
    "Scn.C49_integers",
    "Scn.C49_integer_sets",
    "Scn.C49_nested",
    "Scn.C49_unused",
    "Scn.C49_violated_strings"
   ],
   "note": "Proved for all elements that are read as shown (integers, floating-point numbers, booleans, characters, pointers, nested ranges and tuples), any whitespace, any brackets. (Which element types are linked is C101.) Violated for strings, which swallow separators and the closing bracket."
  },
  {
   "property": "C50",
   "status": "partial",
   "theorems": [
    "Scn.C50_ranges_partial",
    "Scn.C50_tuples_partial",
    "Scn.C50_integers",
    "Scn.C50_violated_long_bracket"
   ],
   "note": "Proved for brackets and separators of at most one code unit (the defaults). Violated for longer ones: a source that ends within one is read past its end."
  },
  {
   "property": "C51",
   "status": "partial",
   "theorems": [
    "Scn.C51_position_partial",
    "Scn.C51_violated_unget_after_peek",
    "Scn.C51_violated_second_unget",
    "Scn.C51_violated_putback"
   ],
   "note": "Proved for extractors that read, peek and stop. Violated for extractors that give characters back."
  },
  {
   "property": "C52",
   "status": "proved",
   "theorems": [
    "Scn.C52_lookup",
    "Scn.C52_type_codes"
   ],
   "note": "Any number of arguments of any types, packed and unpacked."
  },
  {
   "property": "C53",
   "status": "proved",
   "theorems": [
    "Scn.C53_conditions"
   ],
   "note": ""
  },
  {
   "property": "C54",
   "status": "proved",
   "theorems": [
    "Scn.C54_whitespace",
    "Scn.C54_fill",
    "Scn.C54_fill_any_source"
   ],
   "note": ""
  },
  {
   "property": "C55",
   "status": "proved",
   "theorems": [
    "Scn.C55_accepts",
    "Scn.C55_roundtrip"
   ],
   "note": "All digit strings, either case, with or without prefix; all 64-bit addresses."
  },
  {
   "property": "C56",
   "status": "partial",
   "theorems": [
    "Scn.C56_inside_partial",
    "Scn.C56_inside_single_partial",
    "Scn.C56_check_partial",
    "Scn.C56_empty",
    "Scn.C56_violated_end",
    "Scn.C56_violated_brace"
   ],
   "note": "Proved for any handler, for well-formed formats whose last character is one code unit, and for all formats without characters of several code units. Violated: a literal character of several code units swallows the unit behind it, beyond the end of the format or over the closing brace."
  },
  {
   "property": "C57",
   "status": "proved",
   "theorems": [
    "Scn.C57_unescape",
    "Scn.C57_unescape_text"
   ],
   "note": "All patterns."
  },
  {
   "property": "C58",
   "status": "partial",
   "theorems": [
    "Scn.C58_regex_partial",
    "Scn.C58_violated_anchor",
    "Scn.C58_violated_backslash"
   ],
   "note": "Proved for all patterns that do not start with an alignment character and in which no backslash precedes the closing slash; both exceptions are violations."
  },
  {
   "property": "C59",
   "status": "partial",
   "theorems": [
    "Scn.C59_violated",
    "Scn.C59_partial"
   ],
   "note": "Violated: whitespace is counted in width and precision, and not skipped at all with an explicit alignment. Proved without width, precision and alignment."
  },
  {
   "property": "C60",
   "status": "partial",
   "theorems": [
    "Scn.C60_blocks_partial",
    "Scn.C60_violated"
   ],
   "note": "The ranges used are an approximation of the documented ones."
  },
  {
   "property": "C61",
   "status": "partial",
   "theorems": [
    "Scn.C61_left_to_right_partial"
   ],
   "note": "Any readers; fewer than 64 fields (C23)."
  },
  {
   "property": "C62",
   "status": "partial",
   "theorems": [
    "Scn.C62_record_roundtrip_partial"
   ],
   "note": "Fewer than 64 fields (C23), literal texts of one-unit characters and whitespace (C24)."
  },
  {
   "property": "C63",
   "status": "partial",
   "theorems": [
    "Scn.C63_extent_partial",
    "Scn.C63_violated"
   ],
   "note": "Proved: what is consumed and which texts are rejected, by the size of the type. Violated: the destination keeps its previous value."
  },
  {
   "property": "C64",
   "status": "proved",
   "theorems": [
    "Scn.C64_tuple_roundtrip",
    "Scn.C64_map_entry"
   ],
   "note": "Members of any types that are read as shown (see C49)."
  },
  {
   "property": "C65",
   "status": "proved",
   "theorems": [
    "Scn.C65_tm",
    "Scn.C65_components",
    "Scn.C65_any_format_tm",
    "Scn.C65_any_format_components"
   ],
   "note": "Formats of modelled conversions: exactly the fields of the format. Any format whatever: each field is in range or unchanged. Nothing is claimed about tm_gmtoff and subseconds."
  },
  {
   "property": "C66",
   "status": "proved",
   "theorems": [
    "Scn.C66_unread"
   ],
   "note": "The locale facet and the scan of character sets are assumed to stay inside their texts."
  },
  {
   "property": "C67",
   "status": "proved",
   "theorems": [
    "Scn.C67_month",
    "Scn.C67_weekday",
    "Scn.C67_month_rejected",
    "Scn.C67_weekday_rejected"
   ],
   "note": "%b %B %h %a %A into std::tm and datetime_components."
  },
  {
   "property": "C68",
   "status": "partial",
   "theorems": [
    "Scn.C68_violated",
    "Scn.C68_rejected_partial"
   ],
   "note": "Violated for every number: each of 1 to 7 is stored as the day before, and 0 is accepted."
  },
  {
   "property": "C69",
   "status": "partial",
   "theorems": [
    "Scn.C69_tm",
    "Scn.C69_text_tm",
    "Scn.C69_tm_with_tz_partial",
    "Scn.C69_components_partial",
    "Scn.C69_violated"
   ],
   "note": "Proved for std::tm; for tm_with_tz without %Z, and datetime_components without %Z and %.S. Violated with %Z: if no name can be read, the failed result is accessed. The locale facet and the scan of character sets are assumed to be well-defined."
  },
  {
   "property": "C70",
   "status": "partial",
   "theorems": [
    "Scn.C70_roundtrip_partial",
    "Scn.C70_in_range",
    "Scn.C70_defined_partial",
    "Scn.C70_violated"
   ],
   "note": "Proved for formats that determine the type (short years, centuries and late days of the year as in C44, C45). Violated: a format that does not determine the type is accepted, and a component that is not there is accessed."
  },
  {
   "property": "C71",
   "status": "partial",
   "theorems": [
    "Scn.C71_roundtrip_partial",
    "Scn.C71_fraction_partial",
    "Scn.C71_rejected",
    "Scn.C71_violated_day",
    "Scn.C71_violated_overflow"
   ],
   "note": "Proved for formats with year, month and day, without short years, for counts that fit 64 bits. mktime is assumed to be that of UTC. Violated: without a day, a time in the month before is read; nanoseconds overflow from 2263 on."
  },
  {
   "property": "C72",
   "status": "partial",
   "theorems": [
    "Scn.C72_tm_partial",
    "Scn.C72_violated"
   ],
   "note": "Proved for all formats without short years, centuries and days of the year, which are violated for datetime_components (C44, C45)."
  },
  {
   "property": "C73",
   "status": "partial",
   "theorems": [
    "Scn.C73_localized_partial",
    "Scn.C73_violated"
   ],
   "note": "Decimal numbers that begin with a digit. Violated in locales with . for the separator (German): the decimal point is dropped, so 0,5 is read as 5 and 1.234,5 as 12345."
  },
  {
   "property": "C74",
   "status": "partial",
   "theorems": [
    "Scn.C74_field_partial",
    "Scn.C74_scan_partial",
    "Scn.C74_text_partial",
    "Scn.C74_checked_partial",
    "Scn.C74_captures_partial",
    "Scn.C74_std_captures",
    "Scn.C74_boost_captures",
    "Scn.C74_violated",
    "Scn.C74_violated_end",
    "Scn.C74_violated_captures",
    "Scn.C74_violated_chars"
   ],
   "note": "Proved for every format string, every source, every locale and fewer than 64 destinations of integers, floating-point numbers, booleans, characters of the source, pointers, strings, string views and discarded fields, with any widths, character sets and regular expressions. The regex engine, the conversion of digits and the locale are parameters that stay inside their texts. Also proved for char32_t and characters of the other width on well-formed text, if they are read without a specification. Violated for them else: with any specification at the end of the source, with precision 1 before a character of width 2, on truncated code points, and on code points above U+10FFFF. regex_matches destinations are covered, with std::regex and Boost, for format strings that were checked at compile time, and for others if they have no L and no specification without a regular expression or set; violated for them else. See C79 for RE2."
  },
  {
   "property": "C75",
   "status": "proved",
   "theorems": [
    "Scn.C75_checked",
    "Scn.C75_run_time"
   ],
   "note": "Format strings that are checked at compile time. One made by runtime_format is not checked: nothing at run time keeps a view from pointing into a temporary buffer."
  },
  {
   "property": "C76",
   "status": "partial",
   "theorems": [
    "Scn.C76_string_partial",
    "Scn.C76_string_default_partial",
    "Scn.C76_view",
    "Scn.C76_view_default"
   ],
   "note": "Strings read from text in another encoding into 2-byte wide characters are excepted if there are characters above U+FFFF (violated, C15). The regex engine and the locale are parameters."
  },
  {
   "property": "C77",
   "status": "proved",
   "theorems": [
    "Scn.C77_out_of_range",
    "Scn.C77_too_short"
   ],
   "note": "First conversion of a format, any rest; std::tm, tm_with_tz and datetime_components. %u is C68; days of the year in datetime_components are also rejected from 8 on (C45)."
  },
  {
   "property": "C78",
   "status": "partial",
   "theorems": [
    "Scn.C78_std",
    "Scn.C78_boost_partial",
    "Scn.C78_violated_boost",
    "Scn.C78_re2_partial",
    "Scn.C78_violated_re2"
   ],
   "note": "Proved for std::regex. Violated for Boost: without /s, the dot matches a newline all the same (match_not_dot_newline is not given). Violated for RE2: ^ and $ match at lines exactly if /m is not given. The meaning of the options of the engines is taken from their documentation."
  },
  {
   "property": "C79",
   "status": "partial",
   "theorems": [
    "Scn.C79_std",
    "Scn.C79_re2_partial",
    "Scn.C79_boost_partial",
    "Scn.C79_unsupported",
    "Scn.C79_violated_re2",
    "Scn.C79_violated_boost"
   ],
   "note": "Proved for std::regex; engines are parameters. Proved for RE2 if all groups with names take part in the match; violated else, as a missing capture is accessed. Proved for Boost if the texts of groups with names differ from those of all other groups; violated else, and for names in quotation marks, as names are found by comparing texts. Patterns are those of C58."
  },
  {
   "property": "C80",
   "status": "partial",
   "theorems": [
    "Scn.C80_std_partial",
    "Scn.C80_boost_partial",
    "Scn.C80_re2_partial",
    "Scn.C80_violated"
   ],
   "note": "Proved for texts that do not begin with whitespace and matches that end between two characters, if the engine finds the same match with and without groups. Violated else: whitespace is skipped in front of regex_matches only, and only strings are checked for valid text."
  },
  {
   "property": "C81",
   "status": "partial",
   "theorems": [
    "Scn.C81_success_partial",
    "Scn.C81_failure_partial",
    "Scn.C81_undefined_partial"
   ],
   "note": "Proved for any readers of the fields (also those of custom types) and fewer than 64 arguments (C23). Literal texts have no braces (C22). The error that is reported may be that of an invalid format string instead (C21)."
  },
  {
   "property": "C82",
   "status": "partial",
   "theorems": [
    "Scn.C82_integer_letters_partial",
    "Scn.C82_integer_localized_partial",
    "Scn.C82_float_letters_partial",
    "Scn.C82_float_localized_partial",
    "Scn.C82_bool_letters",
    "Scn.C82_regex_string_partial"
   ],
   "note": "Integers, floating-point numbers, booleans and strings with a regular expression, in any call of C81. Numbers are those of C02, C39 and C73, with their exceptions. Characters and pointers are C38 and C36; string letters and character sets are C29 and C30."
  },
  {
   "property": "C83",
   "status": "partial",
   "theorems": [
    "Scn.C83_reads_partial",
    "Scn.C83_reads_upto32_partial",
    "Scn.C83_roundtrip",
    "Scn.C83_agrees"
   ],
   "note": "Proved but for a control character 0x10 in front of the digits (C07); 64-bit types as in C02. The agreement with format strings holds for all bytes."
  },
  {
   "property": "C84",
   "status": "partial",
   "theorems": [
    "Scn.C84_one_call_partial",
    "Scn.C84_many_calls_partial",
    "Scn.C84_input"
   ],
   "note": "Proved for files with an accessible buffer that take back what was read ahead; else see C33. The readers are parameters that leave a tail of what they are given."
  },
  {
   "property": "C85",
   "status": "partial",
   "theorems": [
    "Scn.C85_columns",
    "Scn.C85_order_partial",
    "Scn.C85_back_partial",
    "Scn.C85_violated_greater",
    "Scn.C85_violated_back"
   ],
   "note": "Proved for counting and for <, <= and >=. Violated: > is the negation of what it should be; -- does not undo ++ at the beginning of a character of several units."
  },
  {
   "property": "C86",
   "status": "partial",
   "theorems": [
    "Scn.C86_zone",
    "Scn.C86_fraction_partial",
    "Scn.C86_fraction_exact_partial",
    "Scn.C86_fraction_double_partial",
    "Scn.C86_fraction_locale_partial",
    "Scn.C86_violated_zone",
    "Scn.C86_violated_rounding",
    "Scn.C86_violated_decimal_point"
   ],
   "note": "Proved with the scan of a set that the code uses, for the conversions alone. Of the conversion of the digits to a double, only whether it gives 1 is modelled. Violated: a text without a name is undefined behaviour, not an error; a fraction of 17 nines or more is rounded to 1, against an assertion; in wide text the decimal point of a locale is cut to a char."
  },
  {
   "property": "C87",
   "status": "partial",
   "theorems": [
    "Scn.C87_accepted_tm_partial",
    "Scn.C87_accepted_tm_with_tz_partial",
    "Scn.C87_accepted_components_partial",
    "Scn.C87_violated_literal",
    "Scn.C87_violated_months",
    "Scn.C87_violated_fraction"
   ],
   "note": "Proved for formats without %c, %Z and two conversions for the month, unless literal text is not what stands in the source. Violated: literal text that does not match is reported as an invalid format string; formats with the name and the number of a month are accepted and fail on every source that fits them, and so do formats with %S and %.S."
  },
  {
   "property": "C88",
   "status": "partial",
   "theorems": [
    "Scn.C88_localized_tm_partial",
    "Scn.C88_localized_tm_with_tz_partial",
    "Scn.C88_localized_components_partial",
    "Scn.C88_localized_invalid",
    "Scn.C88_violated_position",
    "Scn.C88_violated_short_year"
   ],
   "note": "Proved for one conversion, all of them but %EC and %Oy. Violated: every localized conversion is read from the begin of the source, not from where the one before it has ended; and for %Oy the facet is asked for %Ey."
  },
  {
   "property": "C89",
   "status": "partial",
   "theorems": [
    "Scn.C89_modifiers_partial",
    "Scn.C89_violated_week"
   ],
   "note": "Proved for all formats of the conversions of the table in Spec/Chrono.lean. Violated: %OW is accepted as a day of the week while %W is rejected, and %Ou is rejected."
  },
  {
   "property": "C90",
   "status": "proved",
   "theorems": [
    "Scn.C90_accepted",
    "Scn.C90_same",
    "Scn.C90_zone_kept",
    "Scn.C90_offsets_agree",
    "Scn.C90_roundtrip"
   ],
   "note": "For all formats and sources; the last for the formats of the conversions of Spec/Chrono.lean (%Z and %.S are in C86)."
  },
  {
   "property": "C91",
   "status": "partial",
   "theorems": [
    "Scn.C91_field_partial",
    "Scn.C91_columns_partial",
    "Scn.C91_record_partial",
    "Scn.C91_numbered_partial",
    "Scn.C91_violated_left",
    "Scn.C91_violated_confused",
    "Scn.C91_violated_record"
   ],
   "note": "Proved unless the value or what follows can be confused with its padding; records below 64 fields, with any braces in the literal texts and any numbering of the arguments. Localized fields are not covered. Violated: words and booleans without an alignment are printed at the left but only read at the right of their field; a word in a left-aligned field without the type s takes the fill with it; fill is skipped beyond the width; whitespace in the format string takes the padding of the field after it."
  },
  {
   "property": "C92",
   "status": "partial",
   "theorems": [
    "Scn.C92_general_success_partial",
    "Scn.C92_general_undefined_partial",
    "Scn.C92_general_failure_partial",
    "Scn.C92_success_partial",
    "Scn.C92_undefined_partial",
    "Scn.C92_failure_partial",
    "Scn.C92_unused",
    "Scn.C92_violated_whitespace",
    "Scn.C92_violated_array"
   ],
   "note": "Proved for automatic and explicit numbering and any literal texts of one-unit characters and whitespace, fewer than 64 arguments. Violated where the first format string ends in whitespace and the second begins with it; the last element of a character array is never scanned."
  },
  {
   "property": "C93",
   "status": "partial",
   "theorems": [
    "Scn.C93_fields_partial",
    "Scn.C93_failure_partial",
    "Scn.C93_checked_partial",
    "Scn.C93_value",
    "Scn.C93_violated_skipped"
   ],
   "note": "Proved for fewer than 64 arguments. Violated by format strings that are only checked at run time: an argument can be passed over and keeps its initial value."
  },
  {
   "property": "C94",
   "status": "partial",
   "theorems": [
    "Scn.C94_tm_partial",
    "Scn.C94_tm_with_tz_partial",
    "Scn.C94_components_partial",
    "Scn.C94_violated_am",
    "Scn.C94_violated_offset"
   ],
   "note": "Formats without %u and %Z, whose fields are different and compatible. Violated: the character 14 counts as a period in a.m. and p.m.; the hours and minutes of an offset are not checked. For datetime_components also without %y and %C, and the day of the year goes up to 7 only (C44, C45)."
  },
  {
   "property": "C95",
   "status": "partial",
   "theorems": [
    "Scn.C95_created_partial",
    "Scn.C95_lifetimes_partial",
    "Scn.C95_violated_convert",
    "Scn.C95_violated_emplace",
    "Scn.C95_violated_error",
    "Scn.C95_violated_copy",
    "Scn.C95_void_created_partial",
    "Scn.C95_void_lifetimes",
    "Scn.C95_violated_void_copy"
   ],
   "note": "Proved for errors that are copied and moved without exceptions (as scan_error) and operations that do not throw where the code relies on it. Violated: conversions lose a default value; emplace has its nothrow condition inverted; an error whose construction throws makes the value before it be destroyed twice; a copy that throws destroys an error that was never made. For expected<void, E> the assignments need no conditions at all, but the copies that throw have the same defect. Objects that have been moved from are not modelled."
  },
  {
   "property": "C96",
   "status": "partial",
   "theorems": [
    "Scn.C96_assigned_partial",
    "Scn.C96_returns",
    "Scn.C96_unchanged_partial",
    "Scn.C96_violated_swallowed",
    "Scn.C96_violated_terminated",
    "Scn.C96_violated_default",
    "Scn.C96_violated_compile",
    "Scn.C96_void"
   ],
   "note": "Violated: the assignment of a value over an error swallows exceptions; copying a std::string over an error terminates the program if the copy throws; a default constructor that throws terminates it as well; copy assignment is not compiled for types whose copies and moves may throw. That the expected is unchanged after an exception is proved for moves over errors, and for all assignments of expected<void, E>."
  },
  {
   "property": "C97",
   "status": "proved",
   "theorems": [
    "Scn.C97_refines",
    "Scn.C97_laws",
    "Scn.C97_void"
   ],
   "note": "Functions that do not throw."
  },
  {
   "property": "C98",
   "status": "partial",
   "theorems": [
    "Scn.C98_restored_partial",
    "Scn.C98_violated_long"
   ],
   "note": "Proved for names below 64 characters, in one thread. Violated: longer names are copied beyond the end of a buffer of 64. Only platforms without POSIX or Microsoft conversions with a locale use the guard."
  },
  {
   "property": "C99",
   "status": "partial",
   "theorems": [
    "Scn.C99_contiguous_partial",
    "Scn.C99_buffer_partial",
    "Scn.C99_null_partial",
    "Scn.C99_call_partial",
    "Scn.C99_violated_null",
    "Scn.C99_violated_locale"
   ],
   "note": "Violated: for the format string \"{}\" with one argument the locale of the call is not passed on; on a null source (a default constructed string_view) looking at a segment, as ranges, dates and built-in types in a scanner do, is undefined. On sources in pieces proved for scanners that look at characters one by one."
  },
  {
   "property": "C100",
   "status": "partial",
   "theorems": [
    "Scn.C100_success_partial",
    "Scn.C100_failure_partial",
    "Scn.C100_undefined_partial",
    "Scn.C100_violated_error"
   ],
   "note": "Violated for the reported error: when a text with an opening brace fails, the parser stops before the next field, whose argument then counts as missing: invalid_format_string is reported for a valid format string. Fewer than 64 arguments (C23), texts of one-unit characters and whitespace (C16)."
  },
  {
   "property": "C101",
   "status": "partial",
   "theorems": [
    "Scn.C101_destination_partial",
    "Scn.C101_is_scannable_partial",
    "Scn.C101_elements_partial",
    "Scn.C101_arguments_partial",
    "Scn.C101_source_partial",
    "Scn.C101_explanation",
    "Scn.C101_violated_regex_flag",
    "Scn.C101_violated_cpp17",
    "Scn.C101_violated_elements",
    "Scn.C101_violated_wide_ranges",
    "Scn.C101_violated_references",
    "Scn.C101_violated_traits"
   ],
   "note": "Violated: disabling char disables regex_matches; in C++17 is_scannable holds for every type without a scanner and for const types; bool, char32_t, pointers and wchar_t from narrow sources cannot be elements or discarded, as their scanners are not instantiated; ranges and tuples cannot be read from wide sources; references are not rejected; views with other traits are accepted. Types are described by what the templates ask about them; overload resolution and the rules for aggregates are encoded in the model."
  },
  {
   "property": "C102",
   "status": "proved",
   "theorems": [
    "Scn.C102_between",
    "Scn.C102_between_buffered",
    "Scn.C102_char_splits",
    "Scn.C102_wchar_splits"
   ],
   "note": "Separators and decimal points of the locale are single units and its names of truth values well-formed; segments that are read on their own end between characters; floating-point conversions read the longest numeral (ConvOk). Destinations of types of the program are left out, as their scanners can stop anywhere."
  },
  {
   "property": "C103",
   "status": "partial",
   "theorems": [
    "Scn.C103_buffer",
    "Scn.C103_view",
    "Scn.C103_equal",
    "Scn.C103_batch",
    "Scn.C103_advance",
    "Scn.C103_to",
    "Scn.C103_bounded",
    "Scn.C103_bounded_back_partial",
    "Scn.C103_violated_bound",
    "Scn.C103_distance",
    "Scn.C103_previous_partial",
    "Scn.C103_violated_previous",
    "Scn.C103_less"
   ],
   "note": "Violated: moved backward from its bound, a bidirectional iterator with a sentinel that cannot be subtracted goes beyond the bound; prev_backtrack is wrong for iterators of a buffer whose begin is not at position 0. The library itself reaches neither of the two. Iterators over a null pointer are C99."
  },
  {
   "property": "C104",
   "status": "partial",
   "theorems": [
    "Scn.C104_consumed_alone_partial",
    "Scn.C104_consumed_alone_violated"
   ],
   "note": "Violated: whitespace in the format string matches nothing before other text, but is an error at the end of the source. The positive theorem is for a rest that is empty or begins with whitespace, or for formats of ASCII characters without whitespace. Destinations: all but char, localized floating-point numbers, and wchar_t from UTF-16; contiguous sources; regex engines that look at no more than they take."
  },
  {
   "property": "C105",
   "status": "partial",
   "theorems": [
    "Scn.C105_string_fields_partial",
    "Scn.C105_unlimited",
    "Scn.C105_set_fields_partial",
    "Scn.C105_set_specs_partial",
    "Scn.C105_violated_no_letter"
   ],
   "note": "Violated: without a letter, a field aligned to the left or centered goes up to whitespace, not up to the fill character. The positive theorems cover everything else over contiguous sources; sets with no range that crosses the end of ASCII (C30)."
  },
  {
   "property": "C106",
   "status": "proved",
   "theorems": [
    "Scn.C106_call",
    "Scn.C106_buffered",
    "Scn.C106_field",
    "Scn.C106_chrono"
   ],
   "note": "Two locales with the same regular expression engine. Custom scanners are given the locale (C99) and may do what they want with it; the three date and time scanners of the library are covered."
  },
  {
   "property": "C107",
   "status": "partial",
   "theorems": [
    "Scn.C107_log_line_partial",
    "Scn.C107_violated_null"
   ],
   "note": "Contiguous sources, lines with at least one date, below 64 fields; date formats without %Z and fractions of seconds, of different and compatible fields, or one conversion that the locale of the call reads; for datetime_components without %y and %C and up to the seventh day of the year (C44, C45). Violated: on a null source (a default constructed string_view) scanning a date is undefined."
  },
  {
   "property": "C108",
   "status": "partial",
   "theorems": [
    "Scn.C108_discarded_partial",
    "Scn.C108_violated_locale",
    "Scn.C108_violated_errors"
   ],
   "note": "Contiguous sources, below 64 arguments, format strings that are well formed, also for the arguments that are kept; discarded values without L, without regular expressions, and with a width or precision from plain ASCII or wide text only. A failure may be reported as one of the format string. Violated: localized discarded values are read with the global locale instead of that of the call; with format strings checked at run time, errors in the specification of a discarded value go unnoticed."
  },
  {
   "property": "C109",
   "status": "partial",
   "theorems": [
    "Scn.C109_line_partial",
    "Scn.C109_violated_locale"
   ],
   "note": "Contiguous sources, fewer than 64 fields, no L, tuples and maps without specifications, elements that end where they can be told from what follows (a word in a list takes the comma with it, see C49_violated_strings). That ranges do not compile for wide sources, and that some element types are not linked, is C101. Violated: with L the elements of a range are read in the global locale instead of that of the call."
  },
  {
   "property": "C110",
   "status": "proved",
   "theorems": [
    "Scn.C110_ranges",
    "Scn.C110_tuples",
    "Scn.C110_collections",
    "Scn.C110_collections_default",
    "Scn.C110_integers"
   ],
   "note": "For brackets and separators of at most one character, as those of the library are; longer ones that a user sets are C50_violated_long_bracket. C110_integers spells out the elements; for other types the elements are what their scanner reads, which is the subject of the properties of that type."
  },
  {
   "property": "C111",
   "status": "partial",
   "theorems": [
    "Scn.C111_numbers_partial",
    "Scn.C111_explicit_partial",
    "Scn.C111_violated_many"
   ],
   "note": "Violated from 64 arguments on, where the order decides whether the call is undefined (see C23). Below that, for contiguous sources, built-in types, specifications that are accepted (see C28, C29) and literal texts without braces; errors for texts with braces are C100."
  },
  {
   "property": "C112",
   "status": "partial",
   "theorems": [
    "Scn.C112_spaces_partial",
    "Scn.C112_violated_width"
   ],
   "note": "Violated for fields with a width, as whitespace counts as part of their width (see C59). Proved for contiguous sources, fewer than 64 arguments, fields with nothing but L and a letter, and whitespace that does not follow other whitespace of the format string. Which error is reported if a call fails is not part of it: whitespace of the format string at the end of the source is C25."
  },
  {
   "property": "C113",
   "status": "partial",
   "theorems": [
    "Scn.C113_encodings_partial",
    "Scn.C113_violated_dle",
    "Scn.C113_violated_literal"
   ],
   "note": "Violated for sources with U+0010, which counts as the digit 0 of a prefix in narrow sources only, and for literal texts of characters of several code units (see C24). Proved for all other contiguous sources, fewer than 64 arguments, literal texts of ASCII and whitespace without braces, and specifications without sets, regular expressions and L whose fill is one code unit in UTF-16 and UTF-32 and below 256."
  },
  {
   "property": "C114",
   "status": "partial",
   "theorems": [
    "Scn.C114_widened_partial",
    "Scn.C114_field",
    "Scn.C114_default",
    "Scn.C114_same_sign_needed"
   ],
   "note": "Single fields: for all sources, contiguous or in segments. Whole calls: contiguous sources, fewer than 64 arguments, specifications without sets and regular expressions, no char32_t arguments."
  },
  {
   "property": "C115",
   "status": "partial",
   "theorems": [
    "Scn.C115_integer_partial",
    "Scn.C115_default_partial",
    "Scn.C115_letter_partial",
    "Scn.C115_pointer_partial",
    "Scn.C115_call_partial",
    "Scn.C115_float_partial",
    "Scn.C115_not_for_bool"
   ],
   "note": "The reader: all sources but those with U+0010 in front of the digits in contiguous narrow ones. Whole calls: contiguous well-formed sources without U+0010, fields without a specification or with a letter only, literal texts without letters, fewer than 64 arguments. Floating-point numbers: the reader, on all sources, for conversions that do not regard case, except where the library does not read a number as documented (C39), and without L."
  },
  {
   "property": "C116",
   "status": "proved",
   "theorems": [
    "Scn.C116_leading_zeros",
    "Scn.C116_prefix",
    "Scn.C116_plus",
    "Scn.C116_plus_float",
    "Scn.C116_field_plus",
    "Scn.C116_field_zeros",
    "Scn.C116_letter_field",
    "Scn.C116_fixed_base_needed"
   ],
   "note": "For the readers of integers and floating-point numbers, on every kind of source. Also for whole fields without a specification or with a letter, behind whitespace, on contiguous well-formed sources. Leading zeros of floating-point numbers are up to the conversions, and not claimed."
  },
  {
   "property": "C117",
   "status": "proved",
   "theorems": [
    "Scn.C117_opposite",
    "Scn.C117_behind_minus",
    "Scn.C117_refused",
    "Scn.C117_float",
    "Scn.C117_field"
   ],
   "note": "For fields with a letter in a call see C116_letter_field. Numerals that wrap instead of overflowing (C02) are covered: they wrap to opposite values. Floating-point numbers without L; copysign is a parameter that sets the sign whatever it was."
  },
  {
   "property": "C118",
   "status": "partial",
   "theorems": [
    "Scn.C118_utf8_partial",
    "Scn.C118_utf16_partial",
    "Scn.C118_utf32_partial",
    "Scn.C118_specs",
    "Scn.C118_wchar_partial",
    "Scn.C118_violated_utf8",
    "Scn.C118_violated_utf16",
    "Scn.C118_violated_utf32",
    "Scn.C118_violated_wchar"
   ],
   "note": "Violated: in UTF-32 any value is read; in UTF-16 a lead surrogate at the end of the source; in UTF-8 surrogates, values up to 0x13FFFF (undefined behaviour for wchar_t) and encodings that are longer than necessary. Proved that these are the only exceptions. Specifications without width, precision and alignment. What else is undefined behaviour instead of an error is C38."
  },
  {
   "property": "C119",
   "status": "partial",
   "theorems": [
    "Scn.C119_utf16",
    "Scn.C119_string_partial",
    "Scn.C119_view_partial",
    "Scn.C119_well_formed_sources",
    "Scn.C119_validated",
    "Scn.C119_violated"
   ],
   "note": "Proved for UTF-16 sources, into both encodings. Violated in UTF-8 and UTF-32: surrogates and encodings longer than necessary are accepted (C14); proved if the source has none of them, as every well-formed one. Strings of 2-byte characters read from other encodings are C15."
  }
 ]
}