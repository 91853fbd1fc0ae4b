{"id": "C01", "title": "Integer scanning of types up to 32 bits returns the mathematical value or an overflow error", "statement": "Scanning an optionally negative run of base-b digits into an integer type of at most 32 bits succeeds with exactly the mathematical value of the numeral when that value is representable, and otherwise fails with value_positive_overflow / value_negative_overflow; a wrapped or truncated value is never returned.", "quantifier": "every base 2..36, every digit string of every length (with leading zeros), every signedness, widths 8, 16 and 32, every following text", "why_tests_cant": "The number of digit strings is unbounded and the overflow test is a table lookup plus a wrap-around comparison whose correctness depends on number-theoretic facts about each base.", "anchors": ["src/scn/impl.cpp: parse_decimal_integer_fast, parse_regular_integer, check_integer_overflow, store_result", "include/scn/scan.h: scan_int"]}
{"id": "C02", "title": "64-bit integer scanning never silently wraps", "statement": "Scanning an integer into a 64-bit signed or unsigned type never returns a value different from the mathematical value of the numeral: numerals that do not fit are reported as overflow.", "quantifier": "every base 2..36, every digit string, both signs, signed and unsigned 64-bit targets", "why_tests_cant": "Only a sparse, base dependent set of digit strings (exactly maxdigits digits, wrapped value above the table bound) behaves differently; random tests essentially never hit it and the test-suite only tries max+1.", "anchors": ["src/scn/impl.cpp: check_integer_overflow, maxdigits_u64_table, min_safe_u64_table"]}
{"id": "C03", "title": "Every integer value round-trips through its textual form in every base", "statement": "For every value of every integer type, scanning its canonical numeral in base b (with '-' when negative) yields that value and consumes exactly the numeral, whatever non-digit text follows.", "quantifier": "all values of all signed/unsigned 8/16/32/64-bit types, bases 2..36, all following text not starting with a base-b digit (and, for the value 0 in bases 2, 8 and 16, not continuing it into a base prefix such as 0x1)", "why_tests_cant": "2^64 values times 35 bases; corner cases (min value, digit counts equal to the table maximum) are where the check could misfire.", "anchors": ["src/scn/impl.cpp: parse_integer_value, store_result", "include/scn/scan.h: scan_int"]}
{"id": "C04", "title": "The 8-bytes-at-a-time decimal test and conversion equal digit-by-digit processing", "statement": "The word test accepts eight bytes exactly when all eight are ASCII decimal digits, and for such bytes the multiply-shift conversion gives the decimal value of the eight digits.", "quantifier": "all 2^64 values of an 8-byte word", "why_tests_cant": "2^64 inputs; the trick depends on carries and borrows crossing byte lanes.", "anchors": ["src/scn/impl.cpp: is_word_made_of_eight_decimal_digits_fast, parse_eight_decimal_digits_unrolled_fast, loop_parse_if_eight_decimal_digits"]}
{"id": "C05", "title": "The fast decimal path and the general path agree", "statement": "For base 10 the fast path used for narrow sources and the general per-digit path used elsewhere return the same result (value or error) and consume the same characters for the same input.", "quantifier": "every narrow input string, every integer type", "why_tests_cant": "Unbounded inputs; the two paths have different loop structure and different treatment of eight-digit groups.", "anchors": ["src/scn/impl.cpp: parse_decimal_integer_fast_impl, parse_regular_integer, parse_integer_value"]}
{"id": "C06", "title": "scan_int_exhaustive_valid agrees with the numeral's value on its documented domain", "statement": "On an input satisfying the documented preconditions (non-empty, only an in-range base-10 integer, optional leading '-') scan_int_exhaustive_valid returns the value of the numeral.", "quantifier": "every valid in-range numeral of every integer type (any number of leading zeros)", "why_tests_cant": "Unbounded domain; it skips checks so correctness rests on arithmetic alone.", "anchors": ["src/scn/impl.cpp: parse_integer_value_exhaustive_valid", "include/scn/scan.h: scan_int_exhaustive_valid"]}
{"id": "C07", "title": "Base prefixes are recognised exactly as documented", "statement": "With base detection, 0x/0X selects 16, 0b/0B 2, 0o/0O or a bare leading 0 selects 8, anything else 10; with an explicit base the matching prefix is optional; a prefix without following digits is never lost: the leading zero is still scanned as the value 0.", "quantifier": "every input string, every requested base 0 or 2..36", "why_tests_cant": "Unbounded input space with interacting prefix, sign and zero handling.", "anchors": ["src/scn/impl.h: parse_integer_prefix, parse_integer_bin_base, parse_integer_hex_base, parse_integer_oct_base, reader_impl_for_int"]}
{"id": "C08", "title": "A minus sign is rejected for unsigned decimal, accepted signs do not change the digits", "statement": "The sign step consumes at most one leading '+' or '-', reports the sign, and leaves the remaining text untouched; a '-' in front of an unsigned target is an error rather than a wrapped value.", "quantifier": "every source string, every integer type", "why_tests_cant": "Unbounded inputs.", "anchors": ["src/scn/impl.h: parse_numeric_sign, reader_impl_for_int::read_default, read_specs"]}
{"id": "C09", "title": "A failed integer scan consumes nothing that changes the target", "statement": "If the text at the read position does not begin with a digit of the base, the scan fails with invalid_scanned_value and the destination object keeps its previous value.", "quantifier": "every base, every non-digit leading text, every previous value of the destination", "why_tests_cant": "Quantifies over all texts and prior states.", "anchors": ["src/scn/impl.cpp: parse_integer_value", "src/scn/impl.h: reader_impl_for_int"]}
{"id": "C10", "title": "Thousands separators are transparent to the value", "statement": "With localized integer scanning, a digit run with thousands separators scans to the same value as the digit run with the separators removed; a numeral with no separators behaves as in the non-localized case.", "quantifier": "every digit string with separators anywhere after the first digit, every base, every separator character that is not a digit", "why_tests_cant": "Unbounded combinations of separator positions.", "anchors": ["src/scn/impl.h: parse_integer_digits_with_thsep, parse_integer_digits_without_thsep"]}
{"id": "C11", "title": "UTF-8 decoding inverts encoding", "statement": "Decoding the UTF-8 encoding of any Unicode scalar value, followed by any text, yields exactly that code point and stops right after its last byte.", "quantifier": "all 1,112,064 scalar values, all following byte strings", "why_tests_cant": "Suffix is unbounded; table driven length logic and masking per length class.", "anchors": ["include/scn/scan.h: code_point_length_by_starting_code_unit, decode_utf8_code_point_exhaustive, decode_utf8_code_point_exhaustive_valid", "src/scn/impl.h: get_next_code_point"]}
{"id": "C12", "title": "UTF-16 decoding inverts encoding", "statement": "Decoding the UTF-16 encoding of any scalar value, followed by any text, yields that code point and consumes exactly its one or two units; unpaired surrogates decode to the invalid marker.", "quantifier": "all scalar values, all following unit strings, all unpaired surrogates", "why_tests_cant": "Unbounded suffix.", "anchors": ["include/scn/scan.h: decode_utf16_code_point_exhaustive, utf16 code_point_length_by_starting_code_unit"]}
{"id": "C13", "title": "Decoding arbitrary bytes always makes progress and stays within the input", "statement": "On any non-empty byte or unit sequence, valid or not, fetching the next code point consumes at least one unit, never more than are available, so that repeated decoding partitions the input into consecutive non-empty pieces.", "quantifier": "every finite sequence of code units, including malformed ones", "why_tests_cant": "Malformed inputs are unbounded; a single non-progress case is an endless loop, a single overrun is a memory error.", "anchors": ["src/scn/impl.h: get_next_code_point, get_start_for_next_code_point, for_each_code_point"]}
{"id": "C14", "title": "Validated narrow strings are well-formed UTF-8", "statement": "A narrow string accepted by the library's Unicode validation (the check applied to every scanned string) is well-formed UTF-8 as the Unicode standard defines it; conversely every well-formed string is accepted.", "quantifier": "every byte string", "why_tests_cant": "Overlong and surrogate encodings are a vanishing fraction of byte strings.", "anchors": ["src/scn/impl.h: validate_unicode", "include/scn/scan.h: decode_utf8_code_point_exhaustive"]}
{"id": "C15", "title": "Transcoding between narrow and wide strings preserves the code points", "statement": "Scanning a well-formed narrow source into a wide string (and vice versa) yields a string denoting the same code point sequence; narrow to wide and back is the identity.", "quantifier": "every well-formed string", "why_tests_cant": "Unbounded strings, every plane.", "anchors": ["src/scn/impl.h: transcode_valid_to_string_impl, transcode_to_string, encode_code_point"]}
{"id": "C16", "title": "The whitespace set is the documented one and is independent of the search path", "statement": "The word-at-a-time search for whitespace / non-whitespace returns the same position as testing characters one at a time against the Unicode Pattern_White_Space set, for every well-formed source.", "quantifier": "every source string, any position of ASCII / non-ASCII characters relative to 8-byte blocks", "why_tests_cant": "Depends on alignment of multi-byte characters relative to blocks, unbounded.", "anchors": ["src/scn/impl.cpp: find_classic_impl, has_nonascii_char_64, find_classic_space_narrow_fast, find_classic_nonspace_narrow_fast", "include/scn/scan.h: is_cp_space", "src/scn/impl.h: is_ascii_space"]}
{"id": "C17", "title": "Byte-lane bit tricks are exact", "statement": "The zero-byte, byte-between, byte-greater, first-matching-byte, byteswap and log2 primitives compute what they are named for.", "quantifier": "all 64-bit words (and parameters in the documented range)", "why_tests_cant": "2^64 inputs each.", "anchors": ["src/scn/impl.h: has_zero_byte, has_byte_between, has_byte_greater, get_index_of_first_matching_byte, get_index_of_first_nonmatching_byte, log2_fast, log2_pow2_fast, byteswap"]}
{"id": "C18", "title": "Scanning words with {} splits the source on whitespace", "statement": "Scanning n strings with n default fields from a source made of n non-empty whitespace-free words separated by non-empty whitespace (with optional leading whitespace) returns exactly those words, and the unused range starts right after the last word.", "quantifier": "every n, every choice of words and separators", "why_tests_cant": "Unbounded.", "anchors": ["src/scn/impl.h: word_reader_impl, read_until_classic_space, skip_classic_whitespace", "src/scn/impl.cpp: vscan_internal"]}
{"id": "C19", "title": "Every argument is assigned at most once, and all of them on success", "statement": "In one scan call, no destination argument is written twice, and if the call succeeds every argument has been written exactly once.", "quantifier": "every format string (well-formed or not), every source, every number of arguments below 64", "why_tests_cant": "All format strings; manual and automatic indexing interplay.", "anchors": ["src/scn/impl.cpp: format_handler_base::get_arg/set_arg_as_visited/check_args_exhausted, format_handler::on_replacement_field"]}
{"id": "C20", "title": "No argument is written after the first failure", "statement": "Once a literal mismatch or field failure has occurred in a scan call, no later argument is written and the call reports an error.", "quantifier": "every format string, source and argument list", "why_tests_cant": "Requires reasoning about all continuations of the format parser after a failure.", "anchors": ["src/scn/impl.cpp: format_handler::on_visit_scan_arg, on_literal_text", "include/scn/scan.h: parse_format_string"]}
{"id": "C21", "title": "The reported error is the cause of the failure", "statement": "The error code returned by a failed scan is the code of the first failing literal or field, not of a later consequence.", "quantifier": "every format string with any number of fields, every source", "why_tests_cant": "Depends on which argument fails and how many follow.", "anchors": ["src/scn/impl.cpp: format_handler_base::check_args_exhausted, on_error", "include/scn/scan.h: parse_format_string"]}
{"id": "C22", "title": "Mixing automatic and manual argument indexing is rejected", "statement": "A format string that uses both {} and {N} fields is rejected with invalid_format_string, whether checked at compile time or at run time.", "quantifier": "every format string with both kinds of fields", "why_tests_cant": "All interleavings.", "anchors": ["include/scn/scan.h: basic_scan_parse_context::next_arg_id, check_arg_id, format_string_checker", "src/scn/impl.cpp: format_handler"]}
{"id": "C23", "title": "Scanning more than 64 arguments is well-defined", "statement": "With any number of arguments the visited bookkeeping stays inside its storage and success is reported exactly when every argument was visited.", "quantifier": "every argument count", "why_tests_cant": "Tests use few arguments; behaviour depends on n modulo 8.", "anchors": ["src/scn/impl.cpp: format_handler_base visited_args_lower64 / visited_args_upper"]}
{"id": "C24", "title": "Literal text in the format string matches itself", "statement": "Literal (non-whitespace) text in the format, including {{ and }} escapes, matches exactly the same text in the source and nothing else; a mismatch is invalid_literal.", "quantifier": "every literal text and source", "why_tests_cant": "Unbounded literal texts; non-ASCII characters.", "anchors": ["src/scn/impl.cpp: format_handler::on_literal_text", "include/scn/scan.h: parse_format_string_impl"]}
{"id": "C25", "title": "Whitespace in the format string matches any amount of whitespace", "statement": "A whitespace character in the format string consumes all whitespace (possibly none) at the source position and nothing else.", "quantifier": "every run of whitespace, every source", "why_tests_cant": "Unbounded.", "anchors": ["src/scn/impl.cpp: format_handler::on_literal_text"]}
{"id": "C26", "title": "Parsing a format string terminates without reading outside it", "statement": "Parsing any format string terminates, and every position inspected lies inside the string, whether the string is valid or not.", "quantifier": "every sequence of format characters", "why_tests_cant": "All strings, including pathological re-entry after errors.", "anchors": ["include/scn/scan.h: parse_format_string, parse_replacement_field, parse_format_specs"]}
{"id": "C27", "title": "Numbers inside format specifications are read exactly or rejected", "statement": "Width, precision and argument id numbers are parsed to their exact value, and any number exceeding the int range is rejected rather than wrapped.", "quantifier": "every digit string", "why_tests_cant": "Unbounded digit strings, wrap-around detection.", "anchors": ["include/scn/scan.h: parse_simple_int, parse_arg_id, parse_width, parse_precision"]}
{"id": "C28", "title": "Format specifications round-trip", "statement": "Writing a specification (fill, alignment, width, precision, L, type) in the documented grammar and parsing it yields the same specification.", "quantifier": "every combination of fields with any fill other than { and any width/precision up to INT_MAX", "why_tests_cant": "Unbounded widths/fill characters and combinations.", "anchors": ["include/scn/scan.h: parse_format_specs, parse_align, parse_width, parse_precision, parse_presentation_type"]}
{"id": "C29", "title": "Each argument type accepts exactly the documented presentation types", "statement": "The per-type specification check accepts a presentation type exactly when the documentation lists it for that type.", "quantifier": "all argument types times all presentation types", "why_tests_cant": "Finite but cross-product is not covered by tests, and the check relies on the numeric order of an enum.", "anchors": ["include/scn/scan.h: check_int_type_specs, check_char_type_specs, check_string_type_specs, check_bool_type_specs, check_pointer_type_specs, check_float_type_specs"]}
{"id": "C30", "title": "Character-set fields match exactly the described set", "statement": "[...] accepts precisely the listed characters and inclusive ranges, [^...] precisely the others, and the field consumes the longest non-empty prefix of such characters.", "quantifier": "every set text and source", "why_tests_cant": "Sets over all code points and unbounded sources.", "anchors": ["include/scn/scan.h: parse_presentation_set, specs_setter::on_charset_single/on_charset_range", "src/scn/impl.h: character_set_reader_impl, specs_helper, nonascii_specs_handler"]}
{"id": "C31", "title": "A scan buffer presents exactly the underlying source", "statement": "Reading through the segmented buffer (putback area plus current view) yields at each position exactly the character at that position of the underlying source, independent of how fills are split and of revisiting earlier positions.", "quantifier": "every source, every chunking, every interleaving of fills and position accesses", "why_tests_cant": "All chunkings and access orders.", "anchors": ["include/scn/scan.h: basic_scan_buffer, get_segment_starting_at, get_character_at, basic_scan_forward_buffer_impl::fill"]}
{"id": "C32", "title": "Nested scanning sees the remaining source unchanged", "statement": "A scan started from the unused range of a scan context (as custom scanners do) sees exactly the remaining characters of the source.", "quantifier": "every source kind, every split between putback area and current view, every start position", "why_tests_cant": "Depends on internal buffer state at time of nesting.", "anchors": ["include/scn/scan.h: basic_scan_ref_buffer"]}
{"id": "C33", "title": "After scanning from a file or stream, the next unread character is the first unconsumed one", "statement": "After a scan from a FILE the following read of the file (by anything) starts at the first character not consumed by the scan.", "quantifier": "every file content, chunking and consumed amount", "why_tests_cant": "All buffer splits.", "anchors": ["src/scn/impl.h: basic_scan_file_buffer::sync", "src/scn/impl.cpp: sync_after_vscan"]}
{"id": "C34", "title": "The returned unused range is a suffix of the source", "statement": "On success the unused range returned is a suffix of the source, and its distance from the beginning is the number of characters consumed by the fields and literals in order.", "quantifier": "every source and format", "why_tests_cant": "Unbounded.", "anchors": ["src/scn/impl.cpp: vscan_internal, sync_after_vscan", "include/scn/scan.h: make_vscan_result_range"]}
{"id": "C35", "title": "Precision limits the consumed text width", "statement": "A field with precision p never consumes text of displayed width more than p, and it is offered the longest prefix within that width.", "quantifier": "every well-formed source, every p >= 1", "why_tests_cant": "Unbounded; wide characters straddling the limit.", "anchors": ["src/scn/impl.h: take_width_view, counted_width_iterator, calculate_text_width"]}
{"id": "C36", "title": "Minimum width and fill are enforced", "statement": "A field with width w succeeds only if the consumed field (value with its fill) has displayed width at least w; fill characters are consumed only on the side(s) the alignment permits and never beyond the precision.", "quantifier": "every source, width, precision, fill and alignment", "why_tests_cant": "Combination explosion.", "anchors": ["src/scn/impl.h: arg_reader, skip_fill, check_widths_for_arg_reader"]}
{"id": "C37", "title": "Boolean scanning accepts exactly the documented spellings", "statement": "A default bool field accepts exactly 0, 1, true and false (as a prefix of the remaining text) with the corresponding value; text-only and number-only presentations accept only their spelling.", "quantifier": "every source", "why_tests_cant": "Unbounded sources; case and prefix effects.", "anchors": ["src/scn/impl.h: bool_reader, read_classic, read_numeric, read_textual_classic"]}
{"id": "C38", "title": "Character fields read exactly one character", "statement": "A char/wchar_t/char32_t field consumes exactly one code unit / code point of the source and yields it, without skipping whitespace.", "quantifier": "every source", "why_tests_cant": "All encodings of all characters.", "anchors": ["src/scn/impl.h: char_reader, code_point_reader, reader_impl_for_char"]}
{"id": "C39", "title": "The float reader consumes exactly a floating-point numeral", "statement": "The text handed to the float conversion is of the documented form (sign, then inf/infinity/nan/nan(n-chars), or hex float, or decimal with optional exponent) and is the longest such prefix.", "quantifier": "every source and allowed float presentation", "why_tests_cant": "Unbounded input grammar.", "anchors": ["src/scn/impl.h: float_reader::read_source_impl, read_inf, read_nan, read_exponent, read_hexfloat, read_regular_float"]}
{"id": "C40", "title": "Case-insensitive matching only equates letters of different case", "statement": "Where the library matches text ignoring case (inf, nan, 0X, p/e exponent, am/pm), a source matches exactly when it equals the text up to ASCII letter case.", "quantifier": "every source", "why_tests_cant": "Requires every byte value; tests only use letters.", "anchors": ["src/scn/impl.h: fast_streq_nocase, read_matching_string_classic_nocase", "src/scn/impl.cpp: tm_reader::try_one_of_str_nocase"]}
{"id": "C41", "title": "Contiguous and segmented sources give the same result", "statement": "Scanning the same characters from a string and from a non-contiguous source returns the same values, errors and remaining input.", "quantifier": "every source, every chunking, every format", "why_tests_cant": "All chunkings of all inputs.", "anchors": ["src/scn/impl.h: read_until_classic_space, read_while_classic_space, read_until_code_unit, read_while_code_point, read_matching_string_classic_nocase"]}
{"id": "C42", "title": "scan_value and scan with {} agree", "statement": "scan_value<T>(s) and scan<T>(s, \"{}\") return the same value, error and remaining range.", "quantifier": "every type and source", "why_tests_cant": "Two separate code paths over unbounded sources.", "anchors": ["src/scn/impl.cpp: vscan_internal simple-format fast path, vscan_value_internal"]}
{"id": "C43", "title": "12-hour clock conversion is correct", "statement": "Parsing an hour 1..12 together with am/pm sets the 24-hour hour per the civil convention (12am = 0, 12pm = 12, else +12 for pm).", "quantifier": "all hours and both markers, either order", "why_tests_cant": "Exercised through state machine with order dependence.", "anchors": ["include/scn/chrono.h: setter_state::handle_am_pm", "src/scn/impl.cpp: datetime_setter"]}
{"id": "C44", "title": "Two-digit years and centuries combine per POSIX", "statement": "%y alone maps 69..99 to 1969..1999 and 0..68 to 2000..2068; %C with %y gives century*100+year; for both tm and datetime_components.", "quantifier": "all two-digit values", "why_tests_cant": "Tests cover few values; differs by destination type.", "anchors": ["include/scn/chrono.h: setter_state::handle_short_year_and_century", "src/scn/impl.cpp: datetime_setter"]}
{"id": "C45", "title": "Day-of-year parsing accepts 1..366", "statement": "%j accepts exactly 001..366 and sets the zero-based day of year, for both tm and datetime_components.", "quantifier": "all values", "why_tests_cant": "Differs by destination type.", "anchors": ["src/scn/impl.cpp: datetime_setter<datetime_components>::set_yday, datetime_setter<tm>::set_yday"]}
{"id": "C46", "title": "%T, %R, %F, %D fields round-trip", "statement": "Formatting a valid time/date with %H:%M:%S, %H:%M, %Y-%m-%d or %m/%d/%y and scanning it back gives the original fields and consumes exactly that text.", "quantifier": "all field values in range, all following text", "why_tests_cant": "Product of ranges and arbitrary suffix.", "anchors": ["src/scn/impl.cpp: tm_reader::on_iso_time, on_24_hour_time, on_iso_date, on_us_date, read_classic_unsigned_integer"]}
{"id": "C47", "title": "Conflicting date specifications are detected", "statement": "Scanning a date from more than one of weekday-only/day-of-month/day-of-year specifications is rejected exactly when they are specified together in a conflicting way, and the standard date-time format %c is accepted.", "quantifier": "all combinations of set fields", "why_tests_cant": "All combinations of flags.", "anchors": ["include/scn/chrono.h: setter_state::verify"]}
{"id": "C48", "title": "UTC offset parsing is correct", "statement": "%z scans +hh, +hhmm (and +hh:mm with E/O) to the signed offset in minutes.", "quantifier": "all offsets", "why_tests_cant": "All sign/format combinations.", "anchors": ["src/scn/impl.cpp: tm_reader::on_tz_offset"]}
{"id": "C49", "title": "Sequence scanning round-trips", "statement": "Scanning a container from [e1,e2,...,en] (whitespace allowed around brackets and separators) yields exactly the elements in order, and the unused range starts right after the closing bracket.", "quantifier": "every n and every element list, any inter-token whitespace", "why_tests_cant": "Unbounded lengths and spacing.", "anchors": ["include/scn/ranges.h: range_scanner_base_for_ranges::scan_impl, scan_str"]}
{"id": "C50", "title": "Range and tuple scanning never reads past the end", "statement": "Scanning ranges and tuples from any truncated source is an error, not an out-of-bounds read.", "quantifier": "every source, every bracket/separator setting", "why_tests_cant": "Memory errors on truncated inputs.", "anchors": ["include/scn/ranges.h: scan_str"]}
{"id": "C51", "title": "An istream-based scanner leaves the position right after what was extracted", "statement": "A value read via operator>> leaves the scan position at the first character the stream did not extract.", "quantifier": "every sequence of stream buffer operations (peek, get, unget) performed by the extractor, every source", "why_tests_cant": "All op sequences.", "anchors": ["include/scn/istream.h: basic_range_streambuf, basic_istream_scanner"]}
{"id": "C52", "title": "Argument lookup returns the argument supplied at that index", "statement": "Argument i of a scan call has the type and address of the i-th destination for all i < n, and lookups beyond n yield 'no argument'.", "quantifier": "every number and list of argument types", "why_tests_cant": "Packed/unpacked representation switch and bit packing.", "anchors": ["include/scn/scan.h: scan_arg_store, encode_types, basic_scan_args::get/type/max_size"]}
{"id": "C53", "title": "Error codes map to the documented errno-style conditions", "statement": "Every error code maps to the documented std::errc.", "quantifier": "all error codes", "why_tests_cant": "Table completeness.", "anchors": ["include/scn/scan.h: scan_error::to_errc"]}
{"id": "C54", "title": "Fill skipping and whitespace skipping never consume field text", "statement": "Skipping leading whitespace consumes exactly the maximal whitespace prefix; skipping fill consumes exactly the maximal run of the fill character within the width limit.", "quantifier": "every source", "why_tests_cant": "Unbounded.", "anchors": ["src/scn/impl.h: skip_classic_whitespace, skip_fill, read_while_classic_space"]}
{"id": "C55", "title": "Pointer fields read an optionally prefixed hexadecimal address", "statement": "A pointer field accepts an optional 0x prefix with hex digits and yields that address; any address prints-and-scans to itself.", "quantifier": "all 64-bit addresses", "why_tests_cant": "2^64 addresses.", "anchors": ["src/scn/impl.h: reader_impl_for_voidptr"]}
{"id": "C56", "title": "Chrono format parsing terminates inside the format string", "statement": "Parsing any chrono format specification inspects only positions inside the format string and terminates.", "quantifier": "every format specification text", "why_tests_cant": "Non-ASCII literals at the end of the format.", "anchors": ["include/scn/chrono.h: parse_chrono_format_specs"]}
{"id": "C57", "title": "Regex pattern unescaping removes exactly the escaping backslashes", "statement": "In escaped regex patterns, a backslash followed by a slash denotes a slash and all other characters are passed unchanged.", "quantifier": "every pattern", "why_tests_cant": "Unbounded.", "anchors": ["src/scn/impl.h: unescape", "include/scn/scan.h: parse_presentation_regex"]}
{"id": "C58", "title": "A regex specification yields exactly the written pattern and flags", "statement": "In a field specification {:/pattern/flags}, where slashes in the pattern are written \\/, the regular expression used for matching is exactly the pattern, with exactly the given flags.", "quantifier": "every pattern and every list of distinct supported flags", "why_tests_cant": "Unbounded patterns; interplay with fill/alignment parsing and escapes.", "anchors": ["include/scn/scan.h: parse_presentation_regex, parse_align", "src/scn/impl.h: unescape"]}
{"id": "C59", "title": "Leading whitespace is skipped and not counted in the field width", "statement": "For the types that skip whitespace, leading whitespace before the field is skipped and is counted neither in the field width nor in the precision, as documented.", "quantifier": "every source and every specification", "why_tests_cant": "All layouts of whitespace, widths and alignments.", "anchors": ["src/scn/impl.h: arg_reader::operator()", "include/scn/scan.h: documentation of width and fill and align"]}
{"id": "C60", "title": "Text width of code points is the documented one", "statement": "A code point is two columns wide when it is in one of the East Asian or emoji ranges named by the documentation and one otherwise.", "quantifier": "all code points", "why_tests_cant": "0x110000 code points.", "anchors": ["src/scn/impl.h: calculate_text_width_for_fmt_v10"]}
{"id": "C61", "title": "Fields and literals are processed strictly left to right", "statement": "In a format string of literal texts and default fields, each literal or field is processed at the position where the previous one ended, the i-th field fills the i-th argument, the unused range starts where the last one ended, and the first failure fails the call.", "quantifier": "every number of fields, every literal text, every source and any argument readers", "why_tests_cant": "Unbounded sequences of fields with arbitrary readers.", "anchors": ["src/scn/impl.cpp: format_handler, vscan_internal", "include/scn/scan.h: parse_format_string"]}
{"id": "C62", "title": "A printed record is read back by the same format string", "statement": "Text produced by writing integers, booleans, words, characters and addresses between literal texts is read back by the format string with the same literal texts: all values in order, and the unused range starts right after the record.", "quantifier": "every list of values and literal texts in which no value runs into what follows it", "why_tests_cant": "Arbitrary mixtures and lengths; values at the limits of their types.", "anchors": ["src/scn/impl.cpp: format_handler", "src/scn/impl.h: readers for integers, booleans, strings, characters, pointers"]}
{"id": "C63", "title": "Integer presentations of characters yield the integer", "statement": "A char or wchar_t field with an integer presentation reads an integer as integer fields do and stores it, as documented.", "quantifier": "every integer presentation and every source", "why_tests_cant": "All values.", "anchors": ["src/scn/impl.h: reader_impl_for_char::read_specs, reader_impl_for_wchar::read_specs"]}
{"id": "C64", "title": "Tuples and maps round-trip", "statement": "Scanning a tuple or pair from (m1,m2,...,mn), and a map entry from key: value, with whitespace allowed around brackets, separators and members, yields exactly the members in order, and the unused range of a tuple starts right after the closing bracket.", "quantifier": "every number of members, every mixture of member types, every whitespace", "why_tests_cant": "Arbitrary member types, including nested ranges, and arbitrary whitespace.", "anchors": ["include/scn/ranges.h: tuple_scanner, scan_str, scanner<map>"]}
{"id": "C65", "title": "Scanned date and time fields are in their ranges", "statement": "After a scan of a date or time that succeeds, each field that the format mentions is present and within its range (seconds 0-60, minutes 0-59, hours 0-23, days 1-31, months, weekdays, days of the year 0-365), and every other field is as it was before.", "quantifier": "every format, every text, std::tm and datetime_components", "why_tests_cant": "All formats and all texts, including locale-dependent ones.", "anchors": ["src/scn/impl.cpp: datetime_setter, tm_reader, verify"]}
{"id": "C66", "title": "A date or time scan leaves a tail of its source", "statement": "What a date or time scan leaves unread is a suffix of the source it was given.", "quantifier": "every format, every source of arbitrary code units, tm, tm_with_tz and datetime_components", "why_tests_cant": "Arbitrary formats and malformed sources.", "anchors": ["src/scn/impl.cpp: tm_reader, chrono_scan_inner_impl"]}
{"id": "C67", "title": "Names of months and weekdays", "statement": "The conversions for names accept the English name in full or its first three letters, in any mixture of cases, and consume exactly the name; a text that begins with no name is rejected with invalid_scanned_value.", "quantifier": "all names, all mixtures of cases, any following text, any other text", "why_tests_cant": "Thousands of case mixtures; arbitrary rejected texts.", "anchors": ["src/scn/impl.cpp: on_month_name, on_weekday_name, try_one_of_str_nocase"]}
{"id": "C68", "title": "ISO weekday numbers", "statement": "%u reads the ISO number of a weekday, 1 for Monday to 7 for Sunday, stores that weekday (0 for Sunday to 6 for Saturday), and rejects other numbers.", "quantifier": "all digits, any text around them", "why_tests_cant": "The mapping is not covered by the tests at all.", "anchors": ["src/scn/impl.cpp: on_dec1_weekday"]}
{"id": "C69", "title": "Date and time scans are well-defined", "statement": "A scan of a date or time has no undefined behaviour, whatever its format and the text.", "quantifier": "every format that parse accepts, every source of code units, tm, tm_with_tz and datetime_components", "why_tests_cant": "Arbitrary formats and texts; undefined behaviour may not show.", "anchors": ["src/scn/impl.cpp: chrono_scan_inner_impl, tm_reader, on_tz_name"]}
{"id": "C70", "title": "Calendar types", "statement": "A day, month, year, weekday, month_day, year_month or year_month_day that is written with a format that determines it is read back with that format, and what is read is always in its range; the scan is well-defined whatever the format.", "quantifier": "all dates, all formats, all calendar types, any text", "why_tests_cant": "All formats with all dates.", "anchors": ["include/scn/chrono.h: chrono_component_scanner, scanner<weekday>, scanner<day>, scanner<month>, scanner<year>, scanner<month_day>, scanner<year_month>, scanner<year_month_day>"]}
{"id": "C71", "title": "Time points", "statement": "Where local time is UTC, a date and time that is written with a format is read back with that format into a time point of the system clock of any resolution as the time since the Epoch.", "quantifier": "all dates and times, all formats, all resolutions", "why_tests_cant": "All dates and formats and resolutions; overflow.", "anchors": ["include/scn/chrono.h: time_since_unix_epoch, scanner<time_point>, datetime_components::to_tm"]}
{"id": "C72", "title": "A std::tm read directly, and one made of components", "statement": "Reading a std::tm and reading a datetime_components with the same format succeed on the same texts, consume the same, and to_tm of the components is the std::tm.", "quantifier": "all formats, every source of code units", "why_tests_cant": "All formats and texts, including malformed ones.", "anchors": ["src/scn/impl.cpp: datetime_setter<tm>, datetime_setter<datetime_components>", "include/scn/chrono.h: datetime_components::to_tm"]}
{"id": "C73", "title": "Localized floating-point numbers", "statement": "With the flag L, a floating-point number with the thousands separator and the decimal point of the locale is read, exactly, as the number without the separators.", "quantifier": "every locale's separator and point, every number, every source, any following text", "why_tests_cant": "All locales and numbers; the tests have one locale.", "anchors": ["src/scn/impl.h: float_reader::read_source_localized, handle_separators, parse_value"]}
{"id": "C74", "title": "No input is undefined behaviour", "statement": "Whatever format string the library accepts, and whatever the source contains (malformed, truncated, empty, in any buffer), a scan returns a result: no undefined behaviour, and what is left of the source is its end.", "quantifier": "every format string, every source of code units, every buffer layout, any number of destinations of every type", "why_tests_cant": "Arbitrary format strings with arbitrary malformed sources; undefined behaviour may not show when it is run.", "anchors": ["src/scn/impl.cpp: vscan_internal", "src/scn/impl.h: arg_reader, scanner_widths, read_string_impl, character_set_reader_impl"]}
{"id": "C75", "title": "What is read is not left dangling", "statement": "If the compile-time check accepts a format string for destinations of which one points into the source (string views, regex matches), the source is contiguous and outlives the call.", "quantifier": "every format string, all lists of destination types, all kinds of sources", "why_tests_cant": "All format strings; a dangling view often still shows the right text.", "anchors": ["include/scn/scan.h: compile_parse_context::check_arg_can_be_read, scanner_parse_for_builtin_type"]}
{"id": "C76", "title": "Strings read are parts of the source", "statement": "A string or string view that is read consists of whole characters of the source, one after another, without a change but the one of encoding; what is left of the source begins behind it.", "quantifier": "every source of code units (malformed too), all encodings of source and destination, all specifications", "why_tests_cant": "All malformed texts, encodings and buffers.", "anchors": ["src/scn/impl.h: read_string_impl, read_string_view_impl, transcode_if_necessary, word_reader_impl, character_reader_impl, character_set_reader_impl"]}
{"id": "C77", "title": "Numbers out of range in dates and times", "statement": "A number in a date or time that is out of the range of its field, or has too few digits, is rejected as an invalid value, whatever follows it.", "quantifier": "all numeric conversions with a range, all numerals, any following text, any rest of the format, every source", "why_tests_cant": "All numerals and following texts; the tests have few that are out of range.", "anchors": ["src/scn/impl.cpp: datetime_setter::set_*, read_classic_unsigned_integer"]}
{"id": "C78", "title": "Flags of regular expressions", "statement": "The flags m, s, i and n of a regular expression in a format string select the documented modes of the engine (lines, newlines, case, groups), or are rejected if the engine does not have them; no other mode is selected.", "quantifier": "all sets of flags, all three engines", "why_tests_cant": "The library is built with one engine; the tests of flags are few, and some modes make a difference on multi-line texts only.", "anchors": ["src/scn/impl.h: make_regex_flags", "include/scn/regex.h: flags"]}
{"id": "C79", "title": "Captures of regular expressions", "statement": "Scanning regex_matches with a regular expression gives one capture for each group that the engine finds for that pattern at that text, with the text and the name of the group, missing if the group is; the first is the whole match, and what is behind it remains.", "quantifier": "all patterns, flags, engines, encodings and texts, any whitespace in front", "why_tests_cant": "All patterns with any groups and names; the engines are a choice of the build.", "anchors": ["src/scn/impl.h: read_regex_matches_impl, regex_matches_reader, unescape", "include/scn/scan.h: parse_presentation_regex"]}
{"id": "C80", "title": "Strings and captures agree", "statement": "A string read with a regular expression is the first capture that regex_matches gives for it at the same text; the same text remains, and the errors are the same.", "quantifier": "all patterns, flags, engines, encodings and texts", "why_tests_cant": "The two readers are separate code for each engine; the tests do not compare them.", "anchors": ["src/scn/impl.h: read_regex_string_impl, read_regex_matches_impl, regex_string_reader_impl, regex_matches_reader"]}
{"id": "C81", "title": "Scan calls are read field by field", "statement": "A scan call with any fields (with or without specifications, numbered automatically or by hand in any order) reads from left to right: each field begins where the one before it ended. The call succeeds if all fields and texts match; each argument gets the value of its own field, and what is behind the last one remains. If one fails, the call fails, nothing behind it is read, and the arguments before it are set.", "quantifier": "all numbers and types of arguments, all specifications, all texts between the fields, every source", "why_tests_cant": "All combinations of types, specifications, orders and sources; tests have few fields at a time.", "anchors": ["src/scn/impl.cpp: vscan_parse_format_string, format_handler::on_replacement_field, on_format_specs, on_literal_text", "include/scn/scan.h: parse_format_string_impl, parse_replacement_field"]}
{"id": "C82", "title": "Specifications select the documented reading", "statement": "In any scan call, the type letter of a field selects the documented notation: the base of an integer, the notation of a floating-point number, the spellings of a boolean; L the locale's separators and point; a regular expression exactly the text that the engine matches.", "quantifier": "all letters, all values and texts, any whitespace in front, every position in the call, all encodings", "why_tests_cant": "All texts with all letters at all positions; a wrong reading may give a plausible value.", "anchors": ["src/scn/impl.h: arg_reader, reader_impl_for_int, reader_impl_for_float, reader_impl_for_bool, regex_string_reader_impl", "include/scn/scan.h: parse_presentation_type, do_presentation_type_check"]}
{"id": "C83", "title": "scan_int agrees with format strings", "statement": "scan_int skips whitespace and reads an integer in the given base, with the prefix of that base, or the base of the prefix for base 0; it gives the value, the rest and the errors of scan with the format string {}, {:b}, {:o}, {:x} or {:i}.", "quantifier": "all integer types, all bases, every source (for the agreement with format strings: every sequence of bytes)", "why_tests_cant": "All texts, values, types and bases; scan_int is a separate entry point that bypasses the format string.", "anchors": ["include/scn/scan.h: scan_int", "src/scn/impl.cpp: scan_int_impl", "src/scn/impl.h: reader_impl_for_int::read_default_with_base"]}
{"id": "C84", "title": "Scan calls on a file continue each other", "statement": "Any number of scan calls on a file, each with its own format and arguments, read what the same calls read from the text of the file in memory if each continues where the one before it ended; a call that fails leaves the file as it was. input() does the same with stdin.", "quantifier": "all texts, all formats and arguments, all ways the file delivers its text in pieces, any number of calls", "why_tests_cant": "All sequences of calls with all pieces; tests have files in one piece.", "anchors": ["src/scn/impl.cpp: vinput, vscan_impl, sync_after_vscan", "src/scn/impl.h: basic_scan_file_buffer"]}
{"id": "C85", "title": "The iterator that counts columns is an iterator", "statement": "The iterator that limits the width of a field counts the columns of the characters it has passed, in every text and encoding; going back undoes going forward, and the comparisons order the iterators of a text by their positions.", "quantifier": "every well-formed text, all three encodings, all positions, all limits", "why_tests_cant": "All texts and positions; backward steps and comparisons are not used by the tests.", "anchors": ["src/scn/impl.h: counted_width_iterator"]}
{"id": "C86", "title": "Names of time zones and fractions of seconds", "statement": "%Z reads the longest run of letters, digits, -, +, _ and / as the name of a time zone, and fails on a text without one; %.S reads the seconds, the decimal point and all digits that follow as the fraction.", "quantifier": "all texts, all encodings, tm_with_tz and datetime_components with any contents", "why_tests_cant": "All names and all lengths of the fraction; the characters and the scan of a set inside a scan are not covered by a table.", "anchors": ["src/scn/impl.cpp: on_tz_name, on_subsecond", "src/scn/impl.h: character_set_reader_impl"]}
{"id": "C87", "title": "An accepted date and time format is not called invalid later", "statement": "If the format of a date and time is accepted when it is parsed, a scan with it never fails with invalid_format_string, whatever the source holds; a source that does not fit the format is an invalid scanned value.", "quantifier": "all accepted formats of conversions, literal text and whitespace, every source in the three encodings and all layouts of buffers, std::tm, tm_with_tz and datetime_components with any contents", "why_tests_cant": "All formats with all sources; the check at parse time and the reader keep separate records of what was set, and tests compare neither.", "anchors": ["include/scn/chrono.h: tm_format_checker, setter_state", "src/scn/impl.cpp: tm_reader, datetime_setter"]}
{"id": "C88", "title": "Localized conversions of dates and times are read by the locale, in place", "statement": "With L before the first conversion, every conversion whose text depends on the locale is read by the locale's time_get facet with the same conversion, from the place where the conversion stands; exactly its fields are set, from what the facet has read, and the scan goes on where the facet has stopped. What the facet cannot read, or reads out of range, is an invalid scanned value.", "quantifier": "every facet, all localized conversions of the documentation, every non-empty text in the three encodings and all layouts of buffers, any whitespace in front, std::tm, tm_with_tz and datetime_components with any contents", "why_tests_cant": "Tests of localized dates need installed locales and use one conversion at a time; no test has a facet that shows where it is asked to read or for what.", "anchors": ["src/scn/impl.cpp: tm_reader::do_read_localized, read_localized, on_loc_datetime, on_loc_date, on_loc_time, on_loc_12_hour_time, on_month_name, on_weekday_name, on_short_year", "include/scn/chrono.h: parse_chrono_format_specs"]}
{"id": "C89", "title": "Without L, the modifiers E and O make no difference", "statement": "In a format without L, a conversion with the modifier E or O is accepted exactly where the same conversion without it is, and reads exactly the same; except for %Ez and %Oz, which are defined to read another text.", "quantifier": "all formats of conversions, literal text and whitespace, every source (any code units), every layout, std::tm, tm_with_tz and datetime_components with any contents", "why_tests_cant": "All formats with all sources, compared with the formats without modifiers; tests use a few modified conversions each with one text.", "anchors": ["include/scn/chrono.h: parse_chrono_format_specs", "src/scn/impl.cpp: tm_reader"]}
{"id": "C90", "title": "A tm_with_tz holds what a std::tm would hold, and the time zone", "statement": "A format accepted for a std::tm is accepted for a tm_with_tz (and that for datetime_components), and reads from every source the same fields, outcome and position; the name of the zone is then left alone. Where there is a tm_gmtoff it always agrees with tz_offset; tz_offset is set on all platforms. What is written with a format is read back into a tm_with_tz.", "quantifier": "all formats that are accepted, every source of any code units, every locale, layout and contents of the destination, platforms with and without tm_gmtoff", "why_tests_cant": "A relation between two scans for all formats and sources; tests read a few formats into one of the types.", "anchors": ["src/scn/impl.cpp: datetime_setter<tm_with_tz>, datetime_setter<std::tm>", "include/scn/chrono.h: tm_with_tz, tm_format_checker"]}
{"id": "C91", "title": "Padded values are read back by the same specification", "statement": "A value printed with a width, a fill and an alignment, as std::format prints it, is read back by the field with the same specification, and the scan goes on right after the padding; in a fixed column, whatever comes after it. A whole record is read back by the format string it was printed with.", "quantifier": "all values of integers, booleans, strings, characters, pointers and floating-point numbers, all widths, precisions, fills and alignments, all presentation types, three encodings, all layouts of buffers, any texts in between", "why_tests_cant": "All combinations of values with specifications; the tests of fills and widths read given texts and do not compare with what is printed.", "anchors": ["src/scn/impl.h: arg_reader, skip_fill", "include/scn/scan.h: format_specs"]}
{"id": "C92", "title": "Scanning can go on in the unused range", "statement": "Scanning with one format string and then, in the unused range, with another gives the same values and leaves the same rest as scanning once with the two format strings one after the other; if either way succeeds, so does the other. The unused range of every kind of source holds exactly what was not consumed.", "quantifier": "all pairs of format strings with any fields, specifications and literal text, any readers of the arguments, every source of any code units; views, strings, arrays and forward ranges", "why_tests_cant": "A relation between calls for all pairs of formats and all sources; tests continue from the unused range in a few examples.", "anchors": ["include/scn/scan.h: make_vscan_result_range, make_scan_buffer, scan_result::range", "src/scn/impl.cpp: format_handler_base, vscan_internal"]}
{"id": "C93", "title": "The result of a scan call", "statement": "On success a scan call returns one value for every argument, each the one read by the field for that argument whatever the values were initialized with, and as its range what was left of the source, for every kind of source. On failure it returns an error only. scan_value returns what scan with {} returns.", "quantifier": "all format strings and numberings of fields, any readers and initial values, every source; views, strings, arrays and forward ranges", "why_tests_cant": "All permutations of fields with all sources and initial values; tests use default-initialized values and look at the values of successful calls of one kind of source.", "anchors": ["include/scn/scan.h: scan, scan_value, fill_scan_result, make_scan_result, scan_result, make_vscan_result_range, vscan_generic"]}
{"id": "C94", "title": "A date and time is read exactly if it is written", "statement": "A scan of a date and time with a format succeeds exactly if the source, after whitespace, shows a date and time in that format, with every field in its range; then the fields of the format get the values of that date, nothing else is changed, and what is behind its text is left.", "quantifier": "all formats of literal text, whitespace and the conversions of Spec/Chrono.lean, all sources, encodings and layouts; std::tm, tm_with_tz and datetime_components", "why_tests_cant": "The sources that must be rejected are all but a few of all texts, for every format; a test of acceptance cannot show that nothing else is accepted.", "anchors": ["src/scn/impl.cpp: tm_reader, datetime_setter, try_one_of_str_nocase, chrono_scan_inner_impl", "include/scn/chrono.h: parse_tm_format"]}
{"id": "C95", "title": "An expected holds one object, which is destroyed once", "statement": "A new expected holds the value or error it was made from, or nothing if an exception is thrown. After any sequence of assignments, emplacements and exceptions it holds exactly one object, the one that has_value tells, and in the end every object that was made has been destroyed exactly once.", "quantifier": "all value and error types, with any copies and moves that may throw or not, all sequences of operations and all points at which an exception is thrown", "why_tests_cant": "The points at which an exception may be thrown multiply with the sequences of operations; the tests of expected do not throw from constructors.", "anchors": ["include/scn/scan.h: expected, expected_storage_base, expected_operations_base"]}
{"id": "C96", "title": "An assignment to an expected assigns or throws", "statement": "If an assignment to an expected or emplace returns, the expected holds what was assigned. If nothing throws, it returns. If an exception is thrown, it reaches the caller, and the expected is unchanged if it held an error.", "quantifier": "all value and error types, with any copies and moves that may throw or not, all contents before and after", "why_tests_cant": "Exceptions from copies and moves of all types; tests assign types that do not throw.", "anchors": ["include/scn/scan.h: expected::operator=, expected::emplace, assign_value, assign_common, assign_value_over_unexpected"]}
{"id": "C97", "title": "The operations of expected with functions are those of sums", "statement": "and_then, transform, or_else, transform_error, value_or and error_or apply the function exactly to the object that is there, and pass on the other; chains may be nested in either way and end at the first error.", "quantifier": "all value and error types, all functions, all contents", "why_tests_cant": "Laws for all functions; tests call the operations with a few functions.", "anchors": ["include/scn/scan.h: expected::and_then, expected::transform, expected::or_else, expected::transform_error, expected::value_or, expected::error_or"]}
{"id": "C98", "title": "Numbers are read in the classic C locale, which is then restored", "statement": "Where the C library has no conversions with a locale argument, numbers are converted in the locale C, whatever the locale of the program is, and afterwards the program has its locale again.", "quantifier": "all names of locales that exist, all conversions", "why_tests_cant": "Tests would need locales of all names installed on a platform without such conversions.", "anchors": ["src/scn/impl.h: clocale_restorer, set_clocale_classic_guard", "src/scn/impl.cpp: generic_narrow_strtod, generic_wide_strtod"]}
{"id": "C99", "title": "Scanners of custom types see the rest of the source, and the locale", "statement": "The scan member of a scanner for a type of the program sees exactly the part of the source that the fields before it have left, and the locale of the call, whether the field has a specification or not; the source goes on at the iterator it returns.", "quantifier": "all programs over the context (comparisons with the end, characters, increments, segments, the locale), all sources (contiguous, in pieces, null), all calls", "why_tests_cant": "The programs are arbitrary; tests have one or two scanners for custom types, without a locale.", "anchors": ["include/scn/scan.h: scan_buffer::forward_iterator, scan_context", "src/scn/impl.h: default_arg_reader, custom_reader", "src/scn/impl.cpp: contiguous_context_wrapper, vscan_localized_impl"]}
{"id": "C100", "title": "Doubled braces in literal texts match one brace, anywhere in a call", "statement": "In a format string with any literal texts before, between and after the fields, whose braces are written twice, the call behaves as the steps one after the other: match the text, with each doubled brace standing for one, read the argument, and so on; it stops at the first failure and reports it.", "quantifier": "all literal texts of one-unit characters and whitespace, all fields with and without specifications, automatic and explicit numbering, all sources", "why_tests_cant": "The texts, the fields and the source are arbitrary; a text is matched in pieces around the braces, and only some of the pieces are followed by a check for errors.", "anchors": ["include/scn/scan.h: parse_replacement_field, parse_format_string_impl", "src/scn/impl.cpp: format_handler::on_literal_text, check_args_exhausted"]}
{"id": "C101", "title": "What can be scanned from and into is decided by the compiler", "statement": "A scan call compiles exactly for the documented sources (files for narrow format strings, forward ranges of the character type of the format string, strings with the default traits) and destinations (types that are not const, not disabled by a flag, have a scanner and can be read from this kind of source; default constructible, move constructible, no references); refusals are explained truthfully; what is scannable as a destination is scannable as an element of a range or a tuple.", "quantifier": "all types, as far as the templates ask about them, all sets of disabled types, both character types, C++17 and C++20", "why_tests_cant": "That something does not compile is not tested by tests that compile; the combinations of types, flags and language versions are many.", "anchors": ["include/scn/scan.h: arg_mapper, is_type_disabled, is_scannable, make_value_impl, check_scan_arg_types, _make_scan_buffer::impl, make_scan_buffer", "src/scn/impl.cpp: SCN_DEFINE_SCANNER_SCAN_FOR_CTX, scanner_scan_for_builtin_type"]}
{"id": "C102", "title": "On well-formed text a scan stays between the characters", "statement": "When the source and the format string are well-formed, and the destinations are of built-in types that read whole characters, a successful call ends between two characters of the source, and every field begins, and if it is read ends, between two characters; a char, or a wchar_t from UTF-16, in contrast ends inside of every character of several units.", "quantifier": "all well-formed sources and format strings (any fills, sets, regular expressions, widths and precisions), all encodings, all layouts of the source in memory, all built-in destinations, all locales with single-unit separators", "why_tests_cant": "Every reader counts in units on its own; a test sees a split character only if its text has a character of several units just where a reader stops.", "anchors": ["src/scn/impl.cpp: vscan_impl, format_handler", "src/scn/impl.h: arg_reader, skip_fill, read_code_point_into, numeric_reader, string_reader, float_reader"]}
{"id": "C103", "title": "The iterators over a source go through it, and are moved like numbers", "statement": "A loop over the iterators of a source, from any position to the default sentinel or to the end of the common range, sees exactly the units from there on; common iterators are equal exactly if they are at the same position; advancing in a batch is incrementing that often; and advance, next, distance, prev_backtrack and less_backtrack do with positions what the sums, differences and order of numbers say, never going beyond the bound they are given.", "quantifier": "all sources (contiguous, and all kinds of buffers with all ways to cut the source into pieces), all positions, all steps, all bounds, all kinds of iterators and sentinels", "why_tests_cant": "Each helper has an overload for every kind of iterator; tests go through those that the library happens to use, with the positions it happens to pass.", "anchors": ["include/scn/scan.h: basic_scan_buffer::forward_iterator, common_forward_iterator", "src/scn/impl.h: ranges::advance, next, distance, prev_backtrack, less_backtrack"]}
{"id": "C104", "title": "What a scan has consumed is scanned the same on its own", "statement": "If a scan of a source succeeds and leaves a rest, then the same scan of the part before the rest succeeds, assigns the same values to the same arguments, and leaves nothing: no value depends on text that the scan did not consume.", "quantifier": "all format strings, all argument lists, all sources and all ways to cut them into the consumed part and the rest, all character encodings", "why_tests_cant": "Readers look ahead: at the character that ends a number, a word or a literal, and at more of the source for prefixes, separators and padding. A test with a fixed text sees one kind of lookahead at one place.", "anchors": ["src/scn/impl.cpp: vscan_impl, format_handler::on_literal_text", "src/scn/impl.h: arg_reader, default_arg_reader, parse_integer, string_reader, bool_reader, padding readers"]}
{"id": "C105", "title": "String fields take the documented text", "statement": "In any scan call, a field of a string or of a string view with any fill, alignment, width and precision takes the documented text: without a letter or with s, up to the first whitespace or, aligned to the left or centered, up to the first fill character; with c, as many characters as the precision allows, and without a precision it is an error; with a set of characters, the longest prefix of characters in the set.", "quantifier": "all destinations of strings and views, all specifications with fill, alignment, width, precision and letter, all sets, all texts, all character encodings", "why_tests_cant": "The end of the text depends on letter, alignment and fill together, and on the columns that fill and value take from the precision; a test fixes one combination.", "anchors": ["include/scn/scan.h: table of string presentation types", "src/scn/impl.h: string_reader, word_reader_impl, custom_word_reader_impl, character_reader_impl, character_set_reader_impl", "include/scn/scan.h: check_string_type_specs"]}
{"id": "C106", "title": "The locale matters only to fields that ask for it", "statement": "A scan call that is given a locale does what it does with any other locale - the same values, the same errors, the same positions - unless the format string has the flag L at the end of a field or before its letter; a field without the flag is read alike whatever the other fields ask for; dates and times whose format does not begin with L do not look at the locale either.", "quantifier": "all pairs of locales, all format strings without the flag, all built-in destinations and the three types of dates and times, all source texts, contiguous and buffered, all encodings", "why_tests_cant": "The documentation says that a locale has no effect on its own; tests of it compare a few fields under one or two locales, while any reader or any path of the format parser could look at the facets.", "anchors": ["include/scn/scan.h: scan(const Locale&, ...) documentation", "src/scn/impl.h: reader_impl_for_int, reader_impl_for_bool, reader_impl_for_float read_specs", "include/scn/scan.h: parse_format_specs", "include/scn/chrono.h: parse_chrono_format_specs", "src/scn/impl.cpp: tm_reader"]}
{"id": "C107", "title": "Dates and times in calls with other fields", "statement": "A line with dates and times among numbers, words and other values, in any order and with literal texts in between, is read back by the format string with the same literal texts, {} or {:...} for the values, and the formats of the dates: every date is read from where the field before it has stopped, the field after it begins where the date ends, the fields of the format are set in the date object and the others keep their values.", "quantifier": "all lists of fields of built-in types (with and without specifications) and of std::tm, tm_with_tz and datetime_components, all their values and formats that show them, all literal texts, all encodings", "why_tests_cant": "Tests scan a date alone; the position of a date in a call, and of the fields after it, goes through two contexts and a distance that is computed in one and applied in the other.", "anchors": ["src/scn/impl.cpp: chrono_scan_impl, chrono_scan_inner_impl", "src/scn/impl.cpp: contiguous_context_wrapper::get_custom, custom_reader", "include/scn/chrono.h: chrono_datetime_scanner"]}
{"id": "C108", "title": "A discarded value is read as one that is kept", "statement": "A call in which some arguments are scn::discard<T> reads the source as the call with T in their place does: it succeeds on the same sources and leaves the same rest, the other arguments get the same values, and it fails where the other call fails, after the same values; a specification that is wrong for T is wrong for discard<T>, and the locale is the one of the call.", "quantifier": "all lists of built-in types of which some are discarded, all format strings of literal texts and fields with and without specifications, all sources, all locales", "why_tests_cant": "Discarded values go through scanner<T> and a context of views instead of the reader of the argument; a test that looks at the values that are kept does not see where a discarded field has stopped, except by the fields after it.", "anchors": ["include/scn/scan.h: scanner<discard<T>>, scanner_parse_for_builtin_type", "src/scn/impl.cpp: scanner_scan_for_builtin_type", "src/scn/impl.h: arg_reader::operator()"]}
{"id": "C109", "title": "Lines with lists, sets, maps and tuples among other values are read back", "statement": "A line of literal texts, values and collections in turn (sequences in [], sets and maps in {}, tuples in (), nested in any way, with any whitespace around the elements), scanned with the same literal texts and {} or {:...} for the fields, gives all the values; the elements of a range are added after those it held, in order; the specification of a range is that of its elements; with L the elements are read in the locale of the call; what follows the line is left.", "quantifier": "all lines of fewer than 64 fields, all element types and nestings, all values, all whitespace, all three encodings, all locales", "why_tests_cant": "Collections are scanned as custom types, with a context of views of their own, position and specification handed over and back through the type-erased context; tests scan one collection with {} and nothing around it.", "anchors": ["include/scn/ranges.h: range_scanner::parse, range_scanner::scan, scanner<Tuple>", "src/scn/impl.cpp: scanner_scan_for_builtin_type, scan_str", "src/scn/impl.h: custom_reader"]}
{"id": "C110", "title": "Ranges and tuples are read exactly if they are written with their brackets and separators", "statement": "A scan of a sequence, a set, a map or a tuple is successful if and only if the text is its opening bracket, values that the scanner of the elements reads with a separator between any two, and its closing bracket, with any whitespace in front of each bracket and separator, and no more values than the range holds; the values read are added in order, and the source is left right after the closing bracket. In particular a missing or doubled separator, a separator in front of the closing bracket, and a missing bracket are errors.", "quantifier": "all well-formed texts, all element types that read whole characters, all nestings, all specifications of the elements, all three encodings", "why_tests_cant": "The loop looks for the closing bracket before each element, forgets the error of that look, and looks again after the loop; which malformed texts slip through is a question about all texts.", "anchors": ["include/scn/ranges.h: range_scanner_base_for_ranges::scan_impl, scan_inner_loop, scan_for_each, scan_str"]}
{"id": "C111", "title": "The numbers of arguments are only names", "statement": "If the arguments of a scan call are put in another order and the fields of the format string name them by their new numbers, the call does the same: the same result, which is the same unused range or the same error, and the same values in the same arguments; it is undefined only if the other call is. {0}, {1}, ... in order do the same as {}, {}, ...", "quantifier": "all argument lists and reorderings, all accepted specifications, all literal texts without braces, all sources, also those for which the call fails", "why_tests_cant": "There are n! orders for n arguments, each with its own bits in the record of the arguments visited, and the errors depend on which bits are set when the call stops.", "anchors": ["include/scn/scan.h: parse_arg_id, next_arg_id, check_arg_id", "src/scn/impl.cpp: format_handler::set_arg_as_visited, on_arg_id, check_args_exhausted"]}
{"id": "C112", "title": "Whitespace in the format string in front of a field that skips whitespace makes no difference", "statement": "Whitespace put in the format string directly in front of replacement fields that skip leading whitespace themselves (all types but characters, and strings that are not read by c, a set or a pattern) makes no difference to a call that succeeds: a call succeeds with it exactly if it succeeds without it, and then stores the same values in the same arguments and leaves the same unused range.", "quantifier": "all argument lists, all fields and literal texts, any number of whitespace characters of any kind at any of the fields, all well-formed sources", "why_tests_cant": "The whitespace can be any of those of Unicode, at any subset of the fields, and what follows in the source decides which of two different loops skips it; the position after each field depends on all the previous ones.", "anchors": ["src/scn/impl.cpp: format_handler::on_literal_text, visit_arg", "src/scn/impl.h: skip_ws_before_if_required, arg_reader, default_arg_reader"]}
{"id": "C113", "title": "A scan call does the same in every encoding", "statement": "A scan call does the same for narrow and wide sources: with the same arguments, the same format string and the same source, each written in the encoding at hand, it fails with the same error or leaves the same unused range, and stores the same values in the same arguments.", "quantifier": "all argument lists of integers, bool, code points, strings, pointers and floating-point numbers, all fields with and without specifications, numbered automatically or by hand, all well-formed sources, all three encodings", "why_tests_cant": "The narrow and the wide code take different paths almost everywhere (tables of bytes, words of eight bytes, std::from_chars against code points), and the places where the paths meet are anywhere in the source; tests of both use the same few ASCII texts.", "anchors": ["src/scn/impl.cpp: format_handler, vscan_impl", "src/scn/impl.h: reader_impl_for_int, reader_impl_for_float, reader_impl_for_bool, word_reader_impl, read_while_classic_space", "include/scn/scan.h: parse_format_string_impl, format_specs parser"]}
{"id": "C114", "title": "A wider integer type reads the same", "statement": "Integer types differ in their ranges only: if integer arguments of a call are replaced by wider ones of the same signedness, the call with the narrower types succeeds exactly if the call with the wider types does and the integers it stores fit the narrower types; both then store the same values in the same arguments and leave the same unused range.", "quantifier": "all argument lists and all ways to widen their integers, all fields with and without specifications (L included), all sources, well-formed or not", "why_tests_cant": "Narrow and wide types take different overflow checks, which depend on the number of digits, the base and the wrapped value; whether a later field is reached, and from where, depends on each of them.", "anchors": ["src/scn/impl.cpp: parse_integer_value, check_integer_overflow", "src/scn/impl.h: reader_impl_for_int, parse_integer_prefix, parse_integer_digits_with_thsep"]}
{"id": "C115", "title": "Numbers are read without regard to the case of letters", "statement": "Digits above 9, the prefixes 0x, 0b and 0o, the letters of exponents, infinities and NaNs may be written with upper or lower case letters: two sources that differ in the case of ASCII letters only give the same integers, pointers and floating-point numbers, and the same error or rests that differ in the case of letters only.", "quantifier": "all pairs of sources that differ in the case of letters only, all integer types, all bases from 2 to 36 and the base chosen by the prefix, all encodings, whole calls with any number of such fields", "why_tests_cant": "Tests use one spelling or the other, and few of the 2^n mixtures of both; the digit table, the test for prefixes and the fast path of contiguous sources each treat letters on their own.", "anchors": ["src/scn/impl.h: parse_integer_bin_base_prefix, parse_integer_hex_base_prefix, parse_integer_oct_base_prefix, parse_integer_prefix", "src/scn/impl.cpp: parse_integer_value"]}
{"id": "C116", "title": "A plus sign, leading zeros and the prefix of the base make no difference", "statement": "Numbers may be written with a plus sign, with leading zeros and with the prefix of their base: an integer read in a fixed base with any number of zeros in front of its first digit, or with the prefix of that base there, and any number with a plus sign in front of it instead of no sign, is the same, leaves the same unused range, and gives the same error, as without them. If the base is chosen by the prefix, it is the same as in that base without it.", "quantifier": "all integer types, all bases from 2 to 36, any number of zeros, all texts after them, all sources; for the plus sign also all floating-point texts, presentations and conversions", "why_tests_cant": "Overflow is decided by the number of digits as well as by their value, and zeros are skipped in front of that; a test does not use enough zeros in enough bases in front of values at the limits.", "anchors": ["src/scn/impl.h: parse_numeric_sign, parse_integer_prefix, parse_integer_base_prefix", "src/scn/impl.cpp: parse_integer_value"]}
{"id": "C117", "title": "A minus sign negates the number behind it", "statement": "If a text without a sign is read as a number of a signed type, then with a minus sign in front of it it is read as the opposite of that number, and leaves the same unused range. Conversely, if a text with a minus sign is read as a number, the text behind the sign is read as its opposite, except for the least value of the type, whose opposite is too large. For unsigned types and the specification u a minus sign is refused. The same holds for floating-point numbers, where too large and too small become those of the negative side.", "quantifier": "all integer types, all bases and the base chosen by the prefix, with and without L, all texts, all sources; for floating-point numbers all texts, presentations and conversions, without L", "why_tests_cant": "The negative limit is one further from zero than the positive one and has a branch of its own; a test has to hit the limits of every type in every base from both sides.", "anchors": ["src/scn/impl.h: parse_numeric_sign, parse_integer_prefix", "src/scn/impl.cpp: parse_integer_value, float_reader::parse_value"]}
{"id": "C118", "title": "A code point that is read is one of Unicode", "statement": "Whatever the source holds, well-formed text or not, if a char32_t field, or a wchar_t field over a narrow source, reads a value, the value is a Unicode scalar value (not a surrogate, and not above U+10FFFF), and the source begins with its encoding, of which nothing is left and beyond which nothing is consumed.", "quantifier": "all sources of any code units in UTF-8, UTF-16 and UTF-32, char32_t fields with and without specifications, and wchar_t fields over UTF-8", "why_tests_cant": "Malformed text that happens to decode to something looks like success; a test would have to try every malformed sequence.", "anchors": ["src/scn/impl.h: code_point_reader, read_code_point_into", "include/scn/scan.h: decode_utf8_code_point_exhaustive_valid, decode_utf16_code_point_exhaustive_valid, decode_code_point_exhaustive_valid"]}
{"id": "C119", "title": "Strings that are read are well-formed text", "statement": "Whatever the source holds, well-formed text or not, a string or string view that is read, with any specification, is well-formed text in the encoding of its character type: the encoding of a sequence of Unicode scalar values.", "quantifier": "all sources of any code units in UTF-8, UTF-16 and UTF-32, all string and string view destinations, all specifications that are accepted, all layouts", "why_tests_cant": "Malformed text has to be rejected in every position of every source; a test tries a few malformed sequences.", "anchors": ["src/scn/impl.h: validate_unicode, read_string_impl, read_string_view_impl, transcode_valid_to_string"]}
