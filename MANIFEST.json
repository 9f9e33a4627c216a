{"claims": [
 {"property": "C01", "status": "proved", "theorems": ["Verif.IntPrint.c01_unsigned_decimal"], "note": ""},
 {"property": "C02", "status": "proved", "theorems": ["Verif.IntPrint.c02_signed_decimal"], "note": ""},
 {"property": "C03", "status": "partial", "theorems": ["Verif.IntPrint.c03_base_partial", "Verif.IntPrint.c03_full_partial", "Verif.IntPrint.c03_bool", "Verif.IntPrint.c03_u128_oct_violated", "Verif.IntPrint.c03_u128_hexupper_violated"], "note": "128-bit printing in bases other than 2, 4, 10, 16 and in upper case base 16 is wrong in the code (violated theorems); every other type, base and flag combination is proved."},
 {"property": "C04", "status": "partial", "theorems": ["Verif.IntPrint.c04_reserved_size_partial", "Verif.IntPrint.c04_decimal", "Verif.IntPrint.c04_violated"], "note": "The announced size is too small for some flag combinations of the code (c04_violated); proved elsewhere, in full for decimal."},
 {"property": "C05", "status": "partial", "theorems": ["Verif.IntPrint.c05_precise_partial", "Verif.IntPrint.c05_negative_decimal_violated", "Verif.IntPrint.c05_showpos_violated", "Verif.IntPrint.c05_full_violated"], "note": "Precise printing disagrees for negative decimals, showpos and full (violated theorems); proved for the rest."},
 {"property": "C06", "status": "partial", "theorems": ["Verif.IntScan.c06_spec_functional", "Verif.IntScan.c06_scan_partial", "Verif.IntScan.c06_lone_minus_violated", "Verif.IntScan.c06_empty_violated", "Verif.IntScan.c06_avx512_zeros_violated"], "note": "Proved for every text outside the classes on which the code provably misbehaves: lone sign, empty unsigned no-skip input, vector white space defect (C51), SSE long runs (C09), digit table overrun (C10)."},
 {"property": "C07", "status": "partial", "theorems": ["Verif.IntScan.c07_round_trip_partial", "Verif.IntScan.c07_round_trip", "Verif.IntScan.c07_zero_violated"], "note": "Proved for every value, base, width and following text in the default configuration; with skipped zeros on SSE4.1 printed zero may not scan back (c07_zero_violated)."},
 {"property": "C08", "status": "partial", "theorems": ["Verif.IntScan.c08_chunks_spec_partial", "Verif.IntScan.c08_chunks_partial", "Verif.IntScan.c08_cut_after_zero_violated", "Verif.IntScan.c08_overflow_violated", "Verif.IntScan.c08_lone_minus_violated"], "note": "Proved for all chunkings without a cut after a lone leading zero or inside an over-long number; both exclusions are violated by the code."},
 {"property": "C09", "status": "partial", "theorems": ["Verif.IntScan.c09_sse_partial", "Verif.IntScan.c09_example", "Verif.IntScan.c09_position_violated", "Verif.IntScan.c09_end_violated", "Verif.IntScan.c09_skipzero_violated"], "note": "Proved for all inputs whose digit run is below 16/32 digits and no bare skipped zeros; violated otherwise."},
 {"property": "C10", "status": "partial", "theorems": ["Verif.IntScan.c10_contiguous_partial", "Verif.IntScan.c10_decimal", "Verif.IntScan.c10_chunks_partial", "Verif.IntScan.c10_table_violated", "Verif.IntScan.c10_wide_table_violated", "Verif.IntScan.c10_refill_violated", "Verif.IntScan.c10_sse_violated"], "note": "Proved in full for bases up to 10 without SSE4.1; otherwise outside the exact inputs on which the code leaves its bounds (violated theorems)."},
 {"property": "C11", "status": "proved", "theorems": ["Verif.Leb.c11_round_trip", "Verif.Leb.c11_encoding"], "note": ""},
 {"property": "C12", "status": "proved", "theorems": ["Verif.Leb.c12_chunks", "Verif.Leb.c12_value"], "note": ""},
 {"property": "C13", "status": "proved", "theorems": ["Verif.Leb.c13_in_range", "Verif.Leb.c13_overflow", "Verif.Leb.c13_incomplete", "Verif.Leb.c13_sound"], "note": ""},
 {"property": "C14", "status": "partial", "theorems": ["Verif.Lebe.c14_put_partial", "Verif.Lebe.c14_wide_byte_violated", "Verif.Lebe.c14_get", "Verif.Lebe.c14_get_wide", "Verif.Lebe.c14_round_trip_partial"], "note": "Proved on hosts of both byte orders for all sizes, types and character widths except one byte written to a wide character stream, where the code leaves the rest of the character unwritten (c14_wide_byte_violated)."},
 {"property": "C15", "status": "proved", "theorems": ["Verif.Utf.c15_text", "Verif.Utf.c15_roundtrip", "Verif.Utf.c15_injective"], "note": "Proved for every text between any two of UTF-8, UTF-16, UTF-32, UTF-EBCDIC in native byte order, with and without the SSE path; swapped byte order is C60."},
 {"property": "C16", "status": "partial", "theorems": ["Verif.Utf.c16_replaced_partial", "Verif.Utf.c16_stream", "Verif.Utf.c16_truncated_violated", "Verif.Utf.c16_utf32_partial", "Verif.Utf.c16_utf32_violated", "Verif.Utf.c16_utf32_range_violated", "Verif.Utf.c16_same_violated", "Verif.Utf.c16_ebcdic_violated", "Verif.Utf.c16_ebcdic_replacement_violated"], "note": "Proved for UTF-8 streams in full, and for single conversions of UTF-8/UTF-16 that do not end within a character or have four-byte destinations; violated for truncated input, UTF-32 and UTF-EBCDIC sources, equal encodings, UTF-EBCDIC replacement."},
 {"property": "C17", "status": "partial", "theorems": ["Verif.Utf.c17_utf8", "Verif.Utf.c17_utf16_partial", "Verif.Utf.c17_text", "Verif.Utf.c17_utf32", "Verif.Utf.c17_utf16_violated", "Verif.Utf.c17_ebcdic_violated"], "note": "Proved for UTF-8 and UTF-32 input of any content and for well-formed text in any encoding; UTF-16 with a high surrogate before a non-low unit and ill-formed UTF-EBCDIC violate it."},
 {"property": "C18", "status": "partial", "theorems": ["Verif.IoBuf.c18_transparent_partial", "Verif.IoBuf.c18_flush_partial", "Verif.IoBuf.c18_short_write_violated", "Verif.IoBuf.c18_memory_safe"], "note": "Proved in full for devices that take everything they are given; over a device that makes short writes without throwing the buffer loses data (c18_short_write_violated). Memory safety is proved for every device behaviour."},
 {"property": "C19", "status": "partial", "theorems": ["Verif.IoBuf.c19_scatter_partial", "Verif.IoBuf.c19_resend_violated", "Verif.IoBuf.c19_partial_failure_violated", "Verif.IoBuf.c19_terminate_violated"], "note": "Proved for scatter devices that throw before taking anything; violated otherwise (resend, partial failure, process termination in a noexcept flush)."},
 {"property": "C20", "status": "partial", "theorems": ["Verif.IoBuf.c20_transparent_partial", "Verif.IoBuf.c20_eof_partial", "Verif.IoBuf.c20_throw_partial", "Verif.IoBuf.c20_first_throw_violated", "Verif.IoBuf.c20_throw_loses_violated", "Verif.IoBuf.c20_flush_discards_violated"], "note": "Proved for every fragmentation without exceptions, and with exceptions once the buffer is allocated (counting the characters stored by the failing call); violated for an exception in the first read and by flush in in|out mode."},
 {"property": "C21", "status": "partial", "theorems": ["Verif.IoBuf.c21_write_all", "Verif.IoBuf.c21_scatter_write_some", "Verif.IoBuf.c21_scatter_write_all", "Verif.IoBuf.c21_scatter_write_each", "Verif.IoBuf.c21_write_all_buffered_violated", "Verif.IoBuf.c21_windows_write_violated", "Verif.IoBuf.c21_windows_scatter_violated", "Verif.IoBuf.c21_read_all_partial", "Verif.IoBuf.c21_transmit_partial", "Verif.IoBuf.c21_transmit64_partial", "Verif.IoBuf.c21_transmit_raw_partial", "Verif.IoBuf.c21_transmit64_raw_partial"], "note": "read_all, transmit, transmit64, write_all, scatter_write_some/all proved for every fragmentation by a device that makes progress; violated by buffered write_all (missing return) and by the Windows device."},
 {"property": "C22", "status": "proved", "theorems": ["Verif.Hash.c22_chunking", "Verif.Hash.c22_digest"], "note": "Proved for every compression function and for all hashes of the library."},
 {"property": "C23", "status": "proved", "theorems": ["Verif.Hash.c23_padding", "Verif.Hash.c23_two_word_counter", "Verif.Hash.c23_two_word_length"], "note": ""},
 {"property": "C24", "status": "proved", "theorems": ["Verif.Hash.c24_sha256", "Verif.Hash.c24_sha224", "Verif.Hash.c24_simd16", "Verif.Hash.c24_ni", "Verif.Hash.c24_ni_msvc", "Verif.Hash.c24_ni_blocks", "Verif.Hash.c24_alternatives"], "note": "Scalar, 128-bit vector and x86 SHA instruction routines. The SHA-NI instructions have the meaning given in the Intel manual (trusted base)."},
 {"property": "C25", "status": "proved", "theorems": ["Verif.Hash.c25_sha512", "Verif.Hash.c25_sha384", "Verif.Hash.c25_sha512_224", "Verif.Hash.c25_sha512_256", "Verif.Hash.c25_simd", "Verif.Hash.c25_alternatives"], "note": "SHA-512, 384, 512/224, 512/256 with the scalar routine and the three vector routines."},
 {"property": "C26", "status": "proved", "theorems": ["Verif.Hash.c26_sha1"], "note": "Scalar code path."},
 {"property": "C27", "status": "proved", "theorems": ["Verif.Hash.c27_md5", "Verif.Hash.c27_sine_table"], "note": ""},
 {"property": "C28", "status": "proved", "theorems": ["Verif.Hash.c28_crc32", "Verif.Hash.c28_crc32c", "Verif.Hash.c28_chunking", "Verif.Hash.c28_unique", "Verif.Hash.c28_digest_bytes"], "note": ""},
 {"property": "C29", "status": "proved", "theorems": ["Verif.Time.c29_utc", "Verif.Time.c29_fields", "Verif.Time.c29_terminates"], "note": "Proved for every timestamp on which the call returns; it terminates for the others (c29_terminates)."},
 {"property": "C30", "status": "partial", "theorems": ["Verif.Time.c30_to_timestamp_error", "Verif.Time.c30_dates_reached", "Verif.Time.c30_round_trip_partial", "Verif.Time.c30_date_round_trip_partial", "Verif.Time.c30_february_violated", "Verif.Time.c30_negative_year_violated", "Verif.Time.c30_local", "Verif.Time.c30_local_violated"], "note": "Exact error formula of to_timestamp proved for every valid date within 291e9 years; the round trip holds in months without the defect (February of leap years and most months before year 0 are a day late; time zones exceeding the time since the beginning of the month wrap at 2^32)."},
 {"property": "C31", "status": "partial", "theorems": ["Verif.Time.c31_c_weekday_partial", "Verif.Time.c31_weekday_partial", "Verif.Time.c31_weekday_violated"], "note": "Proved for all dates from March of year 0; wrong before (c31_weekday_violated)."},
 {"property": "C32", "status": "partial", "theorems": ["Verif.Time.c32_add_partial", "Verif.Time.c32_add_violated", "Verif.Time.c32_neg", "Verif.Time.c32_sub_partial", "Verif.Time.c32_sub_violated"], "note": "Sum, difference and negation proved exact except for lost 64-bit carries of fractions and subtrahends in (0,1) seconds, both violated by the code."},
 {"property": "C33", "status": "partial", "theorems": ["Verif.Time.c33_print", "Verif.Time.c33_round_trip_partial", "Verif.Time.c33_utc_round_trip", "Verif.Time.c33_zone_seconds_violated", "Verif.Time.c33_zone_day_violated", "Verif.Time.c33_least_year_violated", "Verif.Time.c33_out_of_bounds_violated", "Verif.Time.c33_fraction_range_violated"], "note": "Printed text proved for every timestamp; round trip proved except zones with seconds or of a day, and the least year, which the scanner rejects (violated theorems)."},
 {"property": "C34", "status": "partial", "theorems": ["Verif.Ip.c34_chunks_port_partial", "Verif.Ip.c34_port_eof_violated", "Verif.Ip.c34_print", "Verif.Ip.c34_reserve", "Verif.Ip.c34_scan_partial", "Verif.Ip.c34_round_trip", "Verif.Ip.c34_trailing_dot_violated", "Verif.Ip.c34_scan_port_partial", "Verif.Ip.c34_empty_port_violated", "Verif.Ip.c34_chunks_partial", "Verif.Ip.c34_zero_cut_violated", "Verif.Ip.c34_eof_violated", "Verif.Ip.c34_space_violated"], "note": "Printing proved for every address and port. Contiguous scanning proved exact except for texts ending in a dot (or an empty port), which are accepted. Chunked scanning of the address proved exact for cuts not behind a 0 octet and texts not ending in a dot or six digits; violated otherwise. Chunked scanning of an address with port is proved likewise (not for a text ending in a colon); violated at the end of the stream: a missing or far too large port is accepted as 0."},
 {"property": "C35", "status": "partial", "theorems": ["Verif.Ip.c35_print", "Verif.Ip.c35_injective", "Verif.Ip.c35_reserve", "Verif.Ip.c35_union", "Verif.Ip.c35_round_trip_partial", "Verif.Ip.c35_swapped_violated", "Verif.Ip.c35_round_trip_violated", "Verif.Ip.c35_digits_violated", "Verif.Ip.c35_truncated_violated", "Verif.Ip.c35_short_scan_violated"], "note": "Printing proved for every address in every format (RFC 5952 text, RFC 4291 meaning, injective, buffer size). Scanning: proved only for groups below 256 in the long form; the code swaps the bytes of larger groups, reads past truncated text and never accepts abbreviated text (violated theorems)."},
 {"property": "C36", "status": "partial", "theorems": ["Verif.Http.c36_sound", "Verif.Http.c36_no_header", "Verif.Http.c36_chunk_independent_partial", "Verif.Http.c36_header", "Verif.Http.c36_too_long", "Verif.Http.c36_lone_cr_violated", "Verif.Http.c36_status_line_violated", "Verif.Http.c36_reuse_violated"], "note": "Success implies a header up to the first CRLFCRLF for every input; well-formed headers are read exactly for every cut into blocks; chunk independence for headers without a lone CR (violated otherwise); violated: status lines without reason phrase, scanning into a used buffer."},
 {"property": "C37", "status": "partial", "theorems": ["Verif.Width.c37_width_partial", "Verif.Width.c37_width_runtime_partial", "Verif.Width.c37_constant_violated", "Verif.Width.c37_fill_partial", "Verif.Width.c37_fill_violated", "Verif.Width.c37_integer_partial"], "note": "Proved at run time for every placement, fill, width and item; at compile time only where no copy overlaps itself (violated otherwise); left() of an argument kept by reference fills with NUL (violated)."},
 {"property": "C38", "status": "proved", "theorems": ["Verif.Print.c38_concat", "Verif.Print.c38_concat_other", "Verif.Print.c38_append"], "note": "Proved for string types with and without a buffer, given what the string type promises of reserve and append."},
 {"property": "C39", "status": "partial", "theorems": ["Verif.Line.c39_lines_exist_unique", "Verif.Line.c39_find_partial", "Verif.Line.c39_avx512_violated", "Verif.Line.c39_lines_partial", "Verif.Line.c39_contiguous_partial", "Verif.Line.c39_contiguous_last_line_violated", "Verif.Line.c39_mutex_contiguous_violated"], "note": "Buffered streams: every text, every cut into blocks, every search variant except the one with the inverted zero test of AVX512BW (violated). Contiguous streams: texts that are empty or end with LF; violated: the last line without LF (previous line repeated), and a contiguous stream behind a mutex never ends."},
 {"property": "C40", "status": "partial", "theorems": ["Verif.Vec.c40_observers", "Verif.Vec.c40_step_partial", "Verif.Vec.c40_history_partial", "Verif.Vec.c40_reserve", "Verif.Vec.c40_copy", "Verif.Vec.c40_move", "Verif.Vec.c40_independent", "Verif.Vec.c40_alias_partial", "Verif.Vec.c40_erase_violated", "Verif.Vec.c40_erase_range_violated", "Verif.Vec.c40_alias_violated", "Verif.Vec.c40_insert_leak_violated"], "note": "Every history of the covered operations; violated: erase of one element, index ranges up to the end, empty ranges of types with a destructor, arguments that alias the vector, objects lost by insert."},
 {"property": "C41", "status": "partial", "theorems": ["Verif.Arith.c41_big_by_small", "Verif.Arith.c41_udivmod", "Verif.Arith.c41_old_udivmod_violated"], "note": "Proved for every dividend and divisor for the division of udivmod.h; the older function in intrinsics.h, used by timestamp division without __int128, is wrong (c41_old_udivmod_violated)."},
 {"property": "C42", "status": "partial", "theorems": ["Verif.Arith.c42_addc", "Verif.Arith.c42_subc", "Verif.Arith.c42_subc_msvc_violated", "Verif.Arith.c42_add_words", "Verif.Arith.c42_umul", "Verif.Arith.c42_add_or_die", "Verif.Arith.c42_add_or_die_chain", "Verif.Arith.c42_allocation", "Verif.Arith.c42_mul_or_die_partial", "Verif.Arith.c42_mul_or_die_violated", "Verif.Arith.c42_sub_underflow"], "note": "Carries, borrows, products and checked sizes proved for all words; violated by the 32-bit Microsoft subc and by two branches of mul_or_overflow_die."},
 {"property": "C43", "status": "partial", "theorems": ["Verif.Crypto.c43_unambiguous", "Verif.Crypto.c43_pkcs7_partial", "Verif.Crypto.c43_full_block_violated", "Verif.Crypto.c43_no_padding_violated", "Verif.Crypto.c43_zero", "Verif.Crypto.c43_zero_ambiguous_violated"], "note": "Last partial blocks of every message; violated: a message of whole blocks (write outside the array), zero padding is ambiguous."},
 {"property": "C44", "status": "partial", "theorems": ["Verif.Crypto.c44_scalar", "Verif.Crypto.c44_simd_violated", "Verif.Crypto.c44_simd_partial"], "note": "Scalar routine: every state and byte order. Four-lane routine: violated (wrong diagonals); characterised exactly as ChaCha20 with columns 1 and 3 exchanged."},
 {"property": "C45", "status": "partial", "theorems": ["Verif.CharCat.c45_alnum", "Verif.CharCat.c45_alpha", "Verif.CharCat.c45_lower", "Verif.CharCat.c45_upper", "Verif.CharCat.c45_digit", "Verif.CharCat.c45_xdigit", "Verif.CharCat.c45_punct", "Verif.CharCat.c45_graph", "Verif.CharCat.c45_print", "Verif.CharCat.c45_space_partial", "Verif.CharCat.c45_html", "Verif.CharCat.c45_to_lower_partial", "Verif.CharCat.c45_to_upper_partial", "Verif.CharCat.c45_idempotent_partial", "Verif.CharCat.c45_wide_violated", "Verif.CharCat.c45_width_partial", "Verif.CharCat.c45_width_violated"], "note": "Classes: every value of every type, ASCII execution character set. Conversions and white space: types up to 32 bits (violated for 64-bit types, which are truncated). Half/full width predicates: types of at least 32 bits (violated for narrower types)."},
 {"property": "C46", "status": "partial", "theorems": ["Verif.Float.c46_double_distinct_partial", "Verif.Float.c46_float_distinct_partial", "Verif.Float.c46_double_distinct_violated", "Verif.Float.c46_double_partial", "Verif.Float.c46_double_pow2_violated", "Verif.Float.c46_double_shortest", "Verif.Float.c46_trailing_zero_violated", "Verif.Float.c46_zero_letter_violated", "Verif.Float.c46_format_choice", "Verif.Float.c46_near", "Verif.Float.c46_float_partial", "Verif.Float.c46_float_pow2_violated", "Verif.Float.c46_float_lastdigit_violated", "Verif.Float.c46_float_shortest_partial", "Verif.Float.c46_float_closest_violated", "Verif.Float.c46_float_space_violated"], "note": "Every double and float, every format: free of undefined behaviour, the right layout, value within half a unit in the last place (six tenths for nine exponent fields of float), space (except signed float in the general format near 1e14, where one character is missing). Round trip, shortest and closest for double proved for all values except 255 powers of two, where it is proved false (the branch for asymmetric intervals is dead code). For float the parity test of the last digit is inverted: round trip and shortest exclude nine exponent fields and 25 powers of two; counterexamples are proved. Different texts of different numbers: with the same exclusions (two doubles with the same text: c46_double_distinct_violated). 32-bit size_t leaves trailing zeros."},
 {"property": "C47", "status": "partial", "theorems": ["Verif.Float.c47_hexfloat_distinct", "Verif.Float.c47_hexfloat_exact", "Verif.Float.c47_hexfloat_case", "Verif.Float.c47_zero_letter_violated", "Verif.Float.c47_float128_upper_violated", "Verif.Float.c47_bfloat16_violated", "Verif.Float.c47_bfloat16_partial"], "note": "Every value of half, float, double, __float128 and all flags: exact value, within the announced size. Violated: the letter p of zero follows the wrong flag; upper case digits of the 128-bit format are lower case; bfloat16 with three-digit exponents reads behind the digit table (partial there)."},
 {"property": "C48", "status": "partial", "theorems": ["Verif.Copy.c48_my_copy", "Verif.Copy.c48_my_copy_constant_partial", "Verif.Copy.c48_constant_violated", "Verif.Copy.c48_my_copy_backward", "Verif.Copy.c48_non_overlapped_n", "Verif.Copy.c48_non_overlapped_partial", "Verif.Copy.c48_copy_violated", "Verif.Copy.c48_fill"], "note": "Run-time copies proved for all ranges; compile-time my_copy only for moves to the front or without overlap (violated otherwise, exactly when); the loop behind non_overlapped_copy writes nothing between equal types (violated)."},
 {"property": "C49", "status": "partial", "theorems": ["Verif.Mode.c49_c_mode", "Verif.Mode.c49_flags", "Verif.Mode.c49_posix_partial", "Verif.Mode.c49_posix_violated", "Verif.Mode.c49_invalid_violated", "Verif.Mode.c49_c_file", "Verif.Mode.c49_filebuf_partial", "Verif.Mode.c49_filebuf_violated", "Verif.Mode.c49_windows_partial", "Verif.Mode.c49_windows_violated"], "note": "C mode strings: every mode. POSIX flags: every bit of every mode; meaning for every valid mode except in|out|trunc without creat (violated: a missing file is not created; with excl undefined); invalid combinations are accepted (violated). filebuf: partial, noreplace inverted (violated). Windows: without app and creat (violated with them)."},
 {"property": "C50", "status": "partial", "theorems": ["Verif.Fs.c50_inside", "Verif.Fs.c50_extension_partial", "Verif.Fs.c50_stem_partial", "Verif.Fs.c50_stem_violated", "Verif.Fs.c50_extension_violated"], "note": "Extension: every name except .. and ..x (violated there). Stem: names without extension; every name with an extension loses the last character of its stem (violated)."},
 {"property": "C51", "status": "partial", "theorems": ["Verif.IntScan.c51_skip_space_partial", "Verif.IntScan.c51_avx512_space_violated", "Verif.IntScan.c51_simd_space_violated"], "note": "Exact white space skipping holds without vectors and under SpaceSafe; violated under SIMD: bytes that are no white space are skipped, and with AVX512BW the inverted is_all_zeros makes the loop skip blocks containing text."},
 {"property": "C52", "status": "partial", "theorems": ["Verif.IoBuf.c52_seek_cur_partial", "Verif.IoBuf.c52_seek_abs", "Verif.IoBuf.c52_seek_fail", "Verif.IoBuf.c52_seek_underflow_violated"], "note": "Proved whenever the corrected offset is representable; an unrepresentable one seeks to the beginning."},
 {"property": "C53", "status": "partial", "theorems": ["Verif.IoBuf.View.c53_view_partial", "Verif.IoBuf.View.c53_view_fits", "Verif.IoBuf.View.c53_dynamic_violated"], "note": "Proved except for value-dependent sizes, which are stored before the size check (c53_dynamic_violated)."},
 {"property": "C54", "status": "partial", "theorems": ["Verif.Hash.c54_state_partial", "Verif.Hash.c54_digest_violated", "Verif.Hash.c54_md5_violated"], "note": "The chaining values of SHA-1/SHA-2 agree; the digest bytes are not swapped and MD5 loses bytes (violated theorems)."},
 {"property": "C55", "status": "proved", "theorems": ["Verif.Time.c55_compare", "Verif.Time.c55_equal"], "note": ""},
 {"property": "C56", "status": "partial", "theorems": ["Verif.Time.c56_div_partial", "Verif.Time.c56_div_negative_partial", "Verif.Time.c56_div_error", "Verif.Time.c56_div_zero", "Verif.Time.c56_odd_violated", "Verif.Time.c56_emulated_violated"], "note": "Proved for even divisors; odd divisors are rounded wrongly and the division without __int128 is wrong (violated theorems); a general error bound is proved."},
 {"property": "C57", "status": "partial", "theorems": ["Verif.Time.c57_convert_partial", "Verif.Time.c57_convert_violated", "Verif.Time.c57_round_trip"], "note": "Proved unless the conversion changes the sign of a timestamp with fraction, where the instant changes (violated)."},
 {"property": "C58", "status": "partial", "theorems": ["Verif.Utf.c58_after_partial", "Verif.Utf.c58_swallowed_violated"], "note": "Characters after complete input are preserved (c58_after_partial); an unfinished sequence swallows the next character (c58_swallowed_violated)."},
 {"property": "C59", "status": "proved", "theorems": ["Verif.Utf.c59_full", "Verif.Utf.c59_deco_utf8", "Verif.Utf.c59_deco_utf16"], "note": "Proved for single conversions between all pairs, and for streams from UTF-8 and UTF-16 sources."},
 {"property": "C60", "status": "partial", "theorems": ["Verif.Utf.c60_swapped_partial", "Verif.Utf.c60_same_violated", "Verif.Utf.c60_pair_violated", "Verif.Utf.c60_vector_violated"], "note": "Proved for the pairs listed in c60_swapped_partial; violated for equal encodings, UTF-16 pairs to UTF-32 and the vector path."},
 {"property": "C61", "status": "proved", "theorems": ["Verif.Width.c61_cond"], "note": ""},
 {"property": "C62", "status": "partial", "theorems": ["Verif.Indent.c62_align", "Verif.Indent.c62_size_partial", "Verif.Indent.c62_size_violated", "Verif.Indent.c62_every_text", "Verif.Indent.c62_columns"], "note": "Alignment proved for every text; the announced size is too small exactly in the shape of c62_size_violated (text ending in a tab)."},
 {"property": "C63", "status": "partial", "theorems": ["Verif.Print.c63_file", "Verif.Print.c63_file_history", "Verif.Print.c63_view_partial", "Verif.Print.c63_dynamic_violated", "Verif.Print.c63_device", "Verif.Print.c63_one_call", "Verif.Print.c63_one_call_violated"], "note": "Buffered files and unbuffered devices: every argument list and history. Fixed views: without value-dependent sizes (violated there, see C53). dynamic_io_buffer loses text (violated). println of a single argument that is a range and announces a size takes two device calls (violated)."},
 {"property": "C64", "status": "partial", "theorems": ["Verif.To.c64_many_partial", "Verif.To.c64_one_partial", "Verif.To.c64_contiguous_partial", "Verif.To.c64_round_trip", "Verif.To.c64_mixed_violated", "Verif.To.c64_zero_violated", "Verif.To.c64_empty_violated", "Verif.To.c64_custom_violated", "Verif.To.c64_contiguous_violated"], "note": "Integer targets, one or several arguments, and any target scanned at once; violated: an integer beside a value-dependent size (buffer too small), a cut behind a lone zero, an empty argument when zeros are skipped, print_define of several calls."},
 {"property": "C65", "status": "partial", "theorems": ["Verif.Crypto.c65_overflow_violated", "Verif.Crypto.c65_128_partial", "Verif.Crypto.c65_192_partial", "Verif.Crypto.c65_256_partial", "Verif.Crypto.c65_256_violated"], "note": "Values written for 128 and 192 bits equal FIPS 197, but the arrays are one element too short (violated); 256 bits: first three round keys right, the rest wrong (violated)."},
 {"property": "C66", "status": "partial", "theorems": ["Verif.Simd.c66_swap_endian_partial", "Verif.Simd.c66_swap_endian_generic", "Verif.Simd.c66_swap_violated", "Verif.Simd.c66_assign_partial", "Verif.Simd.c66_binary", "Verif.Simd.c66_assign_shr_violated", "Verif.Simd.c66_compare", "Verif.Simd.c66_le_partial", "Verif.Simd.c66_le_violated", "Verif.Simd.c66_ne_neon_violated", "Verif.Simd.c66_arith_partial", "Verif.Simd.c66_mul_violated", "Verif.Simd.c66_div_partial", "Verif.Simd.c66_div_violated", "Verif.Simd.c66_shift_partial", "Verif.Simd.c66_shr_violated", "Verif.Simd.c66_is_all_zeros_partial", "Verif.Simd.c66_is_all_zeros_violated", "Verif.Simd.c66_mask_countr_partial", "Verif.Simd.c66_mask_countr_violated", "Verif.Simd.c66_print"], "note": "Proved for all values, sizes and instruction sets: ==, !=, <, >, +, -, binary operators, swap_endian, printing. Restricted where the code is provably wrong: >>= by a vector (shifts left), <= and >= without AVX-512 (strict), 32-bit * (PMULUDQ), unsigned / (signed division), signed >> (logical), != on ARM, is_all_zeros with AVX512BW (inverted), mask_countr (wrong shifts), swap_endian without builtins (does nothing). NEON (except !=) and floating point elements are not modelled."},
 {"property": "C67", "status": "partial", "theorems": ["Verif.Lc.c67_lc_print_partial", "Verif.Lc.c67_grouped_unique", "Verif.Lc.c67_upper_violated", "Verif.Lc.c67_reserve_partial"], "note": "Every grouping, separator, type, value, base. Restricted: upper case in bases up to 10 (violated, the locale is ignored); without grouping the restrictions of C03; size: the restrictions of C04. EBCDIC not modelled; the overload for std::byte does not compile."},
 {"property": "C68", "status": "partial", "theorems": ["Verif.TsText.c68_print", "Verif.TsText.c68_fits", "Verif.TsText.c68_lc_print", "Verif.TsText.c68_lc_fits", "Verif.TsText.c68_scan_partial", "Verif.TsText.c68_round_trip_partial", "Verif.TsText.c68_follow_violated", "Verif.TsText.c68_minus_zero_violated", "Verif.TsText.c68_carry_violated", "Verif.TsText.c68_epoch_violated"], "note": "Printing (plain and with a locale) proved for every timestamp. Scanning is partial: contiguous text, whole part not -0. Violated: whole seconds followed by anything are invalid; -0.5 is read as +0.5; rounding up to a whole second does not carry; a win32_timestamp does not round trip. The chunked scanner is not modelled."},
 {"property": "C69", "status": "partial", "theorems": ["Verif.Forms.c69_hex", "Verif.Forms.c69_hex_injective", "Verif.Forms.c69_uuid", "Verif.Forms.c69_digest", "Verif.Forms.c69_compress_partial", "Verif.Forms.c69_compress_violated", "Verif.Forms.c69_as_file", "Verif.Forms.c69_perms", "Verif.Forms.c69_bitset", "Verif.Forms.c69_file_type", "Verif.Forms.c69_status"], "note": "Proved except hash_compress_upper and hash_compress_raw_bytes of ranges of other elements than std::byte, which multiply by the size of the range object and read past the data (violated)."},
 {"property": "C70", "status": "partial", "theorems": ["Verif.Range.c70_sized", "Verif.Range.c70_sized_values_partial", "Verif.Range.c70_sized_values_violated", "Verif.Range.c70_wrap_violated", "Verif.Range.c70_range_file", "Verif.Range.c70_range_view_partial", "Verif.Range.c70_range_string", "Verif.Range.c70_range_device", "Verif.Range.c70_rgvw"], "note": "rgvw proved for every range whose announced size fits; violated: a view of value-sized elements with an empty separator (not made by rgvw) announces one too little; announced size wraps around for ranges of 2^59 elements. Fixed views: without value-dependent sizes (C53)."},
 {"property": "C71", "status": "partial", "theorems": ["Verif.Scan.c71_spec_functional", "Verif.Scan.c71_scan_partial", "Verif.Scan.c71_blocks_partial", "Verif.Scan.c71_view_partial", "Verif.Scan.c71_strings_partial", "Verif.Scan.c71_numbers_partial", "Verif.Scan.c71_zero_violated", "Verif.Scan.c71_fixed_eof_violated"], "note": "Every buffered stream, any arguments; restricted to inputs on which the individual integer scanners and the vectorised white space test are right (C06, C08-C10, C51); strings and fixed-size values exact on every text without vector code; decimal numbers other than zero exact under every fragmentation. Violated: a zero cut by a block boundary; a value of fixed size at the end of a contiguous stream does not consume."},
 {"property": "C72", "status": "partial", "theorems": ["Verif.Scan.c72_unget_partial", "Verif.Scan.c72_lost_partial", "Verif.Scan.c72_lost_violated", "Verif.Scan.c72_zero_violated"], "note": "Proved for devices with try_unget (FILE*); for the others at most one character is lost. Violated: the character behind the last argument is lost on devices without try_unget (native_file); zero cannot be read from an unbuffered device."},
 {"property": "C73", "status": "partial", "theorems": ["Verif.Deco.c73_output_partial", "Verif.Deco.c73_output_text", "Verif.Deco.c73_output_prefix", "Verif.Deco.c73_output_truncated_violated", "Verif.Deco.c73_output_exception_violated", "Verif.Deco.c73_input", "Verif.Deco.c73_input_end_partial", "Verif.Deco.c73_input_text_partial", "Verif.Deco.c73_input_small_violated", "Verif.Deco.c73_input_truncated_violated", "Verif.Deco.c73_input_exception_violated"], "note": "Output: proved up to a character cut off at the end, for devices that take everything; under exceptions the device holds a prefix. Input: proved up to the end of the input for buffers of at least 5 units (violated below). Accepted input as in C17: any UTF-8, UTF-16 with paired surrogates, well-formed text otherwise. Violated: a character cut off at the end is dropped instead of replaced, in both directions; after an exception, close sends converted characters again; input read before a device exception within one refill is lost. flush, seek, tie and printing numbers do not compile with converters."},
 {"property": "C74", "status": "partial", "theorems": ["Verif.Own.c74_one_owner_partial", "Verif.Own.c74_no_leak_partial", "Verif.Own.c74_meaning_partial", "Verif.Own.c74_throws_only_partial", "Verif.Own.c74_win32_copy_violated", "Verif.Own.c74_cfile_move_violated", "Verif.Own.c74_posix_assign_violated", "Verif.Own.c74_dir_self_move_violated", "Verif.Own.c74_library", "Verif.Own.c74_random_violated"], "note": "All classes, all programs and answers, except: copies of win32 files (violated: the copy gets the handle of the original, which is closed twice, the new handle is lost), a directory moved to itself (violated: keeps the closed handle), move assignment of c_file (violated: inverted self check, nothing moves), copy assignment to an empty posix file (violated: always throws)."},
 {"property": "C75", "status": "partial", "theorems": ["Verif.Load.c75_descriptor", "Verif.Load.c75_named", "Verif.Load.c75_content", "Verif.Load.c75_unload", "Verif.Load.c75_mmap", "Verif.Load.c75_position_violated", "Verif.Load.c75_reported_violated", "Verif.Load.c75_extra_violated"], "note": "Allocating loader (with and without extra bytes) from a name and from a descriptor, all cases; mapping loader for a kernel that maps the file. Violated: a descriptor not at the beginning makes the allocating loader throw; files reporting size 0 load as empty; an empty file with zero extra bytes throws if malloc(0) is null."},
 {"property": "C76", "status": "partial", "theorems": ["Verif.LcFloat.c76_double_text", "Verif.LcFloat.c76_float_text", "Verif.LcFloat.c76_double_space_partial", "Verif.LcFloat.c76_float_space_partial", "Verif.LcFloat.c76_space_violated", "Verif.LcFloat.c76_hexfloat"], "note": "Every double and float, format and locale; hexadecimal format: binary16 to binary128. The announced space is shown sufficient except for the general and decimal format with groups of one digit and separators of several characters, where it is too small (violated)."},
 {"property": "C77", "status": "partial", "theorems": ["Verif.Conc.c77_locked", "Verif.Conc.c77_same_operation", "Verif.Conc.c77_serial", "Verif.Conc.c77_real_time", "Verif.Conc.c77_completes", "Verif.Conc.c77_text", "Verif.Conc.c77_print", "Verif.Conc.c77_writes", "Verif.Conc.c77_unlocked_violated", "Verif.Conc.c77_read", "Verif.Conc.c77_transmit_deadlock_violated", "Verif.Conc.c77_transmit_ordered_partial"], "note": "Proved for every schedule under sequentially consistent memory, for calls that use only the streams they are given; print connected to the dispatcher of C63 for every decomposition into accesses. Deadlock freedom for calls that take mutexes in a fixed order: transmit takes the input before the output, so opposite transmissions, or one from a stream to itself, can wait forever (violated). Line scanners holding a mutex for their lifetime, try_lock, and exceptions thrown by lock() itself (noexcept guard: the program ends) are not modelled."},
 {"property": "C78", "status": "partial", "theorems": ["Verif.LcPrint.c78_file", "Verif.LcPrint.c78_view_partial", "Verif.LcPrint.c78_append", "Verif.LcPrint.c78_number_partial", "Verif.LcPrint.c78_device_partial", "Verif.LcPrint.c78_one_call", "Verif.LcPrint.c78_device_violated", "Verif.LcPrint.c78_concat_partial", "Verif.LcPrint.c78_concat_plain", "Verif.LcPrint.c78_concat_violated"], "note": "Buffered files, strings, and fixed views (there without plain arguments of value-dependent size, C53) for all arguments; devices without a buffer for arguments whose plain and localised abilities are coherent. Violated otherwise: with scatter_write a localised print_define is ignored for a type with a plain announced size, and a localised size for a type with a plain range. lc_concat: the size announced by the type of a plain argument is not counted, the text is stored outside the string (violated), and a localised print_define is ignored (violated); proved without such arguments."},
 {"property": "C79", "status": "partial", "theorems": ["Verif.BufObj.c79_memory", "Verif.BufObj.c79_delivered", "Verif.BufObj.c79_no_strays", "Verif.BufObj.c79_values_partial", "Verif.BufObj.c79_input_violated", "Verif.BufObj.c79_reopen_violated", "Verif.BufObj.c79_copy_assign_stuck_violated", "Verif.BufObj.c79_fresh"], "note": "Memory, delivery, no strays and the values of the variables for every program. Violated: flush, and printing a number while the output buffer is missing or too full, forget the input read ahead; reopen reports success although the last characters could not be written; a moved-from or closed stream accepts characters and can then never be copy-assigned to. With failing devices characters can be sent twice (C19)."},
 {"property": "C80", "status": "partial", "theorems": ["Verif.AtOps.c80_name", "Verif.AtOps.c80_request_partial", "Verif.AtOps.c80_same_name_partial", "Verif.AtOps.c80_owner_refused", "Verif.AtOps.c80_creation_refused", "Verif.AtOps.c80_chmod_nofollow_violated", "Verif.AtOps.c80_access_flags_violated", "Verif.AtOps.c80_group_violated", "Verif.AtOps.c80_nul_violated", "Verif.AtOps.c80_mkdir_default_violated", "Verif.AtOps.c80_fraction_violated"], "note": "Proved for every operating system and every form of the name, for Linux on x86-64. Violated: flags of posix_fchmodat are ignored (a link is followed and its target changed although the default says not to), those of posix_faccessat where faccessat2 is unknown; a group beyond 32 bits is truncated (2^32 is group 0); names with NUL act on another file; an impossible fraction of a second can mean \"omit\"; directories made with the default permissions cannot be searched. posix_linkat, posix_symlinkat and posix_fstatat do not compile when used."},
 {"property": "C81", "status": "partial", "theorems": ["Verif.DirIter.c81_walk", "Verif.DirIter.c81_once", "Verif.DirIter.c81_failure", "Verif.DirIter.c81_at_partial", "Verif.DirIter.c81_at_violated", "Verif.DirIter.c81_unknown_violated", "Verif.DirIter.c81_dangling_violated", "Verif.DirIter.c81_pop_violated", "Verif.DirIter.c81_list", "Verif.DirIter.c81_list_failure", "Verif.DirIter.c81_nested_violated"], "note": "Proved for every tree whose entry types the system reports, every choice of pops and every failure; the tree does not change meanwhile. Violated: of directories at(*it) and drt(*it) refer to the directory just entered instead of its parent and depth is one too large; with unreported types (d_type unknown) directories are not entered and \".\" and \"..\" are delivered; after an exception the iterator can show a name in freed memory; pop is noexcept but can fail, which terminates the program; nested loops over one open directory share its position, the outer one misses entries."},
 {"property": "C82", "status": "partial", "theorems": ["Verif.Gb.c82_from_utf16_chunks_partial", "Verif.Gb.c82_utf16_pieces_violated", "Verif.Gb.c82_supplementary", "Verif.Gb.c82_bmp_partial", "Verif.Gb.c82_duplicate_violated", "Verif.Gb.c82_invalid", "Verif.Gb.c82_roundtrip_partial", "Verif.Gb.c82_roundtrip_violated", "Verif.Gb.c82_decode", "Verif.Gb.c82_alias_violated", "Verif.Gb.c82_swallow_violated", "Verif.Gb.c82_unassigned_violated", "Verif.Gb.c82_to_utf", "Verif.Gb.c82_from_utf8", "Verif.Gb.c82_from_utf32", "Verif.Gb.c82_from_utf16", "Verif.Gb.c82_text_partial"], "note": "All characters, inputs, pieces. Which characters have two-byte codes is data (not compared with the standard). Violated: U+E7C7 gets the code of U+1E3F (injectivity not proved for the rest as such, it follows from the round trip except for the lost characters); 1444 characters do not come back, among them everything with a four-byte code from U+0080 to U+0451 (read as U+FFFD); bytes 3A-3F are accepted as digits; the byte behind an invalid first byte is swallowed even if it is ASCII; the unassigned number 39420 is read as U+FFDF; UTF-16 with a lone high surrogate depends on the pieces. Byte-swapped forms are not modelled."},
 {"property": "C83", "status": "partial", "theorems": ["Verif.Mmap.c83_objects", "Verif.Mmap.c83_rest", "Verif.Mmap.c83_no_leak", "Verif.Mmap.c83_apart", "Verif.Mmap.c83_effect", "Verif.Mmap.c83_goes_on_partial", "Verif.Mmap.c83_close_default_violated", "Verif.Mmap.c83_attributes_violated", "Verif.Mmap.c83_read_partial", "Verif.Mmap.c83_read_offset_violated", "Verif.Mmap.c83_write_partial", "Verif.Mmap.c83_write_offset_violated"], "note": "All programs and answers (Linux, 64 bit, pages of 4096 bytes). Violated: closing a default-constructed object terminates the program (close is noexcept and munmap(nullptr,0) fails); execute_read_write cannot be written, write_copy and execute_write_copy cannot be read and change the file (MAP_SHARED); a stream that starts at an offset goes past the end of the mapping by the offset. Not modelled: construction from two pointers, win32_mapping.h."},
 {"property": "C84", "status": "partial", "theorems": ["Verif.Flock.c84_lock", "Verif.Flock.c84_lock_throws", "Verif.Flock.c84_lock_returns", "Verif.Flock.c84_unlock_partial", "Verif.Flock.c84_mutual_exclusion", "Verif.Flock.c84_guard_violated", "Verif.Flock.c84_position_violated", "Verif.Flock.c84_try_lock_violated"], "note": "All processes and histories, requests in every integer type, Linux. Violated: unlock hands the request to the system as it is, so that the destructor of file_lock_guard asks for the lock again instead of releasing it; requests count from the current position by default, so that after writing even a proper unlock releases other bytes; try_lock waits (and returns nothing). Releasing is proved for requests of type unlock. Not modelled: other systems, where fcntl_file_lock passes the address of its pointer parameter; the flush in front of locks of buffered streams."},
 {"property": "C85", "status": "partial", "theorems": ["Verif.Cplx.c85_pair", "Verif.Cplx.c85_double_partial", "Verif.Cplx.c85_double_distinct_partial", "Verif.Cplx.c85_double_shortest", "Verif.Cplx.c85_float_partial", "Verif.Cplx.c85_space_violated", "Verif.Cplx.c85_hexfloat", "Verif.Cplx.c85_hexfloat_distinct"], "note": "Every complex<double> and complex<float>: layout, unique reading, texts of the parts as in C46/C47. Reading back: except the parts for which C46 is violated. Space: proved except complex<float> with exponent fields 173/174 in the general format, where it is too small by two (c85_space_violated). Manipulators with a precision are accepted for complex numbers but have no printing function; comma_scientific(complex,n) does not compile."},
 {"property": "C86", "status": "partial", "theorems": ["Verif.Child.c86_streams_partial", "Verif.Child.c86_rest_partial", "Verif.Child.c86_parent", "Verif.Child.c86_end_partial", "Verif.Child.c86_pipe", "Verif.Child.c86_three_pipes", "Verif.Child.c86_exchange_violated", "Verif.Child.c86_null_violated", "Verif.Child.c86_closed_violated", "Verif.Child.c86_second_violated", "Verif.Child.c86_empty_violated", "Verif.Child.c86_loop_violated", "Verif.Child.c86_end_violated"], "note": "Proved for every request that is Simple (no stream taken from a standard descriptor changed before it, standard descriptors of the parent open if the null device is asked for, pipe ends apart and not standard descriptors); without such hypotheses for children on three new pipes and for the parent. Violated otherwise: exchanged streams, null device and a stream from the one it replaces, parent with closed standard descriptors, a pipe used a second time, an empty file object, a child on both ends of one pipe, end of input with a second child (pipes are created without close-on-exec). Not modelled: failures of fork and execveat, environment and arguments."},
 {"property": "C87", "status": "partial", "theorems": ["Verif.Child.Proc.c87_wait_partial", "Verif.Child.Proc.c87_wait_returns", "Verif.Child.Proc.c87_destroy_partial", "Verif.Child.Proc.c87_own_partial", "Verif.Child.Proc.c87_none_left", "Verif.Child.Proc.c87_empty_harms", "Verif.Child.Proc.c87_assign_violated", "Verif.Child.Proc.c87_two_violated", "Verif.Child.Proc.c87_blocks_violated"], "note": "Proved for histories in which empty objects wait only while there are no children (c87_empty_harms: otherwise some child is always taken away); c87_none_left for every history. Violated in general: an empty object waits for any child (wait4 of -1), so move assignment to an empty object takes the new process away, and destroying an object that was waited for takes away, or waits for, another child. Not modelled: interruption of wait4 by signals."},
 {"property": "C88", "status": "partial", "theorems": ["Verif.Rand.c88_read", "Verif.Rand.c88_all", "Verif.Rand.c88_bytes", "Verif.Rand.c88_engine", "Verif.Rand.c88_engine_returns", "Verif.Rand.c88_end_violated", "Verif.Rand.c88_entropy_violated"], "note": "All element sizes, ranges, sequences of draws and answers of the system (Linux, unbuffered source). Violated: for elements wider than a byte a short answer is reported as end of file; the entropy is always 0 because the request has the wrong number. That the bytes are random is the claim of the system."},
 {"property": "C89", "status": "partial", "theorems": ["Verif.IntPrint.c89_decimal_partial", "Verif.IntPrint.c89_decimal_small", "Verif.IntPrint.c89_decimal_violated", "Verif.IntPrint.c89_group_violated", "Verif.IntPrint.c89_hex_partial", "Verif.IntPrint.c89_hex_violated"], "note": "Dormant code: the only call of uprsv_main is disabled by if constexpr(false), so printing (C01-C03) is not affected. Violated: 100000001 is written 100000000 (a later group of eight digits that is small and not zero loses its last digits: the rounding correction of the magic multiplication is missing), and hexadecimal values whose leading word has three or four digits take the wrong byte (123 is written 100). Proved: decimal at all widths for values below 10^8 and all whose later groups are zero or at least 226500; hexadecimal at all widths with a leading 32-bit word outside 0x100..0xffff."}
]}
