{"id": "C01", "title": "Unsigned decimal printing is the canonical decimal numeral", "statement": "print/concat of an unsigned integer of 8..128 bits writes exactly the decimal numeral of the value: digits only, no leading zero except for 0 itself, whose base-10 value is the integer.", "quantifier": "every value of uint8/16/32/64 and __uint128", "why_tests_cant": "the magic-number digit extraction is only argued correct numerically; 2^64 and 2^128 inputs cannot be enumerated", "anchors": ["include/fast_io_core_impl/integers/jeaiii_method.h: jeaiii_main, jeaiii_tree, jeaiii_c, jeaiii_a, jeaiii_d, jeaiii_s", "include/fast_io_core_impl/integers/impl.h: print_reserve_integral_withfull_main_impl"]}
{"id": "C02", "title": "Signed decimal printing", "statement": "print of a signed integer writes the decimal numeral of its magnitude, preceded by a minus sign exactly when it is negative (with showpos: by + when it is not), including for the minimum value of the type.", "quantifier": "every value of int8..int128", "why_tests_cant": "INT_MIN and the 2^64 other inputs cannot be enumerated", "anchors": ["include/fast_io_core_impl/integers/impl.h: print_reserve_integral_define"]}
{"id": "C03", "title": "Base-b printing", "statement": "bin/oct/hex/base<b> print exactly the canonical base-b numeral (b in 2..36) of the value in the requested letter case, with the documented prefix when a base prefix is requested, and uhexfull-style printing pads to the full width of the type.", "quantifier": "every base 2..36, every value, every integer width up to 128 bits", "why_tests_cant": "bases x values cannot be enumerated", "anchors": ["include/fast_io_core_impl/integers/impl.h: print_reserve_integral_main_impl, print_reserve_show_base_impl", "include/fast_io_core_impl/integers/digits_table.h: generate_digits_table", "include/fast_io_core_impl/utils.h: chars_len"]}
{"id": "C04", "title": "Reserved size bounds every write", "statement": "Printing an integer never stores a character at or beyond the number of characters the library reserves for that type and format.", "quantifier": "every integer type, base, flag combination and value", "why_tests_cant": "an overrun happens only at extreme values and is invisible unless memory is instrumented", "anchors": ["include/fast_io_core_impl/integers/impl.h: print_reserve_scalar_size_impl", "include/fast_io_core_impl/utils.h: cal_max_int_size"]}
{"id": "C05", "title": "Precise-size printing agrees with plain printing", "statement": "The size announced for exact-size printing is the number of characters plain printing writes, and exact-size printing writes the same characters.", "quantifier": "every integer type, base, flag combination and value", "why_tests_cant": "all flag/base/value combinations", "anchors": ["include/fast_io_core_impl/integers/impl.h: print_integer_reserved_precise_size, print_reserve_integral_define_precise", "include/fast_io_core_impl/integers/jeaiii_method.h: jeaiii_main_len, jeaiii_hash"]}
{"id": "C06", "title": "Integer scanning from contiguous memory", "statement": "Scanning an integer of a given type and base from a character range accepts exactly an optional minus sign (signed types) followed by a canonical numeral, stores its mathematical value when the type can represent it, reports overflow exactly when it cannot, reports invalid when there is no numeral, and returns the position just after the numeral.", "quantifier": "every character range, base 2..36, every integer width", "why_tests_cant": "unbounded input strings; overflow boundaries for every base and width", "anchors": ["include/fast_io_core_impl/integers/sto/sto_contiguous.h: scan_int_contiguous_define_impl, scan_int_contiguous_none_space_part_define_impl, scan_int_contiguous_none_simd_space_part_define_impl"]}
{"id": "C07", "title": "Integer print/scan round trip", "statement": "Scanning the text printed for an integer in any base yields the same integer and consumes exactly that text, whatever non-digit text follows.", "quantifier": "every value, base and width; every following text not starting with a digit", "why_tests_cant": "infinite", "anchors": ["include/fast_io_core_impl/integers/impl.h", "include/fast_io_core_impl/integers/sto/sto_contiguous.h"]}
{"id": "C08", "title": "Chunked integer scanning equals contiguous scanning", "statement": "Scanning an integer from a stream delivered in arbitrary chunks gives the same parse result and value as scanning the concatenation of the chunks at once.", "quantifier": "every input and every way of cutting it into buffer refills", "why_tests_cant": "number of splits is exponential; unit tests never hit a refill inside a token", "anchors": ["include/fast_io_core_impl/integers/sto/sto_contiguous.h: scan_context_define_parse_impl, scan_context_eof_define_parse_impl"]}
{"id": "C09", "title": "SIMD decimal scanning equals scalar scanning", "statement": "When at least 32 characters are available the SSE4.1 path returns the same value, code and end position as the portable path.", "quantifier": "every 8-bit character buffer of length at least 32", "why_tests_cant": "256^32 inputs", "anchors": ["include/fast_io_core_impl/integers/sto/sto_contiguous.h: sse_parse, detect_length, sse_skip_long_overflow_digits"]}
{"id": "C10", "title": "Integer scanners stay inside the input", "statement": "No integer scan dereferences a character outside the given range or indexes its digit table outside its bounds, and the returned position lies in the range.", "quantifier": "every input range and every chunk sequence", "why_tests_cant": "out-of-bounds reads are silent", "anchors": ["include/fast_io_core_impl/integers/sto/sto_contiguous.h: sc_int_ctx_zero_invalid_phase, char_is_digit, char_digit_to_literal", "include/fast_io_core_impl/integers/sto/sto_generate_base_tb.h: calculate_max_available_sto_tb_size"]}
{"id": "C11", "title": "LEB128 round trip", "statement": "leb128_get applied to the bytes produced by leb128_put (followed by anything) restores the value, reports ok and consumes exactly those bytes; the encoding fits the announced size.", "quantifier": "every value of every signed and unsigned width", "why_tests_cant": "2^64 values", "anchors": ["include/fast_io_freestanding_impl/serializations/leb128.h: pr_rsv_leb128_impl, scn_cnt_define_leb128_impl"]}
{"id": "C12", "title": "LEB128 decoding is independent of chunking", "statement": "Context decoding of LEB128 from any sequence of chunks gives the result of decoding their concatenation (an input that ends too early is reported as end of file by a stream and as invalid by a memory range).", "quantifier": "every byte string and every split", "why_tests_cant": "exponentially many splits", "anchors": ["include/fast_io_freestanding_impl/serializations/leb128.h: scn_ctx_define_leb128_impl"]}
{"id": "C13", "title": "LEB128 decoding never silently wraps", "statement": "Whenever leb128_get reports ok the stored value equals the mathematical value of the consumed LEB128 group sequence; otherwise it reports overflow or incomplete input.", "quantifier": "every byte string", "why_tests_cant": "unbounded over-long encodings", "anchors": ["include/fast_io_freestanding_impl/serializations/leb128.h: scn_cnt_define_leb128_impl"]}
{"id": "C14", "title": "Fixed-width little/big endian round trip", "statement": "le_put/be_put of n bits writes exactly n/8 bytes in the stated order, raises an error when the value does not fit, and le_get/be_get of those bytes restores the value or reports that it does not fit the target type.", "quantifier": "every value, width pair and byte order", "why_tests_cant": "width pairs x values", "anchors": ["include/fast_io_freestanding_impl/serializations/lebe.h: lebe_put, scan_precise_reserve_define_integer_impl, print_reserve_define_integer_lebe_common_impl"]}
{"id": "C15", "title": "UTF encoders are inverse to decoders", "statement": "Encoding any Unicode scalar value to UTF-8/UTF-16 with code_cvt writes the standard encoding and decoding it back yields the scalar.", "quantifier": "every scalar value, every sequence of scalars", "why_tests_cant": "sequences are unbounded", "anchors": ["include/fast_io_core_impl/codecvt/utf.h", "include/fast_io_core_impl/codecvt/general.h"]}
{"id": "C16", "title": "Transcoding always produces well-formed output", "statement": "Whatever the input bytes (including malformed, truncated, overlong, surrogate or out-of-range sequences), code_cvt output is a well-formed encoding, ill-formed input being replaced.", "quantifier": "every input sequence", "why_tests_cant": "adversarial inputs unbounded", "anchors": ["include/fast_io_core_impl/codecvt/utf.h", "include/fast_io_core_impl/codecvt/general.h"]}
{"id": "C17", "title": "Transcoding is independent of chunking", "statement": "Decorated/stateful code conversion of a stream gives the same output for every split of the input into writes.", "quantifier": "every input and every split", "why_tests_cant": "exponentially many splits", "anchors": ["include/fast_io_core_impl/codecvt/general.h: codecvt_decorator, general_code_cvt"]}
{"id": "C18", "title": "Buffered output is transparent", "statement": "After any sequence of writes, character puts and flushes through an io_buffer followed by a final flush, the underlying device has received exactly the concatenation of everything written, in order, once; before that it has received a prefix.", "quantifier": "every operation sequence, every buffer size", "why_tests_cant": "unbounded histories", "anchors": ["include/fast_io_freestanding_impl/io_buffer/output_normal.h", "include/fast_io_freestanding_impl/io_buffer/output.h", "include/fast_io_freestanding_impl/io_buffer/general.h"]}
{"id": "C19", "title": "Buffered output under device errors", "statement": "If the device fails during a write the bytes already accepted by the device are not sent again by later operations.", "quantifier": "every failure point of every operation sequence", "why_tests_cant": "fault schedules are unbounded", "anchors": ["include/fast_io_freestanding_impl/io_buffer/output_normal.h: iobuf_write_unhappy_decay_no_alloc_impl"]}
{"id": "C20", "title": "Buffered input is transparent", "statement": "Any sequence of reads through an io_buffer returns exactly the bytes of the underlying device in order, none lost, none duplicated, however the device fragments its reads.", "quantifier": "every read-size sequence, buffer size and device fragmentation", "why_tests_cant": "unbounded schedules", "anchors": ["include/fast_io_freestanding_impl/io_buffer/input_normal.h", "include/fast_io_freestanding_impl/io_buffer/input.h"]}
{"id": "C21", "title": "write_all / read_all complete partial transfers", "statement": "Whole-buffer reads and writes over a device that transfers partial amounts transfer every byte exactly once in order, or report the end-of-file/error.", "quantifier": "every fragmentation schedule", "why_tests_cant": "unbounded schedules", "anchors": ["include/fast_io_core_impl/read_all.h", "include/fast_io_core_impl/transmit/transmit.h", "include/fast_io_hosted/platforms/posix.h"]}
{"id": "C22", "title": "Hashing is independent of chunking", "statement": "For MD5, SHA-1, SHA-224/256, SHA-384/512, updating with any sequence of pieces then finalising gives the digest of the concatenation.", "quantifier": "every message and every split", "why_tests_cant": "exponentially many splits", "anchors": ["include/fast_io_crypto/hash/md5_sha_hash_context.h: update, update_cold_impl, do_final"]}
{"id": "C23", "title": "Hash padding is the standard padding", "statement": "Finalisation compresses exactly the message followed by 0x80, the minimal number of zero bytes and the message bit length in the hash byte order.", "quantifier": "every message below the counter limit", "why_tests_cant": "all lengths modulo block size with all contents", "anchors": ["include/fast_io_crypto/hash/md5_sha_hash_context.h: do_final, append_sentinal"]}
{"id": "C24", "title": "SHA-256 equals FIPS 180-4", "statement": "The SHA-256 and SHA-224 digests equal the FIPS 180-4 functions for every message, whichever compression routine the build selects: scalar, 128-bit vectors, or the x86 SHA instructions (GCC/Clang and MSVC versions).", "quantifier": "every message shorter than 2^61 bytes", "why_tests_cant": "test vectors sample the domain", "anchors": ["include/fast_io_crypto/hash/sha256_scalar.h", "include/fast_io_crypto/hash/sha256.h", "include/fast_io_crypto/hash/sha256_simd16.h: sha256_runtime_routine", "include/fast_io_crypto/hash/sha256_x86_sha_extensions.h: sha256_runtime_routine", "include/fast_io_crypto/hash/sha256_x86_sha_extensions_msvc.h: sha256_runtime_routine"]}
{"id": "C25", "title": "SHA-512 equals FIPS 180-4", "statement": "The SHA-512, SHA-384, SHA-512/224 and SHA-512/256 digests equal the FIPS 180-4 functions for every message, whichever compression routine the build selects: scalar, 128-bit vectors, 256-bit vectors, or 256-bit vectors with lane shuffles.", "quantifier": "every message", "why_tests_cant": "test vectors sample the domain", "anchors": ["include/fast_io_crypto/hash/sha512_scalar.h", "include/fast_io_crypto/hash/sha512.h", "include/fast_io_crypto/hash/sha512_simd16.h: sha512_runtime_routine", "include/fast_io_crypto/hash/sha512_simd32.h: sha512_runtime_routine", "include/fast_io_crypto/hash/sha512_simd32_shuffle.h: sha512_runtime_routine"]}
{"id": "C26", "title": "SHA-1 equals FIPS 180-4", "statement": "The scalar SHA-1 digest equals the FIPS 180-4 function for every message.", "quantifier": "every message", "why_tests_cant": "test vectors sample the domain", "anchors": ["include/fast_io_crypto/hash/sha1.h"]}
{"id": "C27", "title": "MD5 equals RFC 1321", "statement": "The MD5 digest equals the RFC 1321 function for every message.", "quantifier": "every message", "why_tests_cant": "test vectors sample the domain", "anchors": ["include/fast_io_crypto/hash/md5.h"]}
{"id": "C28", "title": "CRC-32", "statement": "The crc32 and crc32c contexts compute the standard (IEEE, Castagnoli) CRC-32 of the concatenated input for every split, and write it most significant byte first.", "quantifier": "every message and split", "why_tests_cant": "unbounded", "anchors": ["include/fast_io_crypto/hash/crc32.h"]}
{"id": "C29", "title": "Civil date of a unix timestamp", "statement": "utc(unix_timestamp) yields the proleptic Gregorian date and time of day of that second: fields in range, and the date is the one obtained by counting days from 1970-01-01.", "quantifier": "every 64-bit second count that does not overflow", "why_tests_cant": "2^64 inputs, leap-year corner cases", "anchors": ["include/fast_io_core_impl/iso/iso8601.h: unix_timestamp_to_iso8601_tsp_impl_internal"]}
{"id": "C30", "title": "Timestamp/date round trip", "statement": "Converting a timestamp to iso8601 and back yields the timestamp; converting a valid date to a timestamp and back yields the date.", "quantifier": "every timestamp, every valid date", "why_tests_cant": "unbounded", "anchors": ["include/fast_io_core_impl/iso/iso8601.h: iso8601_to_unix_timestamp_impl, year_month_to_seconds"]}
{"id": "C31", "title": "Weekday", "statement": "weekday/c_weekday return the day of the week of the Gregorian date.", "quantifier": "every date", "why_tests_cant": "unbounded", "anchors": ["include/fast_io_core_impl/iso/iso8601.h: c_weekday_impl, weekday_impl"]}
{"id": "C32", "title": "Timestamp arithmetic", "statement": "Addition, subtraction and negation of timestamps are exact on (seconds, subseconds) whenever the result is representable.", "quantifier": "every pair of timestamps", "why_tests_cant": "2^256 pairs", "anchors": ["include/fast_io_core_impl/iso/iso8601.h: add_impl, sub_impl, operator+, operator-"]}
{"id": "C33", "title": "ISO 8601 print/scan round trip", "statement": "Scanning a printed iso8601 timestamp restores it.", "quantifier": "every timestamp", "why_tests_cant": "unbounded", "anchors": ["include/fast_io_core_impl/iso/iso8601.h: print_reserve_iso8601_timestamp_impl, scn_cnt_define_iso8601_impl"]}
{"id": "C34", "title": "IPv4 text round trip", "statement": "Printing an IPv4 address gives dotted decimal; scanning accepts exactly dotted decimals with octets 0..255 and restores the address.", "quantifier": "every address, every text", "why_tests_cant": "2^32 addresses x all malformed texts", "anchors": ["include/fast_io_core_impl/socket/addrprt.h", "include/fast_io_core_impl/socket/addrscn.h"]}
{"id": "C35", "title": "IPv6 text round trip", "statement": "Printing an IPv6 address and scanning it back restores the address; scanning never writes outside the 8 groups.", "quantifier": "every address", "why_tests_cant": "2^128 addresses", "anchors": ["include/fast_io_core_impl/socket/addrprt.h", "include/fast_io_core_impl/socket/addrscn.h"]}
{"id": "C36", "title": "HTTP header parsing is independent of chunking", "statement": "The header parser finds the end of the header at the first CRLFCRLF however the input is chunked, and its line iterator yields the same lines.", "quantifier": "every byte stream and split", "why_tests_cant": "exponentially many splits", "anchors": ["include/fast_io_core_impl/http_header.h"]}
{"id": "C37", "title": "Width padding", "statement": "width/left/middle/right/internal print the item padded to max(width, length) with the fill character in the documented position, preserving the item characters.", "quantifier": "every item, width, placement and fill", "why_tests_cant": "unbounded", "anchors": ["include/fast_io_freestanding_impl/width.h: handle_common_ch, handle_common_rt_ch, handle_common_internal_ch"]}
{"id": "C38", "title": "concat returns the text of its arguments", "statement": "concat and concatln return exactly the texts of the arguments, one after the other (and a line feed), whatever the arguments and the string type; printing to a reference to a string appends the same text. No character outside the capacity of the string is touched.", "quantifier": "every list of arguments, string type, capacity and prior contents", "why_tests_cant": "unbounded; buffer sizes are chosen from announced sizes", "anchors": ["include/fast_io_core_impl/concat/concat_buffer.h", "include/fast_io_core_impl/concat/concat_general.h: basic_general_concat_decay_ref_impl", "include/fast_io_core_impl/strlike_reference_wrapper.h: write, obuffer_overflow", "include/fast_io_unit/string_impl/concat.h"]}
{"id": "C39", "title": "Line scanning is independent of chunking", "statement": "Line-by-line reading yields the newline-separated pieces of the stream, independent of how the input is chunked.", "quantifier": "every stream and split", "why_tests_cant": "exponentially many splits", "anchors": ["include/fast_io_freestanding_impl/scanners/line_scanner.h"]}
{"id": "C40", "title": "vector behaves like a sequence", "statement": "Any sequence of vector operations (push_back, pop_back, insert, erase, reserve, shrink_to_fit, clear, copy, move) behaves like the same operations on a mathematical sequence; references handed as arguments may alias the vector.", "quantifier": "every operation sequence", "why_tests_cant": "unbounded histories", "anchors": ["include/fast_io_dsal/impl/vector.h", "include/fast_io_dsal/impl/common.h"]}
{"id": "C41", "title": "Wide division", "statement": "The double-word by single-word division used for 128-bit arithmetic returns the exact quotient and remainder.", "quantifier": "every dividend and divisor with quotient in range", "why_tests_cant": "2^192 inputs", "anchors": ["include/fast_io_core_impl/intrinsics/udivmod.h"]}
{"id": "C42", "title": "Wide multiplication and carries", "statement": "add_carry/sub_borrow/umul compute exact multi-word sums, differences and products.", "quantifier": "all word values", "why_tests_cant": "2^128 inputs", "anchors": ["include/fast_io_core_impl/intrinsics/carry.h", "include/fast_io_core_impl/intrinsics.h"]}
{"id": "C43", "title": "PKCS#7 padding", "statement": "pkcs7 padding yields a whole block and is removable unambiguously.", "quantifier": "every block size and partial block", "why_tests_cant": "unbounded", "anchors": ["include/fast_io_crypto/padding/pkcs7_padding.h"]}
{"id": "C44", "title": "ChaCha20 equals RFC 8439", "statement": "The ChaCha20 block functions (scalar and four-lane) write the 64 bytes that RFC 8439 defines for the initial state, on hosts of either byte order.", "quantifier": "every initial state, hence every key, nonce and counter", "why_tests_cant": "2^512 states", "anchors": ["include/fast_io_crypto/streamcipher/chacha/scalar.h", "include/fast_io_crypto/streamcipher/chacha/simd16.h"]}
{"id": "C45", "title": "Character classification", "statement": "to_upper/to_lower/is_* agree with the C-locale tables for every character and conversions are idempotent.", "quantifier": "every character value of every character type", "why_tests_cant": "tables x types", "anchors": ["include/fast_io_core_impl/char_category.h"]}
{"id": "C46", "title": "Decimal floating point text round-trips", "statement": "Printing a double or float in the general, scientific, fixed or decimal format yields a decimal text that a correctly rounding reader converts back to the same number (so that different numbers have different texts), with as few digits as possible and, among those, the closest; the decimal format is never longer than the fixed and the scientific one; the text fits the space announced to callers.", "quantifier": "every value (including subnormals, powers of two, infinities, not-a-numbers and zero), every format and all flags", "why_tests_cant": "2^64 inputs; correctness depends on table entries and end point cases that examples miss", "anchors": ["include/fast_io_unit/floating/roundtrip.h: print_rsvflt_define_impl, dragonbox_main, dragonbox_impl, print_rsv_fp_decision_impl, print_rsvflt_size_impl"]}
{"id": "C47", "title": "Hexadecimal floating point is exact", "statement": "hexfloat prints a numeral whose exact mathematical value is the floating point number.", "quantifier": "every finite value", "why_tests_cant": "2^64 inputs", "anchors": ["include/fast_io_unit/floating/hexfloat.h"]}
{"id": "C48", "title": "Overlapping copies", "statement": "my_copy / my_copy_backward / non_overlapped_copy deliver the source characters under exactly the overlap conditions the callers use.", "quantifier": "every range pair", "why_tests_cant": "aliasing is invisible to examples", "anchors": ["include/fast_io_core_impl/freestanding/algorithm.h"]}
{"id": "C49", "title": "open_mode translation", "statement": "open_mode translation to POSIX flags and to C mode strings preserves read/write/append/truncate/create/exclusive meaning.", "quantifier": "all mode combinations", "why_tests_cant": "2^n flag combinations", "anchors": ["include/fast_io_core_impl/mode.h", "include/fast_io_hosted/platforms/posix.h"]}
{"id": "C50", "title": "Lexical path functions", "statement": "Path stem/extension extraction splits a path into parts that concatenate back to it and obey the dot rules.", "quantifier": "every path string", "why_tests_cant": "unbounded", "anchors": ["include/fast_io_hosted/filesystem/fsutils.h"]}
{"id": "C51", "title": "Skipping exactly white space", "statement": "Skipping leading white space before a scan skips exactly the leading C white space characters and nothing else.", "quantifier": "every character range, character width and vector width", "why_tests_cant": "every alignment and block content of the vectorised search", "anchors": ["include/fast_io_core_impl/simd_find.h: find_space_common_impl, find_space_simd_common_impl", "include/fast_io_core_impl/char_category.h: is_c_space"]}
{"id": "C52", "title": "Seeking a buffered stream", "statement": "seek on a buffered input stream is relative to the next character the reader would receive, and afterwards the stream delivers the file from the target position on.", "quantifier": "every buffer state, offset and direction", "why_tests_cant": "the offset depends on how the device fragmented earlier reads", "anchors": ["include/fast_io_freestanding_impl/io_buffer/input.h: seek"]}
{"id": "C53", "title": "Fixed output views are never overrun", "statement": "Printing to a fixed-size output view never stores outside the view: it either stores everything in order or terminates the process.", "quantifier": "every sequence of printed items and every view size", "why_tests_cant": "every size relation between item and remaining space", "anchors": ["include/fast_io_core_impl/buffer_view.h: basic_obuffer_view", "include/fast_io_core_impl/print_freestanding.h: print_control"]}
{"id": "C54", "title": "Constant evaluation of hashes", "statement": "Evaluating a hash during constant evaluation gives the digest it gives at run time.", "quantifier": "every message and every hash", "why_tests_cant": "constant evaluation takes different code paths", "anchors": ["include/fast_io_crypto/hash/md5_sha_hash_context.h: hash_digest_to_byte_ptr_common_impl", "include/fast_io_crypto/hash/md5.h: md5_main"]}
{"id": "C55", "title": "Timestamps are ordered by their value", "statement": "The comparison operators order timestamps by the rational number of seconds they stand for.", "quantifier": "every pair of timestamps, including negative ones with fractions", "why_tests_cant": "2^256 pairs", "anchors": ["include/fast_io_core_impl/iso/iso8601.h: operator<=>, operator=="]}
{"id": "C56", "title": "Division of a timestamp", "statement": "Dividing a timestamp by a positive integer gives the nearest representable timestamp, ties to even; dividing by zero terminates.", "quantifier": "every timestamp and divisor", "why_tests_cant": "2^192 inputs", "anchors": ["include/fast_io_core_impl/iso/iso8601.h: div_uint"]}
{"id": "C57", "title": "Conversion between epochs", "statement": "Converting a timestamp to another epoch keeps the instant, and converting back restores it.", "quantifier": "every timestamp and pair of epochs", "why_tests_cant": "unbounded", "anchors": ["include/fast_io_core_impl/iso/iso8601.h: basic_timestamp conversion operator"]}
{"id": "C58", "title": "Only ill-formed input is replaced", "statement": "When input contains an ill-formed sequence, the well-formed characters before and after it appear in the output.", "quantifier": "every UTF-8 input", "why_tests_cant": "ill-formed sequences can occur anywhere in unbounded text", "anchors": ["include/fast_io_core_impl/codecvt/utf.h: advance_with_big_table", "include/fast_io_core_impl/codecvt/general.h"]}
{"id": "C59", "title": "Transcoding stays within the reserved space", "statement": "Whatever the input, code_cvt and a converting stream write only within the space their size function announced for the length of the input.", "quantifier": "every input of every length, every pair of encodings, vector instructions or not", "why_tests_cant": "overruns depend on rare content and lengths", "anchors": ["include/fast_io_core_impl/codecvt/utf.h: cal_full_reserve_size, cal_decorated_reserve_size", "include/fast_io_core_impl/codecvt/general.h"]}
{"id": "C60", "title": "Transcoding to the other byte order", "statement": "Converting to a byte-swapped encoding scheme writes the encoding of the same text with every code unit swapped.", "quantifier": "every text and pair of encodings", "why_tests_cant": "texts unbounded", "anchors": ["include/fast_io_core_impl/codecvt/general.h: general_code_cvt"]}
{"id": "C61", "title": "Conditional printing", "statement": "cond(pred,a,b) prints exactly what printing a (if pred) or b (otherwise) prints, whatever their types and sizes, and announces enough space for it.", "quantifier": "every condition, pair of printable arguments and memory", "why_tests_cant": "arguments and types unbounded", "anchors": ["include/fast_io_freestanding_impl/cond.h"]}
{"id": "C62", "title": "Automatic column alignment", "statement": "Printing the auto_indent manipulator of a text gives the same lines and cells with every cell except the last of its line filled with spaces to the width of its column, within the announced size.", "quantifier": "every text", "why_tests_cant": "texts unbounded, rare shapes (text ending in a tab)", "anchors": ["include/fast_io_freestanding_impl/auto_indent.h: calculate_auto_width_result, print_reserve_define_auto_indent"]}
{"id": "C63", "title": "print writes its arguments in order", "statement": "print writes exactly the texts of its arguments in their order, println the same and a line feed: to a buffered file, a fixed view or a device without a buffer, whatever the mixture of printable arguments, the sizes and the fill state of the buffers, optimised or not, never touching memory outside the buffers. On a device with scatter_write a print of plain arguments arrives in one call.", "quantifier": "every list of arguments, stream state and history of prints", "why_tests_cant": "paths depend on the types, announced sizes and fill state; unbounded", "anchors": ["include/fast_io_core_impl/print_freestanding.h: print_freestanding_decay_no_status, print_control, print_controls_line_multi_impl, print_fallback", "include/fast_io_core_impl/temporary_buffer.h", "include/fast_io_core_impl/overflow.h: put", "include/fast_io_core_impl/dynamic_io_buffer.h"]}
{"id": "C64", "title": "to scans what it prints", "statement": "to<T>(args...) and inplace_to return the value that scanning T from the concatenated texts of the arguments gives, or throw its parse code, without touching memory outside the buffers; to<T>(x) of an integer x of type T is x.", "quantifier": "every list of printable arguments, every integer type", "why_tests_cant": "the arguments are scanned piece by piece; unbounded texts", "anchors": ["include/fast_io_core_impl/to.h: basic_inplace_to_decay, inplace_to_decay_buffer_context_impl, calculate_print_normal_dynamic_maxium_main"]}
{"id": "C65", "title": "AES key schedule equals FIPS 197", "statement": "Constructing aes<16>, aes<24> or aes<32> stores the round keys of FIPS 197 and writes nothing else.", "quantifier": "every key of every key size", "why_tests_cant": "2^256 keys", "anchors": ["include/fast_io_crypto/cipher/aes.h"]}
{"id": "C66", "title": "The portable vector type computes what the element type computes", "statement": "For every set of vector instructions and every vector size: arithmetic, shifts, comparisons and compound assignments of simd_vector act element by element as the element type does (a comparison gives all ones or zero), swap_endian reverses the bytes of each element, is_all_zeros tells whether every bit is zero, vector_mask_countr_zero/one counts leading elements, and a printed vector is (e0,e1,...) within the announced size.", "quantifier": "every element type, vector size, instruction set and all element values", "why_tests_cant": "2^128 to 2^512 values per vector and dozens of preprocessor branches, of which one machine compiles one", "anchors": ["include/fast_io_core_impl/simd/gcc_clang.h", "include/fast_io_core_impl/simd/generic.h", "include/fast_io_core_impl/simd/generic_operations.h", "include/fast_io_core_impl/simd/is_all_zeros.h", "include/fast_io_core_impl/simd/mask_countr.h", "include/fast_io_core_impl/simd/prrsv.h"]}
{"id": "C67", "title": "Integers printed with a locale", "statement": "Printing an integer with a locale writes sign, base prefix and the digits with the separator of the locale exactly at the boundaries of its grouping (the last group size repeats, 0 ends grouping), and nothing outside the announced space.", "quantifier": "every integer type, value, base and flags; every grouping and separator", "why_tests_cant": "locales and groupings are arbitrary data", "anchors": ["include/fast_io_i18n/lc_numbers/integers.h"]}
{"id": "C68", "title": "Timestamps as decimal numbers", "statement": "Printing a timestamp writes exactly its number of seconds as a decimal number without superfluous zeros (with a locale: grouped, with the decimal point of the locale) within the announced space; scanning a decimal number gives its seconds and its fraction rounded to the nearest multiple of 10^-19, and scanning a printed timestamp restores it.", "quantifier": "every timestamp, every locale, every text with any number of decimals, every following text", "why_tests_cant": "2^64 seconds times 10^19 fractions; unbounded numbers of decimals", "anchors": ["include/fast_io_core_impl/iso/iso8601.h: print_reserve_bsc_timestamp_impl, scn_cnt_define_unix_timestamp_impl, scan_contiguous_define", "include/fast_io_core_impl/iso/isos.h: output_iso8601_subseconds", "include/fast_io_i18n/lc_numbers/integers.h: print_reserve_define_grouping_timestamp_impl"]}
{"id": "C69", "title": "Bytes, digests, permissions, bit sets and file status as text", "statement": "hex_encode writes two digits per byte, a UUID its 8-4-4-4-12 form, hash_digest and hash_compress the digest of the data in the requested format, perms the nine characters rwxrwxrwx, a bitset its bits with the highest first, a file status one line per field; each exactly fills or stays within its announced space and reads only its own data. A hash context used as a file hashes everything written to it, however cut.", "quantifier": "every byte sequence, permission value, bitset size and content, file status; every hash function and way of writing", "why_tests_cant": "unbounded data; 2^n bit sets", "anchors": ["include/fast_io_core_impl/integers/crypto_hash.h", "include/fast_io_core_impl/perms.h", "include/fast_io_core_impl/mode.h: file_type", "include/fast_io_unit/bitset.h", "include/fast_io_hosted/posix_status.h"]}
{"id": "C70", "title": "A range is printed with separators between its elements", "statement": "print and println of rgvw(range, separator) write the texts of the elements with the separator between neighbours and nowhere else, whatever the kind of range and elements and wherever it is printed, within the announced space.", "quantifier": "every range, separator, element type, stream state", "why_tests_cant": "ranges of every length; the path depends on range category, element type and stream", "anchors": ["include/fast_io_core_impl/range_view.h: rgvw, sized_range_view_t, range_view_t"]}
{"id": "C71", "title": "scan(in, args...) reads arguments off the coming text", "statement": "scan(in, args...) lets the arguments take consecutive prefixes of the text the stream delivers: words, tokens, lines, the whole rest, a number of characters, integers, values of fixed size. The values are stored, what lies behind the last one is what the stream delivers next, it returns true if all were read and false at the end of the input, throws for malformed input, and variables of arguments not reached keep their values. The outcome depends only on the text: not on the buffer size, the state of the buffer, how the device cuts the text into pieces, or the vector instructions used.", "quantifier": "every text, list of arguments, buffer size, buffer state, fragmentation by the device, platform", "why_tests_cant": "block boundaries can fall at every character of every text", "anchors": ["include/fast_io_core_impl/scan_freestanding.h: scan_freestanding_decay, scan_single_impl", "include/fast_io_unit/string_impl/scan_str_ctx_impl.h", "include/fast_io_freestanding_impl/serializations/strlike_get.h", "include/fast_io_freestanding_impl/serializations/str_get.h"]}
{"id": "C72", "title": "scan from an unbuffered device takes no more than the arguments", "statement": "scan from an unbuffered device leaves it exactly behind the last character the arguments took, so that later reads by any means continue there.", "quantifier": "every text, list of arguments, fragmentation by the device", "why_tests_cant": "every text and every argument list", "anchors": ["include/fast_io_core_impl/scan_freestanding.h: unget_temp_buffer"]}
{"id": "C73", "title": "Converting streams transport the text", "statement": "A stream with a code converter carries text unchanged: after closing, the device of an output stream holds the encoding of exactly the text written, ill-formed pieces replaced by U+FFFD; an input stream delivers exactly the text of the device and reports the end only when all of it was delivered. This does not depend on the buffer size, on how the text is cut into writes and reads, nor on how the device fragments its data, and no buffer is overrun.", "quantifier": "every text, pair of encodings, buffer size, sequence of operations and fragmentation", "why_tests_cant": "characters can be cut at every block boundary of every buffer and every write", "anchors": ["include/fast_io_freestanding_impl/io_buffer/main.h: write_with_deco", "include/fast_io_freestanding_impl/io_buffer/output_deco.h", "include/fast_io_freestanding_impl/io_buffer/input_deco.h", "include/fast_io_core_impl/codecvt/code_cvt.h: basic_code_converter"]}
{"id": "C74", "title": "File objects own their handles", "statement": "Every handle of the operating system has exactly one owner, a file object or the program: whatever sequence of constructions, copies, moves, assignments, resets, closes and releases a program performs and however the system answers, no handle is closed twice or lost. A copy refers to the same open file as the source, a move takes it away, other objects are not affected; an operation that throws changes nothing, and it throws only if the system refuses or an empty object is copied.", "quantifier": "every program over any number of file objects of a class and every answer of the operating system", "why_tests_cant": "ownership errors show only in particular histories (self assignment, copy then destroy, failure in the middle)", "anchors": ["include/fast_io_hosted/platforms/posix.h: basic_posix_file", "include/fast_io_hosted/platforms/win32.h: basic_win32_family_file, win32_dup_impl", "include/fast_io_hosted/platforms/nt.h: basic_nt_family_file", "include/fast_io_hosted/filesystem/posix.h: posix_directory_file", "include/fast_io_legacy_impl/c/impl.h: basic_c_family_file", "include/fast_io_hosted/file_loaders/posix_file_loader.h"]}
{"id": "C75", "title": "A file loader holds the file", "statement": "Loading a file into memory gives exactly its bytes, followed by the zero bytes asked for, however the operating system fragments the reads; the memory touched is the block of the loader; if loading fails an exception is thrown and neither memory nor a descriptor is lost; unloading frees exactly the block.", "quantifier": "every file, size, fragmentation, position of errors and answer of malloc", "why_tests_cant": "fragmentation and failures can occur at every read", "anchors": ["include/fast_io_hosted/file_loaders/posix_file_loader.h: posix_load_address, posix_load_address_extra, posix_file_loader_impl"]}
{"id": "C76", "title": "Floating point numbers printed with a locale", "statement": "Printing a float or double with a locale (general, fixed, scientific, decimal format) gives the text printed without the locale, except that the digits of the integer part are separated into the groups of the locale and the decimal point is that of the locale; the hexadecimal format changes the decimal point only. Nothing else is written, nothing is undefined, and the text fits into the space announced for it.", "quantifier": "every number including infinities and not-a-numbers, every format and flag combination, every list of group sizes, separator and decimal point of any length", "why_tests_cant": "the lengths of separators and points, the group sizes and the digits combine without limit; buffers of fixed size hold the digits", "anchors": ["include/fast_io_i18n/lc_numbers/lc_roundtrip.h: lc_print_rsvflt_define_impl", "include/fast_io_i18n/lc_numbers/lc_hexfloat.h: lc_print_rsvhexfloat_define_impl", "include/fast_io_i18n/lc_numbers/lc_impl.h: lc_print_rsv_iec559_size, lc_print_reserve_float_size_impl"]}
{"id": "C77", "title": "Streams with a mutex shared between threads", "statement": "print, println, scan, read, write, flush and transmit on streams wrapped with a mutex are atomic: whatever the threads do and however their memory accesses are interleaved, results and contents are those of the same calls made one after another, in an order that keeps the order of each thread and real time; in particular the output consists of whole texts, and every input character goes to exactly one call. Every thread finishes (no deadlock) and no mutex stays locked, also when calls throw, as long as mutexes are taken in a fixed order.", "quantifier": "every number of threads, every program of calls (each continued according to its results), every decomposition of the calls into accesses, every schedule", "why_tests_cant": "the number of interleavings is unbounded; a lost update or a deadlock needs one particular schedule", "anchors": ["include/fast_io_hosted/iomutex.h basic_general_iomutex", "include/fast_io_core_impl/utils.h io_lock_guard", "include/fast_io_core_impl/print_freestanding.h print_freestanding_decay_no_status", "include/fast_io_core_impl/scan_freestanding.h scan_freestanding_decay", "include/fast_io_core_impl/transmit/transmit.h transmit_decay"]}
{"id": "C78", "title": "Printing and concatenating with a locale", "statement": "print and println through a locale write every argument once and in order, in the way of the locale if the argument knows about locales and as without a locale otherwise, println a line feed behind them, to buffered files, fixed views, strings and devices without a buffer, never touching memory outside the buffers; on a device with scatter_write in a single call. lc_concat and lc_concatln return the same text.", "quantifier": "every list of arguments with every combination of localised and plain ways of printing, every stream state", "why_tests_cant": "the path depends on the combination of abilities of all arguments and on the space left", "anchors": ["include/fast_io_i18n/lc_print_status.h: lc_print_control, lc_print_controls_line, lc_print_fallback, lc_print_status_define_further_decay", "include/fast_io_i18n/imbuer.h: imbue", "include/fast_io_unit/string_impl/lc_concat.h: lc_concat_decay_impl"]}
{"id": "C79", "title": "Buffered stream objects", "statement": "Whatever sequence of constructions, copies, moves, assignments, swaps, reopenings, closes and destructions a program performs on buffered streams, with writing, printing and reading in between: every buffer has exactly one owner and is freed exactly once; what is written to a stream arrives in the file it referred to at that time, once and in order, at the latest when the stream is destroyed, closed or gets another file; nothing arrives in another file; copying copies the file only, moving and swapping hand over everything, and input read ahead is kept until consumed or the file changes.", "quantifier": "every program over any number of streams and files, every behaviour of the devices including failures at any call", "why_tests_cant": "histories unbounded", "anchors": ["include/fast_io_freestanding_impl/io_buffer/main.h: basic_io_buffer", "include/fast_io_freestanding_impl/io_buffer/general.h: flush, obuffer_constant_flush_prepare", "include/fast_io_freestanding_impl/io_buffer/output_normal.h", "include/fast_io_core_impl/local_new_array_ptr.h: allocate_iobuf_space, deallocate_iobuf_space"]}
{"id": "C80", "title": "Operations on files by name", "statement": "Renaming, access checks, changes of permissions, owner and times, making directories and removing files relative to a directory act on the file that is named, whatever the form of the name (array, terminated pointer, string, view; char, char8_t, char16_t, char32_t, wchar_t: the same text names the same file): the operating system is asked once for exactly what the call says (names, order, modes, identifiers, times to the nanosecond, flags), its refusal is thrown with its error number and success returns. What cannot be asked for (an owner or group that is no identifier, a creation time, a name with NUL, an impossible timestamp) is refused and changes nothing.", "quantifier": "every call of the seven operations, every name in every form, every set of flags, every operating system", "why_tests_cant": "names, flags and values combine without limit, and the tests run on one system", "anchors": ["include/fast_io_hosted/filesystem/posix_at.h: posix_renameat, posix_faccessat, posix_fchmodat, posix_fchownat, posix_mkdirat, posix_unlinkat, posix_utimensat", "include/fast_io_hosted/api_encoding_converter/posix.h: posix_api_common, basic_posix_api_encoding_converter", "include/fast_io_hosted/platforms/linux/system_call.h: system_call_throw_error"]}
{"id": "C81", "title": "Directory iteration", "statement": "A loop over recursive(at(dir)) meets every file below the directory exactly once, every directory before its contents, except what the user leaves by pop (the contents of the directory just met, or the rest of the directory the file is in); of every file met name, directory and depth are right and in memory that is there; a failing system call is reported, what was met before is a beginning of the sequence, and every directory opened is closed. A loop over current(at(dir)) shows all entries in order however the system delivers them, also in several loops.", "quantifier": "every directory tree, every choice of pops, every fragmentation by the system, every position of failures", "why_tests_cant": "trees are unbounded and failures can occur at every call", "anchors": ["include/fast_io_hosted/filesystem/posix.h: posix_directory_iterator, basic_posix_recursive_directory_iterator, pop, depth, drt, at"]}
{"id": "C82", "title": "GB 18030", "statement": "Conversion to GB 18030 stores for every character its code of the standard (ASCII as itself, otherwise two bytes, or the four bytes whose number follows the order of the characters without a two-byte code), different characters differently, and U+FFFD for what is no character; conversion from GB 18030 reads it back, reads every other input as characters with U+FFFD for ill-formed pieces, and never touches memory outside the input, the tables or the announced output. Texts converted as a whole or in pieces, with or without vector instructions, give the same result.", "quantifier": "every character, every byte string, every text in UTF-8, UTF-16, UTF-32 or GB 18030, every division into pieces", "why_tests_cant": "over a million characters and codes, any bytes, and pieces can cut every character anywhere", "anchors": ["include/fast_io_unit/gb18030.h: get_gb18030_code_units, gb18030_advance, gb18030_advance_unchecked, utf32cp_by_gb18030_index", "include/fast_io_unit/gb18030_impl", "include/fast_io_core_impl/codecvt/general.h: general_code_cvt"]}
{"id": "C83", "title": "Memory-mapped files", "statement": "Whatever sequence of mapping, moving, assigning, closing and destroying a program performs: every object that shows a part of a file shows exactly these bytes of this file, with the access the attribute names; two objects never share memory; each mapping is given back once, when its object is closed, destroyed or assigned to, nothing stays mapped when no object is left, and no other memory of the process is unmapped. A stream over a mapping reads the characters of the mapping in order and then nothing, whatever the sizes asked for; texts written arrive one after another, too much terminates the program, and no memory outside the mapping is touched.", "quantifier": "every program over any number of objects, every answer of the operating system, every region, attribute, character size, and sequence of reads and writes", "why_tests_cant": "histories are unbounded; unmapping a wrong range shows only if somebody else uses it", "anchors": ["include/fast_io_hosted/platforms/posix_mapping.h: posix_memory_map_file, to_posix_file_map_attribute", "include/fast_io_hosted/platforms/omap.h: basic_omemory_map, basic_imemory_map"]}
{"id": "C84", "title": "Locks on files", "statement": "A lock call that returns has given the process exactly the lock asked for (shared or exclusive) on exactly the bytes of the request, for every integer type of the request; one that throws has changed nothing; it can return as soon as nobody holds a lock that excludes it. Whatever any number of processes do, two are between lock and unlock of a common byte only if both locks are shared. Unlocking, in particular the end of the lifetime of a guard, releases these bytes; trying to lock does not wait.", "quantifier": "every number of processes, every history of calls, every request, every answer of the system", "why_tests_cant": "the order in which processes run is arbitrary", "anchors": ["include/fast_io_hosted/platforms/posix_file_lock.h: posix_file_lock_lock_impl, posix_file_lock_unlock_impl, posix_file_lock", "include/fast_io_core_impl/enums/flock.h: basic_flock_request, file_lock_guard"]}
{"id": "C85", "title": "Complex numbers are printed as pairs", "statement": "Printing a complex number writes (re,im), each part being the text the part alone would get in the requested format (general without manipulator, fixed, scientific, hexadecimal, either case), with the comma as decimal point (re.im); nothing else is written, the text fits into the space announced, it can be taken apart in one way only, and reading the parts gives the same number.", "quantifier": "every complex<float> and complex<double>, every format, the hexadecimal format also for half and __float128", "why_tests_cant": "2^128 numbers", "anchors": ["include/fast_io_unit/complex.h: print_reserve_complex_impl, print_reserve_size", "include/fast_io_unit/floating/impl.h"]}
{"id": "C86", "title": "The streams of a started program", "statement": "A program that is started gets as its standard streams what was asked for: the given file, the end of the pipe it needs, the null device, or the stream of the parent; of the other descriptors it gets those that are inherited, but not the ends of its pipes that are for the parent; what cannot be done is reported. In the parent exactly the ends that are for the child are closed, and when the parent closes a pipe the child sees the end.", "quantifier": "every table of descriptors, every request for the three streams, every sequence of pipes and children", "why_tests_cant": "the result depends on numbers of descriptors that the kernel chooses and on what other children exist", "anchors": ["include/fast_io_hosted/process_revamp/posix.h: child_process_execveat, child_process_deal_with_process_io, parent_process_deal_with_process_io, posix_fork_execveat_common_impl", "include/fast_io_hosted/platforms/posix.h: posix_io_redirection, redirect, basic_posix_pipe"]}
{"id": "C87", "title": "Waiting for child processes", "statement": "A process object waits for its own process: wait returns the status the process ended with, destruction and assignment end after the process of the object ended; no process is taken away from another object, and when no object is left no ended process is left behind, except those detached.", "quantifier": "every history of starting, moving, assigning, waiting, detaching and destroying, every order in which processes end", "why_tests_cant": "which process ends first is chosen by the system", "anchors": ["include/fast_io_hosted/process_revamp/posix.h: posix_process, posix_process_observer, wait, detach, posix_waitpid, posix_waitpid_noexcept"]}
{"id": "C88", "title": "Random numbers from the system", "statement": "What is read from the random source of the system, with read, read_all or through an engine, consists of random bytes of the system, each used once: numbers drawn one after another share no byte and contain nothing that was in memory before, however the system cuts the data; reading ends only with an error of the system; memory outside the range is not written. The entropy reported is that of the system.", "quantifier": "every sequence of draws and reads, every element size, every fragmentation by the system", "why_tests_cant": "fragmentation depends on signals; stale bytes look random", "anchors": ["include/fast_io_hosted/white_hole/linux_getrandom.h: read, linux_getrandom_read", "include/fast_io_hosted/white_hole/white_hole.h: basic_white_hole_engine, random_entropy", "include/fast_io_core_impl/read_all.h: read_all_impl_decay_cold"]}
{"id": "C89", "title": "The second integer printer", "statement": "The alternative digit generator kept in the library (uprsv_main) writes, for base 10 and base 16, the canonical numeral of every unsigned value and returns the position after it, reading only its digits table and overwriting at most one character after a numeral of one digit.", "quantifier": "every unsigned value of 8 to 128 bits, both letter cases, every memory and position", "why_tests_cant": "2^64 and more values; the multiplications by rounded reciprocals are wrong for rare digit groups only", "anchors": ["include/fast_io_core_impl/integers/uprsv/dec.h", "include/fast_io_core_impl/integers/uprsv/hex.h", "include/fast_io_core_impl/integers/uprsv/impl.h: uprsv_main"]}
