# Formal model of cppfastio/fast_io in Lean 4

## Trusted base

* Lean 4.33.0's kernel (and the Mathlib files imported one by one; they are checked by the same kernel).
* Axioms: only `propext`, `Classical.choice`, `Quot.sound`.  No axiom is added, no compiled-code decision
  procedure is used.
* The faithfulness of the hand-written model: the C++ sources in `/repo` are read as text, every definition
  cites file and lines.  The code is never compiled or run here.  Platform assumptions: two's complement,
  8-bit bytes, little-endian x86-64 with 64-bit `size_t`, ASCII execution charset (EBCDIC branches are not
  modelled unless stated), g++/clang so that `__uint128_t` exists.
* Each external call (device read/write, allocator, OS) is a parameter of the model; its assumed behaviour is
  written in the model file.

## Conventions

* A character/byte is a `Nat` code unit (bounded hypotheses are explicit), or `BitVec n` where the code does
  bit-level arithmetic.  Machine arithmetic is written with explicit `% 2^w` (or `BitVec`).
* A pointer range is a list plus index; an out-of-range access is a distinct outcome (`none`/`ub`), never a
  default value.
* A loop is structural or fuel-free well-founded recursion; a `switch` with fall-through is a chain of functions.
* For each area `X`: `Verif/X/Spec.lean` (small independent specification), `Verif/X/Model.lean` (model of the
  code), `Verif/X/Lemmas*.lean` (helpers), `Verif/X/Props.lean` (property theorems with non-vacuity examples).
* When the code contradicts a property, the file proves the negation on a concrete witness
  (`..._violated`), and the restricted claim is named `..._partial`.

## Plan per property

| id | model | proof |
|----|-------|-------|
| C01,C02 | jeaiii digit extraction on 32/64/128-bit words, 2-digit table, tree dispatch | invariant `r*2^32 <= t*10^k < (r+1)*2^32` through each step |
| C03 | generic pair-at-a-time writer, prefix, `chars_len` | induction on number of digit pairs |
| C04 | reserve-size function vs. output length | numeral length monotone; witnesses INT_MIN |
| C05 | precise-size function and `jeaiii_main_len` | as C01; witnesses where sizes disagree |
| C06,C07,C10 | scalar scanner with max_size phase, overflow test, digit table | induction on the digit run; round trip with C01/C03 |
| C08 | context scanner state machine | witnesses for broken phases; `_partial` for the rest |
| C09 | SSE parse lane arithmetic and skip function | lane algebra; witness for the wrong end pointer |
| C11-C13 | LEB128 writer, contiguous and context readers over bit words | induction on groups |
| C14 | lebe put/get with byte_swap on a little-endian host | digits base 256 |
| C15-C17 | UTF decoder/encoder functions | case analysis on ranges; induction on sequences |
| C18-C20 | io_buffer state machines over an abstract device | history invariant, fault schedule for C19 |
| C21 | partial-transfer loops | induction on schedule |
| C22,C23 | hash context buffer/counter machine, abstract compression | invariant: state = fold over full blocks, buffer = tail |
| C24-C27 | compression functions, scalar; for SHA-2 also the vector and SHA-instruction routines | unrolled loops equal to the standard's recurrences |
| C28 | table-driven CRC | table = bitwise definition, linearity |
| C29-C33 | civil-date arithmetic, text format | integer arithmetic, era decomposition |
| C34,C35 | address text | induction/cases |
| C36,C39 | parser state machines | split invariance by induction |
| C37 | buffer-level padding | list equations |
| C61,C62 | conditional printing, column alignment | list equations; induction over the lines and cells of a table |
| C38,C40 | growing buffers / vector | refinement to lists |
| C64 | `to` over items and a scanner | pieces reduce to C08, single arguments to C06/C07 |
| C63 | print dispatcher over an abstract stream | each path appends the text (Hoare triple per stream law) |
| C41,C42 | multi-word arithmetic | `Nat` arithmetic (Knuth D) |
| C66 | the SIMD vector type, all instruction sets | lane-wise lemmas, tables checked against the byte permutation |
| C67 | locale-dependent printing of integers | invariant over the digits written backwards; groups of three by induction on the number of digits |
| C68 | printing a timestamp (plain, with locale), contiguous scan | digits of the fraction after stripping zeros; scan of the fraction against nearest-even rounding |
| C69 | hex, UUID, digests, permissions, bit sets, file status | induction over bytes and words; composition with C24-C27 and C68 |
| C70 | range views | the view is shown to be an honest argument in the sense of C63; loop invariant over overlapping stores; composition with C63/C38 |
| C71 | scan of several arguments | resumable scanners are shown right block by block against an invariant; the driver loop by induction on the text left; the contiguous fast path by extension of its result to the longer text; independence of blocks by uniqueness of the specification |
| C72 | scan of unbuffered devices | a buffer of one character; invariant that the buffer holds what the device delivered last |
| C73 | converting streams | law of a decorator (state, history, output) proved for the converters of C17; invariants of the output and input buffers over all programs and device scripts |
| C74 | file objects | transition system over objects, open handles and the handles of the program, the system answers as arguments; ownership invariant over all programs, refinement of each operation to values |
| C75 | file loaders | memory as blocks of possibly uninitialised bytes, read answers as a script; induction over the read loop |
| C76 | floating point numbers with a locale | the layout code of lc_roundtrip.h and lc_hexfloat.h over the conversion of C46/C47; the grouping loop related to `Grouped` of C67, each layout to the one without locale |
| C77 | streams with a mutex, many threads | threads as interactive programs of calls, calls as guards around sequences of single accesses, small steps under an arbitrary schedule; invariant relating every state to the serial execution of the finished calls; well-founded measure and lock order for completion |
| C78 | printing and concatenating with a locale | arguments as C63 items plus localised abilities; the localised dispatcher on top of the C63 model of streams and devices; every path shown to append the localised texts, the list of pieces by reduction to the plain one |
| C79 | buffered stream objects | objects with both buffers as blocks of a heap, files as logs of deliveries, scripted devices; 14 operations; invariant (unique owner of every block, pending characters complete the log) kept by each operation |
| C80 | operations on files by name | the seven `...at` functions down to the arguments of the system calls, all forms of names with the conversion of C15/C59; the Linux call interface is part of the specification, the operating system arbitrary |
| C81 | directory iteration | `++`, `pop`, `begin` of the recursive iterator over listings as trees, with arbitrary failures of readdir/openat/fdopendir; refinement to a recursive walk; the one-directory iterator over an open file description with arbitrary fragmentation |
| C82 | GB 18030 | tables transcribed as numbers, encode/decode and the conversion loops with state; the basic plane by kernel evaluation over the whole plane (complete domain, not a sample), the rest by arithmetic; texts by refinement to reading character by character |
| C83 | memory-mapped files | transition system over objects and the pages of the process with the answers of the system as arguments; ownership invariant over all programs with the place of every mapping as ghost; streams by induction over the calls |
| C84 | file locks | requests as integers of any width, the record locks of the kernel as a table by process and byte, calls as relations (waiting: no transition); mutual exclusion by invariant over all reachable states of all processes |
| C85 | complex numbers | the pair printer over the part printers of C46/C47, memory as in C01; the separator is shown not to occur in a part, so the text has one reading; parts by the theorems of C46/C47 |
| C86 | descriptor tables; redirections, fork, dup2, null device, exec, pipes (Child/Spec, Model); the table of the child described by phases, invariant over the three streams |
| C87 | process objects and the children of the kernel, wait4 (Child/ProcSpec, ProcModel); invariant over histories |
| C88 | random source, `read_all`, engine | memory as the numbers of the random bytes in it (provenance); induction over the answers of the system |
| C89 | `uprsv_main`, base 10 and 16 | fixed-point word invariant of C01 for the magic multipliers; groups of eight digits; counterexamples by evaluation |
| C43,C44,C65 | padding, ChaCha20 (scalar, four lanes), AES key schedule against RFC 5652, RFC 8439, FIPS 197 | symbolic evaluation, step lemmas |
| C45 | per-character functions | full finite table + range argument |
| C46 | `Verif/Float`: Dragonbox conversion and decimal text layer of `double` and `float` | round trip, shortest, closest over the rationals; fails for 255 powers of two (`double`) and for nine exponent fields plus powers of two (`float`) |
| C47 | hexfloat | exact rational value of the printed numeral, all formats |
| C48,C49,C50 | copies, mode flags, path functions | direct / finite domain / induction |

Details and deviations are appended below as the model grows.

## Details and deviations

### LEB128 (`Verif/Leb`, C11-C13)
Writer and both readers (contiguous, context) of `fast_io_unit/leb128.h` on values as `Nat`/`Int` with explicit
wrap-around. The context reader is proved equal to the contiguous one on the concatenation for every chunking.

### Fixed-width integers (`Verif/Lebe`, C14; `Verif/Core/Bytes`)
`le_put`/`be_put`/`le_get`/`be_get` for hosts of both byte orders. The byte-swap is the shift/or loop of the code,
proved to reverse the base-256 digits. Narrowing `get` for one-byte characters does not compile in the code and is
not modelled.

### Buffered I/O (`Verif/IoBuf`, C18-C21, C52, C53)
* `OutModel` models the undecorated output path; the device is an arbitrary script of answers (full, short, throw
  after k). A program is a list of operations; exceptions are caught and the program goes on. Decorators
  (`output_deco.h`), secure clearing, allocation failure are not modelled.
* `InModel` models the undecorated input path, tie mode excluded, one-byte characters for `seek`. Null pointers and
  pointer offsets are explicit, so that the null `buffer_curr` after a failing first read is visible.
* `AllModel` models the `rwreflect` write loops and the Windows `posix_write_nolock_impl`. The rwreflect read loops are
  symmetric and not modelled (they loop for ever at end of file).
* `View` models `basic_obuffer_view` and the contiguous branches of `print_control`.

### Hashes (`Verif/Hash`, C22-C28, C54)
* `CtxModel` models the block buffer, counter, padding and digest output of `md5_sha_hash_context.h` for an arbitrary
  compression function, on hosts of both byte orders; `CtxSpec` is the padding of the standards. Every store is
  bounds-checked. `Counter` models the two-word counter used without `__int128`.
* `Fips`, `Sha1Spec`, `Md5Spec` are transcriptions of FIPS 180-4 and RFC 1321; the SHA-2 constants are defined as roots of
  primes and the MD5 table is proved to be the sine table over the reals. The unrolled round lists of the code are
  generated from the source text as tables (`Sha2Model`, `LegacyModel`).
* Not modelled: vector and SHA-extension variants (`sha256_simd16.h`, `sha256_x86_sha_extensions.h`, `sha512_simd*.h`).
* `CrcSpec` defines a CRC as a remainder of polynomials over GF(2).

### Arith (C41, C42)
`Verif/Arith` models `intrinsics/carry.h`, `intrinsics/udivmod.h` and the word functions of `intrinsics.h` for every word size
`w` (`2*h` for the division), each compiler branch separately. Trusted: the compiler builtins themselves, the machine `div`
instruction branch, `std::countl_zero`. The proof of the division is Knuth's algorithm D for two digits plus an invariant of the
shift-and-subtract loop. The older `udivmod` of `intrinsics.h` is modelled in full and refuted by a concrete division.

### Time (C29-C33, C55-C57)
`Verif/Time` models `iso/iso8601.h` (civil date, seconds of a date, weekday, arithmetic, comparison, division, epochs; printing and
contiguous scanning), `integers/chrono.h` and `iso/isos.h`, and local time on Linux given the zone offset. `Spec` defines the
calendar by stepping one day at a time from 1970-01-01, and a timestamp's value as an integer count of 10^-19 s. Signed overflow, reads
beyond the input and termination are `none`. `Calendar` proves the closed form of the stepped calendar. Not modelled: the chunked
timestamp scanner, the Windows conversions, the C library functions behind `local`.

### Utf (C15-C17, C58-C60)
`Verif/Utf` models `codecvt/{utf,general,utf_ebcdic}.h`: the encoders, the table-driven UTF-8 decoder, the loops over each source
encoding including the SSE path, the stateful conversion used by `code_converter`, `general_code_cvt_full`, and the reserve sizes. The
decoder tables are copied from the source (`Tables`). `Spec` defines the encoding forms after the Unicode standard and `Reads`: a
decomposition of arbitrary input into characters and shortest ill-formed pieces (proved unique). Not modelled there: GB 18030 (C82), byte-swapped
sources, the explicit scheme parameters of `code_cvt` (which the code ignores when printing).

### Ip (C34, C35)
`Verif/Ip` models `socket/addrprt.h` (all printers) and `socket/addrscn.h` (IPv4 contiguous and resumable, ports, IPv6 contiguous). The
integer scans are those of `Verif/IntScan` with the buffer sizes of the address scanner. `Spec` defines dotted decimal, the RFC 5952 text and
the RFC 4291 meaning of a text. Not modelled: the resumable IPv6 scanner (empty in the code), `ip`/`ip_address` scanning (the code only
dispatches), white space with vector instructions is restricted by `SpaceSafe` (C51).

### Copy, Width, Indent (C37, C48, C61, C62)
`Verif/Copy` models the copying and filling functions of `freestanding/algorithm.h` and `utils.h` over one memory, separately for run time
(`memmove`, `memcpy`, `memset`, trusted as in C17) and constant evaluation (loops). `Verif/Width` models `width.h` and `cond.h` on top of
it; what is printed in a field is any item that meets `Prints` (its own size contract) - integers are instantiated with the model of
`Verif/IntPrint`. `Verif/Indent` models `auto_indent.h`; its specification describes the text as a table of lines and cells, and every
text is one (`c62_every_text`). Not modelled: `print_define` paths of `cond` (they call the print dispatcher on the chosen argument).

### Vec (C40)
`Verif/Vec` models `dsal/impl/{vector,freestanding,common}.h`: a vector as three addresses into a memory of cells that are not allocated, empty,
moved-from or hold an element, for trivially relocatable types and for types with a destructor. Access to freed memory, a destructor without an
object and freeing live objects are failures; objects overwritten without their destructor are counted. `Spec` has the operations on lists.
Allocation gives fresh addresses and refuses 2^63 bytes and more. Not modelled: throwing constructors, allocators with state, iterators as such
(positions are indices), `insert_range`.

### Print, concat (C63, C38)
`Verif/Print` models the print dispatcher (`print_freestanding.h`, `overflow.h`, `temporary_buffer.h`) over an abstract stream (`Stream`), its
instances (buffered file of `Verif/IoBuf`, fixed view, string reference, `dynamic_io_buffer`), the device path with its list of pieces, and
`concat`. An argument is an `Item`: its text and the ways the library may print it; `Honest` says that it keeps its announced sizes. Not
modelled: locks and `status_output_stream` (wrap the same calls), address sanitizer variants, allocation failure, `print_alias_define` (done
before dispatch), throwing devices during a print (C19 covers single operations).

### To (C64)
`Verif/To` models `to.h` over the arguments of `Verif/Print` and any scanner given as functions (`Target`), instantiated with the integer scanners of
`Verif/IntScan`. Not modelled: `u16inplace_to`/`u32inplace_to` (declared to return a value, they do not).

### Line (C39)
`Verif/Line` models the character search of `simd_find.h` (`memchr` trusted, vectors, the SWAR loop on 64-bit little-endian words, the plain loop),
`line_scanner.h` and the scanner driver `transmit/scanner.h`: stream buffer and scanner buffer are explicit arrays, a view is a pair of offsets
read when the user looks at it, cells never written have no value. `Spec` describes the lines of a text as a relation, shown to have exactly one
solution. Not modelled: allocation failure, the mutex itself.

### Http (C36)
`Verif/Http` models `http_header.h` completely (resumable scanner, status line, field iterator) with the driver of resumable scanners, on the search
of `Verif/Line`. `Spec` describes a header by its parts (`Header`, `Field`), with the conditions that make the parts identifiable.

### Crypto (C43, C44, C65)
`Verif/Crypto` models `padding/*.h`, `streamcipher/chacha/{scalar,simd16}.h` and the constructor of `cipher/aes.h`; arrays are explicit, an index
outside is a failure. `Spec` follows RFC 5652, RFC 8439 and FIPS 197 and reproduces their examples. Trusted: the description of the vector
instructions (`_mm_*`, `__builtin_shufflevector`) in the model. None of these headers is included by `fast_io_crypto.h`; there is no
encryption function to model (`aes::operator()` is empty).

### CharCat (C45)
`Verif/CharCat` models `char_category.h` for an ASCII execution character set: a character is an integer in the range of its type (`CT`: width and
sign), `switch` tables are lists of cases, the 8-bit white-space table is the table. `Spec` gives the C-locale classes as ranges. Not modelled: EBCDIC
and `wchar_t` in the non-native byte order.

### Mode, Fs (C49, C50)
`Verif/Mode` models `to_c_mode` (`mode.h`), `calculate_posix_open_mode` (preprocessed for Linux x86-64; the values of the `O_*` constants are
trusted), `calculate_fstream_file_open_mode` and the access and disposition parts of the two Windows translations. `Spec` has the table of
[filebuf.members] and the meaning of `open`, `fopen`, `filebuf::open`, `CreateFile`, `NtCreateFile` on a file that exists or not; what POSIX leaves
undefined is an outcome of its own. `Verif/Fs` models `fsutils.h`; `Spec` has the rules of [fs.path.decompose]. Not modelled: permissions,
sharing modes, attributes, directory iteration.

### Float, hexadecimal (C47)
`Verif/Float/Model` models `punning.h` and `hexfloat.h`: a floating point argument is its bit pattern (`bit_cast` is trusted), and the text is
written into the memory of `Verif/IntPrint`. `Spec` defines the rational value of a bit pattern from IEC 60559 and the exact rational value of a
hexadecimal constant; the theorems say that they are equal. `long double` (converted to `__float128` by the compiler) is not modelled.

### Float, decimal (C46)
`Verif/Float/RtModel` models `roundtrip.h:716-1374` (the Dragonbox conversion `dragonbox_main`, the removal of trailing zeros, and the text layer for
the four decimal formats) and `Tables` contains the four constant tables, generated from the header text. `Spec` defines rounding to nearest, ties to
even, over an unbounded exponent range (`RoundsTo`), decimal texts and their rational value (`IsDecText`), and the shortest/closest predicates;
none of these mentions the algorithm. Proof: `RtCheck` has one kernel-checked fact per binary exponent (2046 + 254): the table entry and the true power
of ten lie between neighbouring fractions (a Stern-Brocot certificate in `Cert64`/`Cert32`), hence all products that occur have the same integer parts
for *every* significand (`RtCore.floor_same`). `RtCore`/`RtRest` prove the decision tree from these integer parts, `RtMain` moves to the rationals,
`RtText` proves the text layer, `RtPow2` and `RtBest` treat powers of two and optimality, `RtProps` has the theorems.
`schubfach_asymmetric_interval` (834-883) is not modelled: its call is guarded by `m2==0` after `m2|=mflags`, so it is dead code. Consequences, all
proved: 255 powers of two in `double` and 25 in `float` are printed as texts that read back as the number below; for `float` the parity test of the last
digit is inverted (`small/2=5` is odd), so in nine exponent fields ordinary numbers do not round trip, and elsewhere the last digit is not always the
closest; with 32-bit `size_t` a trailing zero can remain; `Distinct*` derive that different numbers have different texts (a text determines digits and exponent,
and no decimal number is read as two numbers), except where the round trip fails: `2^-24` and its predecessor share a text; the general format of `float` can exceed the announced space by one character.
Not modelled: `long double`, 16-bit formats and `__float128` in decimal (the library has no decimal printer for them), and scanning of floating point
numbers (the library has none at this commit).

### Vector SHA-2 (C24, C25)
`sha256_simd16.h`, `sha512_simd16.h`, `sha512_simd32.h`, `sha512_simd32_shuffle.h`, `sha256_x86_sha_extensions.h` and its MSVC
twin. The source unrolls every block into some 100-150 calls; the model keeps them as tables (one row per call, in source order),
interpreted by one step function per kind of call. A vector is the list of its lanes; vector arithmetic acts on lanes;
`swap_endian` reverses the bytes of a lane. The tables are checked against the standard's schedule by a verified symbolic
execution: an abstract state names, for every register lane, which word W_t (or W_t+K_t, or which partial sum) it holds, and one
lemma per kind of call shows that the concrete call preserves the naming. The kernel runs the abstract execution on the fixed
table (a finite program, not a sampled input); the block contents and the state are universally quantified.
The x86 routines rest on the Intel manual's description of SHA256RNDS2, SHA256MSG1, SHA256MSG2, PSHUFD, PALIGNR, PBLENDW and
PSHUFB, written out in `NiModel.lean`; this is part of the trusted base. The immediate of PALIGNR (4 bytes; written as 32 bits for
GCC) is taken as four bytes. Local arrays uninitialised in the source start at zero.

### Vector type (C66)
`simd/gcc_clang.h`, `generic.h`, `generic_operations.h`, `is_all_zeros.h`, `mask_countr.h`, `prrsv.h`. Elements are `BitVec n`, a vector
is the list of its elements, or of its bytes where bytes matter. The branch taken by the preprocessor is a parameter (`Flags`,
`SwapVariant`, `ZeroVariant`, `CountVariant`), so the theorems quantify over instruction sets. The instructions (PSHUFB, PUNPCK*,
PACKUSWB, PCMPGT*, VPTESTMB, PMOVMSKB, VPMOVM2*, ...) have the meaning given in the Intel manual; that is part of the trusted base. The
shuffle tables of `swap_endian` were extracted from the source by a script. Signed overflow wraps in the model. Not modelled: NEON
branches except `!=`, floating point elements, `shuffle` without `__builtin_bit_cast`.
Consequence for other parts: with AVX512BW `is_all_zeros` is inverted, so the vector loops of `simd_find.h` are modelled with a
flag `ptestm` (C06, C51: part of `Cfg`; C39: argument of `findChT`); the theorems exclude it where it matters, and
`c51_avx512_space_violated`, `c06_avx512_zeros_violated`, `c39_avx512_violated` show the effect. The scanners of C31, C33, C36 and
C62, which use these loops, are stated for the other builds.

### Integers printed with a locale (C67)
`fast_io_i18n/lc_numbers/integers.h`. The specification `Grouped` is an inductive relation between digits and text, with the
boundaries defined from the list of group sizes; `c67_grouped_unique` shows it determines the text. The three paths (no grouping,
groups of three with one character, general) are proved against it. The text in the temporary array is a list that grows at its
head, bounded by the size of the array. `cal_max_int_size`, `chars_len`, the digit table and the function without locale are
those of C01-C05. Not modelled: EBCDIC, the overload for `std::byte` (does not compile: the argument `all` is missing).

### Timestamps as decimal numbers (C68)
`print_reserve_bsc_timestamp_impl`, `scn_cnt_define_unix_timestamp_impl` and `scan_contiguous_define` of `iso/iso8601.h`, the fraction
of `iso/isos.h`, and the locale versions of `lc_numbers/integers.h`. The printer and the scanner of integers are those of C01-C08,
the fraction that of C30. `DecimalText` states the text; its value is `TS.val` in units of 10^-19 s. Not modelled: the chunked
scanner `scn_ctx_define_unix_timestamp_impl` (iso8601.h:744-), which has several defects (its buffer of 20 characters is too small
for the longest negative number; iso8601.h:776 copies over the start of the buffer), EBCDIC, the comma variant.

### Bytes, digests, permissions, bit sets and file status (C69)
`integers/crypto_hash.h`, `perms.h`, `file_type` of `mode.h`, `fast_io_unit/bitset.h`, `posix_status.h`. Reading outside an array is
`none`. The bitset is the array of its storage words (as `reinterpret_cast` takes it); the theorem needs nothing about unused bits. The
hash contexts are those of C24-C27. Not modelled: run-time sized digests, constant evaluation of `hash_compress` (does not compile:
swapped arguments at crypto_hash.h:509), EBCDIC.

### Range views (C70)
`range_view.h`. Elements are `Print.Item`s; `joined` is the specification. `Is v i` says that the view behaves on every array as the
item `i` (text and the rest left behind it), so the theorems of C63 and C38 apply to views mixed with other arguments. `range_view_t`
prints through `print_freestanding`, modelled with the dispatchers of C63. Not modelled: iterators (the elements are a list), the
narrowing conversion that makes contiguous ranges of unknown length not compile.

### scan of several arguments (C71, C72)
`scan_freestanding.h`, the string scanners of `scan_str_ctx_impl.h`, `strlike_get.h` and `str_get.h`; the integer scanners are those of
C06-C10, the buffered stream that of C20/C21. `Reads` (one argument) and `ReadAll` (several) in `Scan/Spec.lean` state the property on
the text alone. `Safe` collects the restrictions under which the individual scanners are right; `c71_strings_partial` and
`c71_numbers_partial` discharge them for strings and for decimal numbers. Running out of `fuel` is `none`, so the theorems also say
that the loops end. Not modelled: `scan_precise_reserve_define` with errors, `scan_alias` objects that are neither (tuples),
`mutex`, status streams, contiguous-only scanners used on buffered streams, `fixed` values on streams with the address sanitizer.

### Converting streams (C73)
`io_buffer/{main,output_deco,input_deco,output,input}.h` with the converters of C15-C17 and C59 as decorators. A decorator is a size
function and a step function on abstract states; `Lawful` is what the buffers need from it, and `converter_lawful` proves it for every
pair of different encodings. The contents of the internal buffer are a list; storing more than `bfs` units in it, more than
`deco_reserve_size` units in the external one, or more than asked for at the destination is `none`. Not modelled: decorators between
equal encodings (a copy), chains of several decorators, `flush`, `seek`, `tie` and `obuffer_constant_flush_prepare`, which do not
compile with external decorators (general.h:11, :40; input.h:72, :95, :158).

### File objects (C74)
The special member functions of the file classes. A handle is a number, the table `fds` says which open file it refers to; closing a
handle that is not open is `none`. The operating system may answer anything to a call that makes a handle, except a handle in use
(`alloc` treats that as a refusal). Operations on objects that do not exist, or that the class does not have, do nothing, so programs
are arbitrary lists. Not modelled: `reopen` (it is `reset` with a new handle), the FILE flags and codecs, pipes (two files), buffers of
`basic_io_buffer`.

### File loaders (C75)
`posix_file_loader.h`. Memory is a map from blocks to bytes that may be uninitialised; a store outside the block is `none`. The kernel
answers each `read` with an error or with at least one byte unless the file is at its end. The file does not change while it is loaded, but
the reported size may differ from its size. Not modelled: `allocation_file_loader.h` (unfinished, does not compile), the win32 loader
(a mapping), flags of `mmap`, `EINTR` handling (it is an error here and in the code).

### Floats, every value (C46)
`c46_near` needs no assumption on the number: the inverted parity test moves the last digit by at most one, so the value stays within
six tenths of a unit (`Weak` in `RtMain.lean`); layout, space and absence of undefined behaviour hold for every `float` and `double`.

### Floats with a locale (C76)
`lc_roundtrip.h`, `lc_hexfloat.h`, the sizes of `lc_impl.h`. The arrays `buffer1`, `buffer2` of the code are lists with a capacity; a
store beyond it is `none`, so "free of undefined behaviour" includes that they suffice (13 characters are just enough for the decimal
format of `float`, proved by an analysis of all powers of ten, `Room32.lean`). The backwards writing into `buffer2` is modelled by the
text in front of which characters are put. A group size of zero ends the grouping. Not modelled: `long double`/`__float128`
conversions, the overloads that forward to these functions.

### Streams shared between threads (C77)

`Verif/Conc`. A call is a chain of `io_lock_guard` scopes around an unlocked operation (`printCall`, `opCall`, `transmitCall`
follow the `if constexpr` chains of print_freestanding.h, scan_freestanding.h, iomutex.h and transmit.h); the unlocked operation is
an arbitrary tree of single accesses to stream states (`Body`), each continued according to what it saw, so every granularity
of interleaving is covered. An exception is one of the results: the guards are destroyed on the way back in either case. A
schedule is a list (or infinite sequence) of thread numbers; a thread that waits for a mutex lets its turn pass. `Sys.log` is
a ghost: it notes a call when its operation is finished, still under its guards. The invariant (`Inv`) says that streams nobody
works on are in the state of the serial execution of the log, and that the rest of a running operation leads from the present
state to where the whole operation leads from the serial state. `c77_print` connects to the print dispatcher of C63: any
`body` whose undisturbed effect is that of `printBuffered`. `c77_writes` carries it out for buffered writes at the level of
character stores and pointer updates. Assumed: sequentially consistent memory (justified by the mutexes for race-free
programs), mutexes of the operating system as specified, PTHREAD_MUTEX_DEFAULT blocking its owner. Not modelled: `try_lock`,
scanners that hold the mutex for their lifetime (transmit/scanner.h), `io_lock_guard`'s noexcept constructor around a
throwing `lock` (ends the program), streambuf/`FILE*` locks beyond being recursive mutexes.

### Printing with a locale (C78)

`Verif/LcPrint` models `lc_print_status.h` and `lc_concat.h` function by function on top of `Verif/Print` (streams, devices, arrays,
plain dispatcher are those of C63/C38). An argument is a plain argument of C63 plus the localised abilities the concepts
`lc_scatter_printable`, `lc_dynamic_reserve_printable`, `lc_printable` ask for. The expected text is the localised one if any of the three
exists. `c78_number_partial` shows that integers as modelled for C67 are such arguments, so the theorems apply to them; the other localised
types (floats, C76; time, `lc_time.h`, not modelled) enter only as arbitrary arguments that keep their promises.

- Proved for all arguments on streams with a buffer. On a fixed view a localised argument of value-dependent size is safe (the space is looked at
  before storing), unlike a plain one (C53).
- Devices without a buffer: `LcArg.Coherent` is needed because `lc_print_fallback` decides by the plain abilities of an argument whether it can go
  into the list of pieces and then looks only at its localised range or size; `c78_device_violated` are the two ways in which the locale is lost. User
  types can do this; the library's own localised types do not.
- `lc_concat`: `lc_calculate_scatter_dynamic_reserve_size_with_scatter` counts nothing for `reserve_printable` arguments
  (`c78_concat_violated`: 20 characters next to a localised number, capacity 15). The branch of it for a tail without localised arguments calls
  `calculate_scatter_dynamic_reserve_size_with_scatter` without the character type, which cannot be deduced; the model gives it the meaning intended.
  `lc_concatln(basic_lc_all const*,…)` passes the character type as the string type; both are compile errors and not modelled.

### Buffered stream objects (C79)

`Verif/BufObj` models the special member functions, `reopen`, `close` and `swap` of `basic_io_buffer` (main.h) without decorators, with `write`,
`print` of an announced size, `flush` and refilling in between; the output buffer is that of C18 (`Verif/IoBuf`). The handle is abstracted to the
file it refers to (C74 treats the handles themselves): a copy refers to the same file, a moved-from or closed one to none, and a call on none
fails. Identities (`tag`, `nextTag`) and the record `written` are ghosts; `c79_values_partial` says how they change (`identities`, `asks` in Spec),
independently of the model. Devices answer according to an arbitrary script (take all, part, fail); delivery needs devices that take everything.

- `flush` (general.h:16-17) and `obuffer_constant_flush_prepare` (general.h:44-45) reset the *input* buffer: for a stream open in both directions what was read
  ahead is lost, already by printing the first number (`c79_input_violated`).
- `reopen` uses `close_impl`, which swallows the exception (`c79_reopen_violated`); destructor and move assignment do the same, by design.
- Self move assignment (excluded by `__restrict`) is modelled as executed literally; it flushes, frees the buffers and keeps the handle.
- Buffered streams with `deco_out_no_internal` or decorators, and allocation failure (terminates), are not modelled.

### Operations on files by name (C80)

`Verif/AtOps` models `posix_at.h` for Linux on x86-64 and `posix_api_common`, which turns a name in any form into a terminated byte string (it is also
what opening a file uses). A pointer is modelled by what is readable from it on, fresh memory has arbitrary contents. The specification contains the
documented interface of the eight system calls (`decode`: numbers, argument order, flag bits, which calls have no flags) and leaves the operating system's
reaction to requests open; `small` is a one-directory file system for counterexamples only.

- `posix_fchmodat`: the system call has no flags, glibc's function does (it refuses or works around); here they are passed and not looked at
  (`c80_chmod_nofollow_violated`). The same for `faccessat` (`c80_access_flags_violated`).
- `posix_fchownat_impl` checks `owner` twice, `group` never (`c80_group_violated`).
- `c80_nul_violated`, `c80_fraction_violated`, `c80_mkdir_default_violated`: see the manifest.
- Wide arrays are converted without their last element (`cal_array_size`), so a wide array without a terminator loses a character; the
  specification of names (`Writes`) takes arrays padded with NULs. Ill-formed wide names are converted as C16 says; nothing is claimed.
- Not modelled: other systems, and the functions that do not compile when used (`posix_linkat`, `posix_symlinkat`, `posix_fstatat`).

### Directory iteration (C81)

`Verif/DirIter`. A directory is a listing in the order of the system, subdirectories inside (`Listing`); it does not change during the iteration. The
order of the walk is the specification (`walk`), shown to meet every file once (`c81_once`); the decisions of the user are a function of the path, which
is no restriction as no path is met twice. Every system call may fail. Ghosts: the path of streams and entries, and whether the stream an entry's memory
belongs to is open (`alive`).

- `operator*` uses `stack.back()`, which for a directory is the directory just pushed, not the one the entry was read from (`c81_at_violated`).
- Only `d_type` is looked at; `DT_UNKNOWN` is not resolved by stat (`c81_unknown_violated`); the test for "." and ".." is inside the branch for directories.
- When the parent's `readdir` fails after `pop_back`, `entry` still points into the closed `DIR` (`c81_dangling_violated`).
- `current(at(dir))` duplicates the descriptor (`posix_directory_file(posix_io_observer)`), which shares the position of the open file description; `rewinddir`
  and `getdents` of an inner loop move it for the outer one (`c81_nested_violated`).
- Windows (`nt.h`) iteration is not modelled.

### GB 18030 (C82)

`Verif/Gb`. The three tables of `gb18030_impl` are transcribed as large numerals (`Tables.lean`, generated from the headers); whether the two-byte part agrees
with the standard is not checked, as the standard is not in the repository. What can be said without it is: the four-byte codes are those counting the characters
without a two-byte code (`before`), and what is written is read back. Facts about single entries are evaluated by the kernel for *all* 65536 characters of the
basic plane and all codes (`Scan.lean`), with lemmas proved by induction about the scanning functions; the supplementary planes are arithmetic.

- `utf32cp_by_gb18030_index` adds the width of the range *before* looking into the table, so the first gap (numbers 0 to 819) is never looked up:
  U+0080 to U+0451 without a two-byte code are written and read back as U+FFFD; further gaps are off by one from U+F92D on (`lostRanges`, exact).
- The fourth byte is checked by `< 0x40-0x30` instead of `< 10`, the second by `>= 0x30` and `< 0x40` (`c82_alias_violated`).
- `c82_swallow_violated`: the second byte is not looked at again; `c82_unassigned_violated`; `c82_duplicate_violated`.
- UTF-16 in pieces as for the other encodings (C17): the unit behind a lone high surrogate in the same piece is lost (`c82_utf16_pieces_violated`).
- Not modelled: byte-swapped forms, `general_code_cvt_full`, conversions between GB 18030 and UTF-EBCDIC.

### Memory-mapped files (C83)
`Verif/Mmap`. The address space is a map from pages to owners (the rest of the program, or a page of a file with its protection). `mmap` refuses or
chooses free pages; `munmap` removes whatever is in the range, so that a wrong length or a second call would hit somebody else. The value of an
object is the region its history gives it (`replay`); `c83_objects` says that every byte in `[data(), data()+size())` is that byte of that file. Whether an
operation took effect is part of the history; `c83_effect` says when it does. Trusted: the two system calls as described.

### File locks (C84)
`Verif/Flock`. `Covers` says which bytes a request is about, independently of the arithmetic of the kernel (`range`, transcribed from fs/locks.c and trusted).
`Setlkw` gives the possible ends of the system call; a call that waits has no transition. `Sys`/`Step`: every process locks one range at a time, with any
request, and unlocks with any request, as the code does not care. Exclusion needs no assumption on how processes unlock; release does
(`c84_unlock_partial`, `c84_guard_violated`, `c84_position_violated`).

### Complex numbers (C85)
`Verif/Cplx`. `IsPairText` says that the text is `(a,b)` with texts `a`, `b` of the parts *and that no other `a'`, `b'` give this text*; this is why the
separator is a full stop when the comma is the decimal point. The flags are those the manipulators produce. Printing `timespec` (`fast_io_unit/timespec.h`) was
looked at as well: it calls `with_length_output_unsigned`, which is declared nowhere, so no program can print one; not modelled.

### Child processes (C86, C87)

`Child/Model.lean` models the descriptors of a process as a finite table (open file, close-on-exec flag), the pipe objects as pairs of descriptors,
and follows `process_revamp/posix.h` step by step: what the child does for each redirection (choosing the descriptor, closing the other end of the
pipe, in the copy of the memory), the null device (lowest free descriptor, copied, closed by the destructor), the copies to 0, 1, 2 in this order,
the closing at exec; what the parent closes. `Child/Spec.lean` says which file each stream is to be (`wanted`) from the table of the parent at the
time of the call, without reference to the steps. `Simple` are the requests for which the order of the copies does not matter; for others the
statement is false, with witnesses for each clause. Fork, opening `/dev/null` and exec are assumed to succeed (a failing exec ends the child by
`fast_terminate`; the parent is not told). Arguments and environment are not modelled.

`Child/ProcModel.lean` models `posix_process` objects over the children known to the kernel (running, or ended with a status); `wait4` is a
relation that has no result while the awaited child runs. Numbers are reused once a child was taken away. Histories are event lists; the
specification reads the status of a child off the events. Interruption of `wait4` by signals is left out.

### Random numbers (C88)

`Rand/Model.lean` follows `linux_getrandom.h` and the engine of `white_hole.h`. Memory records for each byte which random byte of the system is there,
so that freshness (no byte twice, nothing old) is a statement about numbers; the quality of the bytes is not ours to prove. Answers of the system are
arbitrary lengths within the interface. Other systems (Windows, WASI) are not modelled; the handle of the Windows source is part of C74, as are the
handles of dynamic libraries (`dll/posix.h`).

### The second integer printer (C89)

`IntPrint/UprsvModel.lean` follows `uprsv/dec.h` and `uprsv/hex.h` on the character memory of C01. The code is compiled but its only call is under
`if constexpr(false)`; the claim is about the function itself. Both halves are wrong for some values (see MANIFEST), the partial theorems give the
values for which they are right.
