import Verif.IntScan.Model
import Verif.Line.Spec
/-!
# Model of line scanning

`include/fast_io_freestanding_impl/scanners/line_scanner.h`, the scanner driver
`include/fast_io_core_impl/transmit/scanner.h`, and the character search `include/fast_io_core_impl/simd_find.h`.

Memory is explicit: the stream's buffer and the scanner's own buffer are arrays, positions are offsets, and the view the
iterator exposes is a pair of positions in one of the two arrays, read when the user looks at it.  A cell that has never
been written holds `none`.  Undefined behaviour (reading such a cell, writing outside the array, moving a position past the end)
makes the result `none`.
-/
namespace Verif.Line
open Verif.IntScan (skipWhile simdLoop smallOpt stopTest)

/-! ## Finding a character -/

/-- How the search was compiled. `cw`: bits of the character type; `simd`: bytes of the vector registers
(`optimal_simd_vector_run_with_cpu_instruction_size`), 0 if none; `libc`: glibc >= 2.26 (`simd_find.h:425-434`). -/
structure FindCfg where
  cw : Nat := 8
  simd : Nat := 0
  libc : Bool := false

/-- The 8 bytes at `first` read as a little-endian `std::size_t` (`__builtin_memcpy`, `simd_find.h:377-382`). -/
def leWord : List Nat → Nat
  | [] => 0
  | b :: bs => b + 256 * leWord bs

/-- `ones = SIZE_MAX/255` (`simd_find.h:370`). -/
def ones : Nat := (2 ^ 64 - 1) / 255

/-- `highs = ones*128` (`simd_find.h:371`). -/
def highs : Nat := ones * (255 / 2 + 1)

/-- `x^=constantk; v = (x-ones)&(~x)&highs` on 64-bit words (`simd_find.h:374`, `383-384`). -/
def swarV (ch : Nat) (bytes : List Nat) : Nat :=
  let x := leWord bytes ^^^ (ones * ch % 2 ^ 64)
  ((x + 2 ^ 64 - ones) % 2 ^ 64) &&& (2 ^ 64 - 1 - x) &&& highs

/-- The loop condition of `find_characters_musl<findnot>` (`simd_find.h:385-401`). -/
def swarStop (findnot : Bool) (ch : Nat) (bytes : List Nat) : Bool :=
  if findnot then swarV ch bytes != highs else swarV ch bytes != 0

/-- `find_characters_musl<findnot>` (`simd_find.h:354-412`): 8 bytes at a time, then one by one. -/
def findMusl (findnot : Bool) (ch : Nat) (l : List Nat) : List Nat :=
  let l' := match l with
    | [] => l
    | c :: _ => if c ≠ ch then simdLoop 8 (swarStop findnot ch) l else l
  skipWhile (fun c => if findnot then c == ch else c != ch) l'

/-- `find_simd_constant_common_cold_impl<ch,findnot>` (`simd_find.h:414-475`). `memchr` and `wmemchr` are modelled by
their specification: the first occurrence, or the end. `ptestm`: `is_all_zeros` is compiled to VPTESTMB (64-byte vectors,
AVX512BW, `simd/is_all_zeros.h:169-190`) and returns the opposite. -/
def findCold (cfg : FindCfg) (ch : Nat) (findnot ptestm : Bool) (l : List Nat) : List Nat :=
  if cfg.libc && !findnot && (cfg.cw == 8 || cfg.cw == 32) then skipWhile (fun c => c != ch) l
  else
    if cfg.simd ≠ 0 then
      skipWhile (fun c => if findnot then c == ch else c != ch)
        (simdLoop (cfg.simd / (cfg.cw / 8)) (fun v => stopTest ptestm (v.any (fun c => if findnot then c != ch else c == ch))) l)
    else if cfg.cw == 8 then findMusl findnot ch l
    else skipWhile (fun c => if findnot then c == ch else c != ch) l

/-- `find_simd_constant_common_impl<ch,findnot>` (`simd_find.h:507-525`), which `find_ch_impl` (`simd_find.h:648-685`) uses
for contiguous ranges. The result is the range from the position found to the end. -/
def findChT (cfg : FindCfg) (ch : Nat) (findnot ptestm : Bool) (l : List Nat) : List Nat :=
  smallOpt cfg.simd (fun c => if findnot then c == ch else c != ch) (findCold cfg ch findnot ptestm) l

/-- The same (`simd_find.h:507-525`) where `is_all_zeros` is not the inverted one; the rest of the model uses this. -/
def findCh (cfg : FindCfg) (ch : Nat) (findnot : Bool) (l : List Nat) : List Nat := findChT cfg ch findnot false l

/-! ## The scanner's state -/

/-- Where the view points: nowhere, into the stream's buffer, or into the scanner's own buffer; offsets of the begin and
end pointers. -/
inductive View where
  | null
  | stream (b e : Nat)
  | own (b e : Nat)
  deriving Repr, DecidableEq

/-- `basic_line_scanner_buffer` (`line_scanner.h:7-47`): `mem` is `[begin_ptr,end_ptr)`, `curr` the offset of
`curr_ptr`. -/
structure Buf where
  mem : List (Option Nat) := []
  curr : Nat := 0
  view : View := .null
  inbuffer : Bool := false
  deriving Repr, DecidableEq

/-- `non_overlapped_copy_n(src, n, mem+off)`: writing outside the array is undefined. -/
def copyAt (mem : List (Option Nat)) (off : Nat) (src : List (Option Nat)) : Option (List (Option Nat)) :=
  if off + src.length ≤ mem.length then some (mem.take off ++ src ++ mem.drop (off + src.length)) else none

/-- `copy_to_next_line_buffer_internal_impl` (`line_scanner.h:66-101`): allocate a larger array, copy the old contents, then
the new characters. `cs` is `sizeof(char_type)`; allocation failure (the program terminates) is not modelled. -/
def growCopy (cs : Nat) (b : Buf) (src : List Nat) : Option Buf :=
  let elements := b.curr
  let withNew := (elements + src.length) % 2 ^ 64
  let old := b.mem.length
  let szmx := (2 ^ 64 - 1) / cs
  let cap := if szmx / 2 ≤ old then szmx else old * 2 % 2 ^ 64
  let cap := if cap < withNew then withNew else cap
  (copyAt (List.replicate cap none) 0 (b.mem.take elements)).bind fun m =>
    (copyAt m elements (src.map some)).bind fun m =>
      some { b with mem := m, curr := elements + src.length }

/-- `copy_to_next_line_buffer_impl` (`line_scanner.h:103-115`). -/
def copyNext (cs : Nat) (b : Buf) (src : List Nat) : Option Buf :=
  let bfsz := b.mem.length - b.curr
  if bfsz < src.length then growCopy cs b src
  else (copyAt b.mem b.curr (src.map some)).bind fun m => some { b with mem := m, curr := b.curr + src.length }

/-- Result of looking at one piece of input: the new state, how far the stream position moves, and whether a line is
complete (`parse_code::ok`) or not (`parse_code::partial`). -/
abbrev Step := Buf × Nat × Bool

/-- `scan_iterative_next_line_define_partial` (`line_scanner.h:117-131`). -/
def nextPartial (cs : Nat) (b : Buf) (l : List Nat) : Option Step :=
  let b := if !b.inbuffer then { b with inbuffer := true, curr := 0 } else b
  (copyNext cs b l).bind fun b => some (b, l.length, false)

/-- `scan_iterative_next_line_define_inbuffer` (`line_scanner.h:133-144`). -/
def nextInbuffer (cs : Nat) (b : Buf) (l : List Nat) : Option Step :=
  (copyNext cs b l).bind fun b => some ({ b with view := .own 0 b.curr }, l.length + 1, true)

/-- `scan_iterative_next_line_define_impl` (`line_scanner.h:146-162`); `first` is the offset of the stream position in the
stream's buffer and `l` the characters from there to the end. -/
def nextLine (cfg : FindCfg) (cs : Nat) (b : Buf) (first : Nat) (l : List Nat) : Option Step :=
  let it := findCh cfg 10 false l
  if it = [] then nextPartial cs b l
  else
    let k := l.length - it.length
    if b.inbuffer then nextInbuffer cs b (l.take k)
    else some ({ b with view := .stream first (first + k) }, k + 1, true)

/-- `scan_iterative_eof_define_line_internal` (`line_scanner.h:164-175`); the Boolean: a last line was
available (`ok`), otherwise `end_of_file`. -/
def eofLine (b : Buf) : Buf × Bool :=
  if b.inbuffer then ({ b with view := .own 0 b.curr }, true) else ({ b with view := .null }, false)

/-! ## The driver for buffered input -/

/-- The input stream, the scanner and the iterator. `data` is the stream's buffer `[ibuffer_begin,ibuffer_end)`, `pos` the offset
of `ibuffer_curr`; `future` are the blocks the operating system will deliver, one per `ibuffer_underflow`, which
reports `false` when there are no more. `live`: the iterator's `ptr` is not null; `lastEof`: `last_is_eof`. -/
structure St where
  data : List Nat
  pos : Nat
  future : List (List Nat)
  buf : Buf := {}
  live : Bool := true
  lastEof : Bool := false
  deriving Repr, DecidableEq

/-- The loop of `basic_scanner_context_next_common` for streams that are not contiguous (`scanner.h:60-108`). A round that
neither ends nor consumes anything would be repeated for ever; it is reported as `none`. -/
def nextLoop (cfg : FindCfg) (cs : Nat) (lastEof : Bool) (data : List Nat) (pos : Nat) (buf : Buf)
    (future : List (List Nat)) : Option St :=
  if pos = data.length then
    if lastEof then some ⟨data, pos, future, buf, false, lastEof⟩
    else
      match future with
      | [] =>
        let r := eofLine buf
        if r.2 then some ⟨data, pos, [], r.1, true, true⟩ else some ⟨data, pos, [], r.1, false, lastEof⟩
      | c :: future => nextLoop cfg cs lastEof c 0 buf future
  else
    match nextLine cfg cs buf pos (data.drop pos) with
    | none => none
    | some (b, k, ok) =>
      if h : data.length < pos + k ∨ k = 0 then none
      else if ok then some ⟨data, pos + k, future, b, true, lastEof⟩
      else nextLoop cfg cs lastEof data (pos + k) b future
termination_by (future.map (fun c => c.length + 1)).sum + (data.length - pos)
decreasing_by
  · simp; omega
  · omega

/-- `operator++` of the iterator (`scanner.h:136-140`), starting with `scan_iterative_init_define`
(`line_scanner.h:199-204`). -/
def advance (cfg : FindCfg) (cs : Nat) (s : St) : Option St :=
  nextLoop cfg cs s.lastEof s.data s.pos { s.buf with inbuffer := false } s.future

/-- The characters of the cells `[b,e)`; a cell never written has no value. -/
def readCells (mem : List (Option Nat)) (b e : Nat) : Option (List Nat) :=
  if b ≤ e ∧ e ≤ mem.length then ((mem.drop b).take (e - b)).mapM id else none

/-- What the user sees through `begin()` and `end()` of the view (`line_scanner.h:39-46`). -/
def deref (s : St) : Option (List Nat) :=
  match s.buf.view with
  | .null => some []
  | .stream b e => readCells (s.data.map some) b e
  | .own b e => readCells s.buf.mem b e

/-- The first `n` rounds of `for(auto const& line : line_scanner(in))`, starting with the iterator `s`: the lines seen, and
whether the loop has ended. -/
def collect (cfg : FindCfg) (cs : Nat) : Nat → St → Option (List (List Nat) × Bool)
  | 0, s => some ([], !s.live)
  | n + 1, s =>
    if s.live then
      (deref s).bind fun l => (advance cfg cs s).bind fun s => (collect cfg cs n s).bind fun r => some (l :: r.1, r.2)
    else some ([], true)

/-- `begin()` is the increment of a fresh iterator (`scanner.h:190-193`). -/
def forLines (cfg : FindCfg) (cs n : Nat) (data : List Nat) (pos : Nat) (future : List (List Nat)) :
    Option (List (List Nat) × Bool) :=
  (advance cfg cs ⟨data, pos, future, {}, true, false⟩).bind (collect cfg cs n)

/-! ## The drivers for contiguous input -/

/-- Stream, view and iterator for a contiguous input: the whole text is in the buffer. -/
structure CSt where
  data : List Nat
  pos : Nat
  buf : Buf := {}
  live : Bool := true
  deriving Repr, DecidableEq

/-- `scan_iterative_contiguous_line_define_impl` (`line_scanner.h:177-195`) in
`basic_scanner_context_next_common` (`scanner.h:24-41`); only the view of `Buf` is used. -/
def advanceContiguous (cfg : FindCfg) (s : CSt) : Option CSt :=
  let l := s.data.drop s.pos
  let it := findCh cfg 10 false l
  if it = [] then
    if l = [] then some { s with pos := s.data.length, live := false } else some { s with pos := s.data.length }
  else
    let k := l.length - it.length
    if s.data.length < s.pos + k + 1 then none
    else some { s with pos := s.pos + k + 1, buf := { s.buf with view := .stream s.pos (s.pos + k) } }

/-- The driver for a contiguous stream behind a mutex, for which `line_scanner` picks the scanner with its own buffer
(`line_scanner.h:233-236`, `scanner.h:42-57`). The Boolean `false`: the exception of `throw_parse_code`. -/
def advanceMutex (cfg : FindCfg) (cs : Nat) (s : CSt) : Option (CSt × Bool) :=
  (nextLine cfg cs { s.buf with inbuffer := false } s.pos (s.data.drop s.pos)).bind fun (b, k, ok) =>
    if s.data.length < s.pos + k then none
    else
      let s := { s with pos := s.pos + k, buf := b }
      if ok then some (s, true)
      else
        let r := eofLine b
        some ({ s with buf := r.1 }, r.2)

/-- What the user sees. -/
def derefC (s : CSt) : Option (List Nat) :=
  match s.buf.view with
  | .null => some []
  | .stream b e => readCells (s.data.map some) b e
  | .own b e => readCells s.buf.mem b e

/-- The first `n` rounds of the range-for loop over a contiguous input, with the given increment. -/
def collectC (adv : CSt → Option CSt) : Nat → CSt → Option (List (List Nat) × Bool)
  | 0, s => some ([], !s.live)
  | n + 1, s =>
    if s.live then
      (derefC s).bind fun l => (adv s).bind fun s => (collectC adv n s).bind fun r => some (l :: r.1, r.2)
    else some ([], true)

/-- Range-for over `line_scanner(in)` for a contiguous input. -/
def forLinesContiguous (cfg : FindCfg) (n : Nat) (data : List Nat) (pos : Nat) : Option (List (List Nat) × Bool) :=
  (advanceContiguous cfg ⟨data, pos, {}, true⟩).bind (collectC (advanceContiguous cfg) n)

/-- Range-for over `line_scanner(in)` for a contiguous input behind a mutex; an exception leaves the loop (`none`). -/
def forLinesMutex (cfg : FindCfg) (cs n : Nat) (data : List Nat) (pos : Nat) : Option (List (List Nat) × Bool) :=
  let adv : CSt → Option CSt := fun s => (advanceMutex cfg cs s).bind fun r => if r.2 then some r.1 else none
  (adv ⟨data, pos, {}, true⟩).bind (collectC adv n)

end Verif.Line
