import Verif.Scan.Spec
import Verif.IntScan.CtxModel
import Verif.IoBuf.InModel
import Verif.Line.Model
/-!
# Model of `scan`

`include/fast_io_core_impl/scan_freestanding.h`, `include/fast_io_unit/string_impl/scan_str_ctx_impl.h`,
`include/fast_io_freestanding_impl/serializations/{strlike_get,str_get}.h`. Characters are numbers; undefined behaviour and running
out of `fuel` (a bound on the number of refills) are `none`.

`mutex_stream` (scan_freestanding.h:452-457) only wraps the same call in a lock and `status_input_stream` (:450-451) is the stream's
own function; neither is modelled.
-/
namespace Verif.Scan
open Verif Verif.IntScan Verif.IoBuf Verif.Line

/-- The platform: see `IntScan.Cfg` and `Line.FindCfg`. -/
structure Plat where
  cw : Nat := 8
  simd : Nat := 0
  sse : Bool := false
  libc : Bool := false
  ptestm : Bool := false
deriving DecidableEq, Repr

/-- The template parameters of an integer scan. -/
def Plat.cfg (P : Plat) (bits : Nat) (signed noskipws skipzero : Bool) (base : Nat) : Cfg :=
  { bits := bits, signed := signed, base := base, noskipws := noskipws, skipzero := skipzero, cw := P.cw, simd := P.simd, sse := P.sse, ptestm := P.ptestm }

/-- `find_none_c_space` (simd_find.h:568-604 with `findnot=true`): `IntScan.findSpace`, which does not depend on the integer. -/
def findNoneCSpace (P : Plat) (l : List Nat) : List Nat := findSpace (P.cfg 32 true false false 10) l

/-- `find_c_space`: `find_space_common_impl<false,false>` (simd_find.h:546-604), the first white space. -/
def findCSpace (P : Plat) (l : List Nat) : List Nat :=
  smallOpt P.simd (fun c => !isCSpace (spaceWidth P.cw) c)
    (fun l => skipWhile (fun c => !isCSpace (spaceWidth P.cw) c)
      (if P.simd ≠ 0 then simdLoop (P.simd / (P.cw / 8)) (fun v => stopTest P.ptestm (v.any (laneSpace P.cw))) l else l)) l

/-- `find_lf` (simd_find.h:606-610). -/
def findLf (P : Plat) (l : List Nat) : List Nat := findChT ⟨P.cw, P.simd, P.libc⟩ 10 false P.ptestm l

/-! ## The scanners of the arguments -/

/-- The state of a scanner between blocks: `scan_integer_context`, or `scan_string_context::copying`/`str_get_all_context::copying`
(scan_str_ctx_impl.h:6-9, str_get.h:37-40). -/
structure St where
  ctx : CtxState := {}
  copying : Bool := false

/-- One call of `scan_context_define`: the new state, the user's variable, the unconsumed part of the block, the code. -/
structure Step where
  st : St
  var : Val
  rest : List Nat
  code : Code

/-- The content of a string variable. -/
def strOf : Val → List Nat
  | .str s => s
  | .num _ => []

/-- `l` up to the position `it` (a suffix of `l`). -/
def upto (l it : List Nat) : List Nat := l.take (l.length - it.length)

/-- `scan_context_define_string_impl<noskipws,line>` (scan_str_ctx_impl.h:14-54); `scan_context_define_strlike_impl` for buffered
string types (strlike_get.h:59-101) does the same with `obuffer_set_curr(begin)` for `clear`/`assign` and `write` for `append`. -/
def strDefine (P : Plat) (noskipws line : Bool) (done : Bool) (ref l : List Nat) : Bool × List Nat × List Nat × Code :=
  let it := if !noskipws && !line && !done then findNoneCSpace P l else l
  if !noskipws && !line && !done && it == [] then (done, ref, it, .part)
  else
    let ref := if !noskipws && !line && !done then [] else ref
    let done := if !noskipws && !line then true else done
    let sp := if line then findLf P it else findCSpace P it
    let ref := if noskipws || line then (if !done then upto it sp else ref ++ upto it sp) else ref ++ upto it sp
    let done := if noskipws || line then true else done
    match sp with
    | [] => (done, ref, [], .part)
    | c :: t => (done, ref, if line then t else c :: t, .ok)

/-- `scan_context_define_whole_string_impl` (scan_str_ctx_impl.h:68-81), `scan_context_define_strlike_getall_impl` (strlike_get.h:103-114). -/
def wholeDefine (done : Bool) (ref l : List Nat) : Bool × List Nat × List Nat × Code :=
  if !done then (true, l, [], .part) else (done, ref ++ l, [], .part)

/-- `scan_context_define_str_get_all_buffer_strlike_impl` (str_get.h:42-75) for buffered string types. -/
def charsDefine (n : Nat) (done : Bool) (ref l : List Nat) : Bool × List Nat × List Nat × Code :=
  let ref := if !done then [] else ref
  let remain := n - ref.length
  if l.length < remain then (true, ref ++ l, [], .part)
  else (true, ref ++ l.take remain, l.drop remain, .ok)

/-- Packing the result of a string scanner. -/
def packStr (st : St) (r : Bool × List Nat × List Nat × Code) : Step := ⟨⟨st.ctx, r.1⟩, .str r.2.1, r.2.2.1, r.2.2.2⟩

/-- `scan_context_define` of the argument. Arguments of fixed size have none. -/
def define (P : Plat) (w : What) (st : St) (v : Val) (l : List Nat) : Option Step :=
  match w with
  | .word => some (packStr st (strDefine P false false st.copying (strOf v) l))
  | .token => some (packStr st (strDefine P true false st.copying (strOf v) l))
  | .line => some (packStr st (strDefine P false true st.copying (strOf v) l))
  | .whole => some (packStr st (wholeDefine st.copying (strOf v) l))
  | .chars n => some (packStr st (charsDefine n st.copying (strOf v) l))
  | .int bits signed noskipws skipzero base =>
    (ctxStep (P.cfg bits signed noskipws skipzero base) st.ctx l).map fun s =>
      ⟨⟨s.st, st.copying⟩, (s.value.map .num).getD v, s.rest, s.code⟩
  | .fixed _ _ => none

/-- `scan_context_eof_define` of the argument (scan_str_ctx_impl.h:56-62, :83-89, :109-123; strlike_get.h:180-250; str_get.h:117-125;
sto_contiguous.h:1190-1230): the code and the variable. -/
def eofDefine (P : Plat) (w : What) (st : St) (v : Val) : Option (Code × Val) :=
  match w with
  | .word => some (if st.copying then .ok else .eof, v)
  | .token => some (if strOf v = [] then .eof else .ok, v)
  | .line => some (if strOf v = [] then .eof else .ok, v)
  | .whole => some (.ok, if st.copying then v else .str [])
  | .chars _ => some (.eof, v)
  | .int bits signed noskipws skipzero base =>
    (ctxEof (P.cfg bits signed noskipws skipzero base) st.ctx).map fun r => (r.1, (r.2.map .num).getD v)
  | .fixed _ _ => none

/-! ## `scan_single_impl` -/

/-- How scanning ends: it returns, throws a parse code, or the device throws. -/
inductive Res | ret (b : Bool) | thrown (c : Code) | device
deriving DecidableEq, Repr

/-- `ibuffer_set_curr(in,curr+k)`. -/
def advance (s : ISt) (k : Nat) : ISt := { s with curr := s.curr.map (· + k) }

/-- After end of file (scan_freestanding.h:211-219, :425-434). -/
def atEof (P : Plat) (w : What) (s : ISt) (st : St) (v : Val) : Option (ISt × Val × Res) :=
  (eofDefine P w st v).map fun e =>
    if e.1 = .ok then (s, e.2, .ret true)
    else if e.1 = .eof then (s, e.2, .ret false)
    else (s, e.2, .thrown e.1)

/-- The loop over the blocks (`scan_context_status_impl`, scan_freestanding.h:185-222; the same loop at :404-437). -/
def scanCtx (P : Plat) (w : What) (bfs : Nat) : Nat → ISt → St → Val → Option (ISt × Val × Res)
  | 0, _, _, _ => none
  | fuel + 1, s, st, v => s.avail.bind fun av => (define P w st v av).bind fun r =>
    let s := advance s (av.length - r.rest.length)
    if r.code = .ok then some (s, r.var, .ret true)
    else if r.code ≠ .part then some (s, r.var, .thrown r.code)
    else
      match underflow bfs s with
      | (s, some true) => scanCtx P w bfs fuel s r.st r.var
      | (s, none) => some (s, r.var, .device)
      | (s, some false) => atEof P w s r.st r.var

/-- The branch for arguments that are contiguous and context scannable (scan_freestanding.h:383-402): the block is tried in one go;
if that consumed all of it, the argument is scanned again from the start of the block by the resumable scanner. -/
def scanInt (P : Plat) (bits : Nat) (signed noskipws skipzero : Bool) (base : Nat) (bfs fuel : Nat) (s : ISt) (v : Val) :
    Option (ISt × Val × Res) :=
  s.avail.bind fun av => (scanContig (P.cfg bits signed noskipws skipzero base) av).bind fun o =>
    let v := (o.value.map .num).getD v
    if o.rest = [] then scanCtx P (.int bits signed noskipws skipzero base) bfs fuel s {} v
    else
      let s := advance s (av.length - o.rest.length)
      some (s, v, if o.code ≠ .ok then .thrown o.code else .ret true)

/-- The branch for arguments of fixed size without errors (scan_freestanding.h:311-382; with the address sanitizer the buffer is never
used in place, :315-344, with the same result). -/
def scanFixed (n : Nat) (f : List Nat → Val) (bfs : Nat) (s : ISt) (v : Val) : Option (ISt × Val × Res) :=
  s.avail.bind fun av =>
    if av.length < n then
      (readAllCold bfs n s n).map fun q =>
        match q.2.2 with
        | .done => (q.1, f q.2.1, .ret true)
        | .eof => (q.1, v, .ret false)
        | .threw => (q.1, v, .device)
    else some (advance s n, f (av.take n), .ret true)

/-- `scan_single_impl` for streams that refill (scan_freestanding.h:307-443). -/
def scanSingle (P : Plat) (w : What) (bfs fuel : Nat) (s : ISt) (v : Val) : Option (ISt × Val × Res) :=
  match w with
  | .fixed n f => scanFixed n f bfs s v
  | .int bits signed noskipws skipzero base => scanInt P bits signed noskipws skipzero base bfs fuel s v
  | w => scanCtx P w bfs fuel s {} v

/-- `(details::scan_single_impl(in,args)&&...)` (scan_freestanding.h:459-461): the arguments are the kinds and the variables. -/
def scanAll (P : Plat) (bfs fuel : Nat) : ISt → List (What × Val) → Option (ISt × List Val × Res)
  | s, [] => some (s, [], .ret true)
  | s, (w, v) :: args => (scanSingle P w bfs fuel s v).bind fun r =>
    if r.2.2 = .ret true then (scanAll P bfs fuel r.1 args).map fun q => (q.1, r.2.1 :: q.2.1, q.2.2)
    else some (r.1, r.2.1 :: args.map (·.2), r.2.2)

/-! ## Unbuffered streams -/

/-- A fresh `unget_temp_buffer` (scan_freestanding.h:6-24): a buffer of one character, which `ibuffer_underflow` fills by a `read` of
one character (:135-153), so it is a buffered stream with `bfs=1`. Its `read` (:95-108) takes the pending character and then reads
directly into the destination, which is what `IoBuf.read` does for `bfs=1` (except that nothing is read when the destination is
already full; `IoBuf.read` is not used then). -/
def ungetFresh (d : IDev) : ISt := ⟨some [], some 0, d⟩

/-- The destructor of `unget_temp_buffer` (scan_freestanding.h:25-92): a pending character is given back only if the device has
`try_unget` (C `FILE*`); the others lose it. -/
def ungetClose (hasUnget : Bool) (s : ISt) : IDev :=
  if hasUnget ∧ s.avail.getD [] ≠ [] then { s.dev with pos := s.dev.pos - 1 } else s.dev

/-- `scan_freestanding_decay` of an unbuffered stream (scan_freestanding.h:463-467). -/
def scanRaw (P : Plat) (hasUnget : Bool) (fuel : Nat) (d : IDev) (args : List (What × Val)) : Option (IDev × List Val × Res) :=
  (scanAll P 1 fuel (ungetFresh d) args).map fun r => (ungetClose hasUnget r.1, r.2.1, r.2.2)

/-! ## Contiguous streams -/

/-- The code of a scan of a contiguous stream turned into its result. -/
def viewRes (c : Code) : Res := if c = .ok then .ret true else if c = .eof then .ret false else .thrown c

/-- `scan_single_impl` for contiguous streams (scan_freestanding.h:232-306): strings in memory, `ibuffer_view`. The stream is the text
that is left. -/
def scanView (P : Plat) (w : What) (l : List Nat) (v : Val) : Option (List Nat × Val × Res) :=
  match w with
  | .fixed n f => if l.length < n then some (l, v, .ret false) else some (l.drop n, f (l.take n), .ret true)
  | .int bits signed noskipws skipzero base =>
    (scanContig (P.cfg bits signed noskipws skipzero base) l).map fun o => (o.rest, (o.value.map .num).getD v, viewRes o.code)
  | w => (define P w {} v l).bind fun r =>
    if r.code = .ok then some (r.rest, r.var, .ret true)
    else if r.code ≠ .part then some (r.rest, r.var, .thrown r.code)
    else (eofDefine P w r.st r.var).map fun e => (r.rest, e.2, viewRes e.1)

/-- All arguments, from a contiguous stream (scan_freestanding.h:459-461). -/
def scanViewAll (P : Plat) : List Nat → List (What × Val) → Option (List Nat × List Val × Res)
  | l, [] => some (l, [], .ret true)
  | l, (w, v) :: args => (scanView P w l v).bind fun r =>
    if r.2.2 = .ret true then (scanViewAll P r.1 args).map fun q => (q.1, r.2.1 :: q.2.1, q.2.2)
    else some (r.1, r.2.1 :: args.map (·.2), r.2.2)

end Verif.Scan
