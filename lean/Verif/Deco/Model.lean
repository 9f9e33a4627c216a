import Verif.Deco.Spec
import Verif.Utf.Model
import Verif.IoBuf.OutModel
import Verif.IoBuf.InModel
/-!
# Model of buffers with decorators

`include/fast_io_freestanding_impl/io_buffer/{main,output,output_deco,input,input_deco}.h`, decorators as in
`include/fast_io_core_impl/codecvt/code_cvt.h`. Undefined behaviour (stores past a buffer) and termination are `none`.

With an external decorator `flush`, `seek`, `tie` mode and `obuffer_constant_flush_prepare` (so printing of numbers) do not compile:
`iobuf_output_flush_impl_deco` and `iobuf_output_constant_flush_prepare_impl_deco` are called with a `bool` for a type parameter and
without the external buffer (general.h:11, :40, input.h:72, :158, input.h:95). Output is therefore `write`, `put`, `close`.
-/
namespace Verif.Deco
open Verif Verif.Utf Verif.IoBuf

/-- A decorator: `deco_reserve_size` (`none`: it terminates) and `deco_reserve_define`, the text it stores and its new state (that it stays within the reserved space while it works, too, is C59). -/
structure Deco (σ : Type) where
  size : Nat → Option Nat
  step : σ → List Nat → Option (σ × List Nat)

/-- `basic_code_converter` (code_cvt.h:6-52) from `s` to `d`; its state is the pending units. -/
def converter (s d : Enc) (sse : Bool) : Deco (List Nat) where
  size := decoReserve s d
  step st l := (cvtState s ⟨d, false, sse⟩ st l (fun _ => 0, 0)).map fun r => (r.1, load r.2.1 0 r.2.2)

/-! ## Output -/

/-- The output half of `basic_io_buffer`: `obuffer` as in `IoBuf.St`, the size of `obuffer_external` (`none`: not allocated), the state
of the external decorator, the device. -/
structure OSt (σ : Type) where
  buf : Option (List Nat)
  ext : Option Nat
  deco : σ
  dev : Dev

/-- The loop of `write_with_deco` (main.h:93-103): `fuel` bounds the number of rounds. -/
def writeLoop {σ : Type} (D : Deco σ) (bfs cap : Nat) : Nat → OSt σ → List Nat → Option (OSt σ × IoBuf.Out)
  | _, s, [] => some (s, .ok)
  | 0, _, _ => none
  | fuel + 1, s, bs =>
    let k := if bs.length < bfs then bs.length else bfs
    (D.step s.deco (bs.take k)).bind fun r =>
      if cap < r.2.length then none
      else
        let w := devWrite s.dev r.2
        let s := { s with deco := r.1, dev := w.1 }
        if w.2 = .ok then writeLoop D bfs cap fuel s (bs.drop k) else some (s, w.2)

/-- `write_with_deco` (main.h:57-105). -/
def writeDeco {σ : Type} (D : Deco σ) (bfs : Nat) (s : OSt σ) (bs : List Nat) : Option (OSt σ × IoBuf.Out) :=
  match s.ext with
  | some cap => writeLoop D bfs cap bs.length s bs
  | none => (D.size bfs).bind fun cap => writeLoop D bfs cap bs.length { s with ext := some cap } bs

/-- The internal buffer now holds `l`; more than `bfs` characters do not fit. -/
def keep {σ : Type} (bfs : Nat) (s : OSt σ) (l : List Nat) : Option (OSt σ × IoBuf.Out) :=
  if l.length ≤ bfs then some ({ s with buf := some l }, .ok) else none

/-- `iobuf_write_unhappy_decay_no_alloc_impl_deco` (output_deco.h:6-24); `l` is what is in the buffer. -/
def unhappyNoAlloc {σ : Type} (D : Deco σ) (bfs : Nat) (s : OSt σ) (l bs : List Nat) : Option (OSt σ × IoBuf.Out) :=
  let remain := bfs - l.length
  (writeDeco D bfs s (l ++ bs.take remain)).bind fun r =>
    if r.2 = .ok then
      let s := { r.1 with buf := some [] }
      let bs := bs.drop remain
      if bfs < bs.length then writeDeco D bfs s bs
      else keep bfs s bs
    else some r

/-- `iobuf_write_unhappy_decay_impl_deco` (output_deco.h:25-45). -/
def unhappy {σ : Type} (D : Deco σ) (bfs : Nat) (s : OSt σ) (bs : List Nat) : Option (OSt σ × IoBuf.Out) :=
  match s.buf with
  | none => if bs.length < bfs then keep bfs s bs else writeDeco D bfs s bs
  | some l => unhappyNoAlloc D bfs s l bs

/-- `buffer_end-buffer_curr`. -/
def room {σ : Type} (bfs : Nat) (s : OSt σ) : Nat :=
  match s.buf with
  | none => 0
  | some l => bfs - l.length

/-- `write` (output.h:30-70); `direct` is the mode `deco_out_no_internal`. -/
def write {σ : Type} (D : Deco σ) (bfs : Nat) (direct : Bool) (s : OSt σ) (bs : List Nat) : Option (OSt σ × IoBuf.Out) :=
  if direct then writeDeco D bfs s bs
  else if room bfs s < bs.length then unhappy D bfs s bs
  else
    match s.buf with
    | none => some (s, .ok)
    | some l => keep bfs s (l ++ bs)

/-- `iobuf_output_flush_impl_deco` (output_deco.h:47-59) and `close_throw_impl` with the reset of `close` (main.h:218-239, :336-348). -/
def flush {σ : Type} (D : Deco σ) (bfs : Nat) (s : OSt σ) : Option (OSt σ × IoBuf.Out) :=
  match s.buf with
  | none => some (s, .ok)
  | some [] => some (s, .ok)
  | some l => (writeDeco D bfs s l).map fun r => if r.2 = .ok then ({ r.1 with buf := some [] }, .ok) else r

/-- `put` (overflow.h:6-34) with `iobuf_overflow_impl_deco` and `iobuf_output_constant_flush_prepare_impl_deco` (output_deco.h:61-86). -/
def put {σ : Type} (D : Deco σ) (bfs : Nat) (s : OSt σ) (c : Nat) : Option (OSt σ × IoBuf.Out) :=
  if room bfs s = 0 then
    match s.buf with
    | none => keep bfs s [c]
    | some _ => (flush D bfs s).bind fun r =>
      if r.2 = .ok then
        match r.1.buf with
        | some l => keep bfs r.1 (l ++ [c])
        | none => none
      else some r
  else
    match s.buf with
    | none => none
    | some l => keep bfs s (l ++ [c])

/-- What a program does with the stream. -/
inductive OOp
  | write (bs : List Nat)
  | put (c : Nat)
deriving DecidableEq, Repr

/-- One operation. -/
def ostep {σ : Type} (D : Deco σ) (bfs : Nat) (direct : Bool) (s : OSt σ) : OOp → Option (OSt σ × IoBuf.Out)
  | .write bs => write D bfs direct s bs
  | .put c => if direct then write D bfs true s [c] else put D bfs s c

/-- A program that stops at the first exception. -/
def orun {σ : Type} (D : Deco σ) (bfs : Nat) (direct : Bool) : OSt σ → List OOp → Option (OSt σ × IoBuf.Out)
  | s, [] => some (s, .ok)
  | s, op :: ops => (ostep D bfs direct s op).bind fun r => if r.2 = .ok then orun D bfs direct r.1 ops else some r

/-- `close` (main.h:218-239, :336-348); the destructor does the same and drops exceptions (main.h:240-262). In the mode without an internal
buffer there is nothing left to do. -/
def oclose {σ : Type} (D : Deco σ) (bfs : Nat) (direct : Bool) (s : OSt σ) : Option (OSt σ × IoBuf.Out) :=
  if direct then some (s, .ok) else flush D bfs s

/-- A new stream on a device. -/
def ofresh {σ : Type} (init : σ) (dev : Dev) : OSt σ := ⟨none, none, init, dev⟩

/-! ## Input -/

/-- The input half: the characters `[buffer_curr,buffer_end)`, the capacity of `ibuffer` (0: not allocated), the state of the internal
decorator, the device. `ibuffer_external` holds `bfs` characters and is refilled at each use. -/
structure ISt (σ : Type) where
  avail : List Nat
  cap : Nat
  deco : σ
  dev : IDev

/-- The loop that fills the external buffer (input_deco.h:19-29, :83-93): `n` is the space left; `none` as data: the device threw. -/
def fill : Nat → IDev → Nat → Option (IDev × Option (List Nat))
  | _, d, 0 => some (d, some [])
  | 0, _, _ => none
  | fuel + 1, d, n =>
    match devRead d n with
    | (d, none) => some (d, none)
    | (d, some []) => some (d, some [])
    | (d, some l) => (fill fuel d (n - l.length)).map fun q => (q.1, q.2.map (l ++ ·))

/-- Converting a block into `ibuffer` (input_deco.h:31-45, :104-117): the buffer is replaced by a larger one when needed. -/
def intoBuffer {σ : Type} (D : Deco σ) (s : ISt σ) (data : List Nat) : Option (ISt σ) :=
  (D.size data.length).bind fun size =>
    let cap := if s.cap < size then size else s.cap
    (D.step s.deco data).bind fun r =>
      if cap < r.2.length then none else some { s with avail := r.2, cap := cap, deco := r.1 }

/-- `ibuffer_underflow_rl_impl_deco` (input_deco.h:6-50): `none` as result: the device threw. -/
def underflow {σ : Type} (D : Deco σ) (bfs : Nat) (s : ISt σ) : Option (ISt σ × Option Bool) :=
  (fill bfs s.dev bfs).bind fun q =>
    match q with
    | (d, none) => some ({ s with dev := d }, none)
    | (d, some []) => some ({ s with dev := d }, some false)
    | (d, some data) => if bfs < data.length then none
      else (intoBuffer D { s with dev := d } data).map fun s => (s, some (s.avail ≠ []))

/-- `iobuf_read_unhappy_decay_impl_deco` (input_deco.h:66-126): `n` characters are wanted. -/
def readLoop {σ : Type} (D : Deco σ) (bfs : Nat) : Nat → ISt σ → Nat → Option (ISt σ × IoBuf.Res)
  | _, s, 0 => some (s, ⟨[], false⟩)
  | 0, _, _ => none
  | fuel + 1, s, n => (fill bfs s.dev bfs).bind fun q =>
    match q with
    | (d, none) => some ({ s with dev := d }, ⟨[], true⟩)
    | (d, some []) => some ({ s with dev := d }, ⟨[], false⟩)
    | (d, some data) => if bfs < data.length then none else (D.size data.length).bind fun size =>
      if size < n then (D.step s.deco data).bind fun r =>
        if n < r.2.length then none
        else (readLoop D bfs fuel { s with deco := r.1, dev := d } (n - r.2.length)).map fun p => (p.1, ⟨r.2 ++ p.2.data, p.2.threw⟩)
      else (intoBuffer D { s with dev := d } data).bind fun s =>
        if s.avail = [] then some (s, ⟨[], false⟩)
        else
          let k := if n < s.avail.length then n else s.avail.length
          (readLoop D bfs fuel { s with avail := s.avail.drop k } (n - k)).map fun p => (p.1, ⟨s.avail.take k ++ p.2.data, p.2.threw⟩)

/-- `read` of `n` characters (input.h:116-148, :88-113). -/
def read {σ : Type} (D : Deco σ) (bfs fuel : Nat) (s : ISt σ) (n : Nat) : Option (ISt σ × IoBuf.Res) :=
  if s.avail.length < n then
    (readLoop D bfs fuel { s with avail := [] } (n - s.avail.length)).map fun p => (p.1, ⟨s.avail ++ p.2.data, p.2.threw⟩)
  else some ({ s with avail := s.avail.drop n }, ⟨s.avail.take n, false⟩)

/-- One character through the buffer pointers, as the generator and the scanners take them (igenerator.h:11-43). -/
def getc {σ : Type} (D : Deco σ) (bfs : Nat) (s : ISt σ) : Option (ISt σ × IoBuf.Res) :=
  match s.avail with
  | c :: t => some ({ s with avail := t }, ⟨[c], false⟩)
  | [] => (underflow D bfs s).bind fun r =>
    match r with
    | (s, some true) =>
      match s.avail with
      | c :: t => some ({ s with avail := t }, ⟨[c], false⟩)
      | [] => none
    | (s, some false) => some (s, ⟨[], false⟩)
    | (s, none) => some (s, ⟨[], true⟩)

/-- One operation. -/
def istep {σ : Type} (D : Deco σ) (bfs fuel : Nat) (s : ISt σ) : IOp → Option (ISt σ × IoBuf.Res)
  | .read n => read D bfs fuel s n
  | .getc => getc D bfs s

/-- A new stream on a device. -/
def ifresh {σ : Type} (init : σ) (dev : IDev) : ISt σ := ⟨[], 0, init, dev⟩

/-- A program. -/
def irun {σ : Type} (D : Deco σ) (bfs fuel : Nat) : ISt σ → List IOp → Option (ISt σ × List IoBuf.Res)
  | s, [] => some (s, [])
  | s, op :: ops => (istep D bfs fuel s op).bind fun r => (irun D bfs fuel r.1 ops).map fun q => (q.1, r.2 :: q.2)

end Verif.Deco
