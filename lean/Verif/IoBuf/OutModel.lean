import Mathlib.Data.List.Basic
/-!
# Model of buffered output

`include/fast_io_freestanding_impl/io_buffer/{output_normal,output,general,main}.h` without decorators, and the parts of
`include/fast_io_core_impl/{overflow,print_freestanding}.h` that write into the buffer.

Characters are numbers.  The device is an arbitrary script of answers, one per call.
-/
namespace Verif.IoBuf

/-- How the device answers one `write`/`scatter_write` call: it takes everything, takes the first `k` characters and
returns (a short write), or takes the first `k` characters and throws. -/
inductive Answer | full | short (k : Nat) | fail (k : Nat)
deriving DecidableEq, Repr

/-- The device: everything it has received, and its answers to the coming calls (`full` when exhausted). -/
structure Dev where
  got : List Nat
  script : List Answer
deriving DecidableEq, Repr

/-- The buffer pointers (`basic_io_buffer_pointers`): `none` is `buffer_begin==nullptr`, `some l` holds the characters of
`[buffer_begin,buffer_curr)`; `buffer_end` is `buffer_begin+bfs`. -/
structure St where
  buf : Option (List Nat)
  dev : Dev
deriving DecidableEq, Repr

/-- Outcome of an operation: it returns, an exception leaves it, or the process terminates (an exception leaves a
`noexcept` function). -/
inductive Out | ok | threw | dead
deriving DecidableEq, Repr

/-- Configuration: buffer size and whether the device has `scatter_write`. -/
structure Cfg where
  bfs : Nat
  scatter : Bool

/-- One call of the device's `write` or `scatter_write`; the io_buffer ignores the returned position. -/
def devWrite (d : Dev) (bs : List Nat) : Dev × Out :=
  match d.script with
  | [] => (⟨d.got ++ bs, []⟩, .ok)
  | .full :: t => (⟨d.got ++ bs, t⟩, .ok)
  | .short k :: t => (⟨d.got ++ bs.take k, t⟩, .ok)
  | .fail k :: t => (⟨d.got ++ bs.take k, t⟩, .threw)

/-- Space left: `buffer_end-buffer_curr` (both null at first). -/
def room (cfg : Cfg) (s : St) : Nat :=
  match s.buf with
  | none => 0
  | some l => cfg.bfs - l.length

/-- Store characters at `buffer_curr` and advance it; out of bounds is undefined (`none`). -/
def append (cfg : Cfg) (s : St) (bs : List Nat) : Option St :=
  if bs.length ≤ room cfg s then
    match s.buf with
    | none => some s
    | some l => some { s with buf := some (l ++ bs) }
  else none

/-- `iobuf_write_unhappy_decay_no_alloc_impl` (output_normal.h:33-71). -/
def unhappyNoAlloc (cfg : Cfg) (s : St) (l bs : List Nat) : St × Out :=
  if cfg.scatter then
    match devWrite s.dev (l ++ bs) with
    | (d, .ok) => (⟨some [], d⟩, .ok)
    | (d, o) => (⟨some l, d⟩, o)
  else
    match devWrite s.dev l with
    | (d, .ok) =>
      match devWrite d bs with
      | (d, .ok) => (⟨some [], d⟩, .ok)
      | (d, o) => (⟨some l, d⟩, o)
    | (d, o) => (⟨some l, d⟩, o)

/-- `iobuf_write_unhappy_decay_impl` (output_normal.h:73-86) with `iobuf_write_unhappy_nullptr_case_impl`
(output_normal.h:23-31). -/
def unhappy (cfg : Cfg) (s : St) (bs : List Nat) : Option (St × Out) :=
  match s.buf with
  | none =>
    if bs.length < cfg.bfs then (append cfg ⟨some [], s.dev⟩ bs).map fun s => (s, .ok)
    else
      match devWrite s.dev bs with
      | (d, o) => some (⟨none, d⟩, o)
  | some l => some (unhappyNoAlloc cfg s l bs)

/-- `write` (output.h:34-70). -/
def write (cfg : Cfg) (s : St) (bs : List Nat) : Option (St × Out) :=
  if room cfg s < bs.length then unhappy cfg s bs
  else (append cfg s bs).map fun s => (s, .ok)

/-- `iobuf_output_flush_impl` (output_normal.h:88-99); `flush` (general.h:6-18), `close_throw_impl` (main.h:225-246) followed by
the reset of `buffer_curr` in `close` (main.h:337-349). -/
def flush (s : St) : St × Out :=
  match s.buf with
  | none => (s, .ok)
  | some [] => (s, .ok)
  | some l =>
    match devWrite s.dev l with
    | (d, .ok) => (⟨some [], d⟩, .ok)
    | (d, o) => (⟨some l, d⟩, o)

/-- `iobuf_output_constant_flush_prepare_impl` (output_normal.h:101-113). -/
def prepare (s : St) : St × Out :=
  match s.buf with
  | none => (⟨some [], s.dev⟩, .ok)
  | some _ => flush s

/-- `iobuf_overflow_impl` (output_normal.h:115-122). -/
def overflow (cfg : Cfg) (s : St) (c : Nat) : Option (St × Out) :=
  match prepare s with
  | (s, .ok) => (append cfg s [c]).map fun s => (s, .ok)
  | (s, o) => some (s, o)

/-- `put` (overflow.h:6-34); `curr==end` is the exhausted buffer. -/
def put (cfg : Cfg) (s : St) (c : Nat) : Option (St × Out) :=
  if room cfg s = 0 then overflow cfg s c
  else (append cfg s [c]).map fun s => (s, .ok)

/-- `print_control` for text available as a range, with a newline (print_freestanding.h:204-252); without one it is
`write`. -/
def printlnScatter (cfg : Cfg) (s : St) (bs : List Nat) : Option (St × Out) :=
  if (bs.length : Int) < (room cfg s : Int) - 1 then (append cfg s (bs ++ [10])).map fun s => (s, .ok)
  else
    (write cfg s bs).bind fun r =>
      match r with
      | (s, .ok) => put cfg s 10
      | r => some r

/-- `print_control` for a type of announced size (print_freestanding.h:259-331): `size` characters are announced, `bs` is
what is written (with the newline, if any). The flush is inside a `noexcept` function (general.h:30-46). -/
def printReserve (cfg : Cfg) (s : St) (size : Nat) (bs : List Nat) : Option (St × Out) :=
  if size < cfg.bfs then
    if size < room cfg s then (append cfg s bs).map fun s => (s, .ok)
    else
      match prepare s with
      | (s, .ok) => (append cfg s bs).map fun s => (s, .ok)
      | (s, _) => some (s, .dead)
  else if size < room cfg s then (append cfg s bs).map fun s => (s, .ok)
  else write cfg s bs

/-- `print_control` for a type whose size depends on the value (print_freestanding.h:332-386). -/
def printDynamic (cfg : Cfg) (s : St) (size : Nat) (bs : List Nat) : Option (St × Out) :=
  if size < room cfg s then (append cfg s bs).map fun s => (s, .ok)
  else write cfg s bs

/-- The operations a program performs on an output buffer. -/
inductive Op
  | write (bs : List Nat)
  | put (c : Nat)
  | println (bs : List Nat)
  | printReserve (size : Nat) (bs : List Nat)
  | printDynamic (size : Nat) (bs : List Nat)
  | flush
deriving DecidableEq, Repr

/-- What the operation asks to be written. -/
def Op.data : Op → List Nat
  | .write bs => bs
  | .put c => [c]
  | .println bs => bs ++ [10]
  | .printReserve _ bs => bs
  | .printDynamic _ bs => bs
  | .flush => []

/-- The announced size is honoured by the type printed. -/
def Op.Honest : Op → Prop
  | .printReserve size bs => bs.length ≤ size
  | .printDynamic size bs => bs.length ≤ size
  | _ => True

/-- One operation. -/
def step (cfg : Cfg) (s : St) : Op → Option (St × Out)
  | .write bs => write cfg s bs
  | .put c => put cfg s c
  | .println bs => printlnScatter cfg s bs
  | .printReserve size bs => printReserve cfg s size bs
  | .printDynamic size bs => printDynamic cfg s size bs
  | .flush => some (flush s)

/-- A program: exceptions are caught and the next operation is tried; a terminated process does nothing more. -/
def run (cfg : Cfg) (s : St) : List Op → Option (St × List Out)
  | [] => some (s, [])
  | op :: ops => (step cfg s op).bind fun r =>
    if r.2 = .dead then some (r.1, [.dead])
    else (run cfg r.1 ops).map fun q => (q.1, r.2 :: q.2)

/-- The characters held back in the buffer. -/
def St.held (s : St) : List Nat := s.buf.getD []

end Verif.IoBuf
