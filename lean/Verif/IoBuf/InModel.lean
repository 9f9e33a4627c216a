import Mathlib.Data.List.Basic
/-!
# Model of buffered input

`include/fast_io_freestanding_impl/io_buffer/{input_normal,input}.h` without decorators, `tie` mode excluded, for one-byte
characters; `include/fast_io_core_impl/{igenerator,read_all,transmit/transmit}.h` on top of it.
-/
namespace Verif.IoBuf

/-- How the device answers a `read` call: it delivers at most `k` characters (fewer if fewer are asked or left), or throws. -/
inductive RAnswer | give (k : Nat) | fail
deriving DecidableEq, Repr

/-- A readable, seekable device: its content, the position, and the answers to the coming reads (as much as possible when
exhausted). -/
structure IDev where
  file : List Nat
  pos : Nat
  script : List RAnswer
deriving DecidableEq, Repr

/-- Deliver at most `n` characters. -/
def IDev.deliver (d : IDev) (n : Nat) (t : List RAnswer) : IDev × List Nat :=
  let l := (d.file.drop d.pos).take n
  (⟨d.file, d.pos + l.length, t⟩, l)

/-- One call of the device's `read` for `n` characters; `none` as data: it throws. -/
def devRead (d : IDev) (n : Nat) : IDev × Option (List Nat) :=
  match d.script with
  | [] => let r := d.deliver n []; (r.1, some r.2)
  | .give k :: t => let r := d.deliver (min n k) t; (r.1, some r.2)
  | .fail :: t => (⟨d.file, d.pos, t⟩, none)

/-- The buffer pointers: `mem` holds the characters of `[buffer_begin,buffer_end)` (`none`: `buffer_begin==nullptr`), `curr` is
`buffer_curr-buffer_begin` (`none`: `buffer_curr==nullptr`). -/
structure ISt where
  mem : Option (List Nat)
  curr : Option Nat
  dev : IDev
deriving DecidableEq, Repr

/-- Result of an operation: characters stored at the destination, and whether an exception left it. -/
structure Res where
  data : List Nat
  threw : Bool
deriving DecidableEq, Repr

/-- `[buffer_curr,buffer_end)`; the difference of a null and a non-null pointer, or a `buffer_curr` past the end, is undefined
(`none`). -/
def ISt.avail (s : ISt) : Option (List Nat) :=
  match s.mem, s.curr with
  | none, none => some []
  | some l, some i => if i ≤ l.length then some (l.drop i) else none
  | _, _ => none

/-- The allocation on first use in `ibuffer_underflow_rl_impl` (input_normal.h:9-10). -/
def allocate (s : ISt) : ISt :=
  match s.mem with
  | none => { s with mem := some [], curr := some 0 }
  | some _ => s

/-- `ibuffer_underflow_rl_impl` (input_normal.h:7-15), `ibuffer_underflow` (input.h:64-82). -/
def underflow (bfs : Nat) (s : ISt) : ISt × Option Bool :=
  let s := allocate s
  match devRead s.dev bfs with
  | (d, some l) => (⟨some l, some 0, d⟩, some (l ≠ []))
  | (d, none) => ({ s with dev := d }, none)

/-- `iobuf_read_unhappy_decay_impl` (input_normal.h:26-49). -/
def readUnhappyDecay (bfs : Nat) (s : ISt) (n : Nat) : ISt × Res :=
  if bfs ≤ n then
    match devRead s.dev n with
    | (d, some l) => ({ s with dev := d }, ⟨l, false⟩)
    | (d, none) => ({ s with dev := d }, ⟨[], true⟩)
  else
    let s := match s.mem with
      | none => { s with mem := some [] }
      | some _ => s
    match devRead s.dev bfs with
    | (d, some l) => (⟨some l, some (min n l.length), d⟩, ⟨l.take (min n l.length), false⟩)
    | (d, none) => ({ s with dev := d }, ⟨[], true⟩)

/-- `iobuf_read_unhappy_impl` (input.h:88-113), `av` is `[buffer_curr,buffer_end)`. -/
def readUnhappy (bfs : Nat) (s : ISt) (av : List Nat) (n : Nat) : ISt × Res :=
  let s := match s.mem with
    | none => s
    | some l => { s with curr := some l.length }
  let r := readUnhappyDecay bfs s (n - av.length)
  (r.1, ⟨av ++ r.2.data, r.2.threw⟩)

/-- `read` of `n` characters (input.h:116-148). -/
def read (bfs : Nat) (s : ISt) (n : Nat) : Option (ISt × Res) :=
  s.avail.map fun av =>
    if av.length < n then readUnhappy bfs s av n
    else ({ s with curr := s.curr.map (· + n) }, ⟨av.take n, false⟩)

/-- One character through the buffer pointers, as the generator and the scanners take them (igenerator.h:11-43, :95-110):
`ibuffer_curr==ibuffer_end` calls `ibuffer_underflow`, then `*curr` and `ibuffer_set_curr(curr+1)`. -/
def getc (bfs : Nat) (s : ISt) : Option (ISt × Res) :=
  s.avail.bind fun av =>
    match av with
    | c :: _ => some ({ s with curr := s.curr.map (· + 1) }, ⟨[c], false⟩)
    | [] =>
      match underflow bfs s with
      | (s, some true) => s.avail.bind fun av =>
        match av with
        | c :: _ => some ({ s with curr := s.curr.map (· + 1) }, ⟨[c], false⟩)
        | [] => none
      | (s, some false) => some (s, ⟨[], false⟩)
      | (s, none) => some (s, ⟨[], true⟩)

/-- `seekdir` (seek.h). -/
inductive Dir | beg | cur | fin
deriving DecidableEq, Repr

/-- The position an offset is relative to. -/
def seekBase (d : IDev) : Dir → Int
  | .beg => 0
  | .cur => d.pos
  | .fin => d.file.length

/-- `lseek`: a negative target fails. -/
def devSeek (d : IDev) (off : Int) (dir : Dir) : IDev × Option Nat :=
  if seekBase d dir + off < 0 then (d, none)
  else ({ d with pos := (seekBase d dir + off).toNat }, some (seekBase d dir + off).toNat)

/-- The correction of a relative seek by the unread characters (input.h:166-203). -/
def seekTarget (av : List Nat) (off : Int) (dir : Dir) : Int × Dir :=
  if dir = .cur then
    if off - av.length < -(2 ^ 63) then (0, .beg) else (off - av.length, .cur)
  else (off, dir)

/-- `buffer_end=buffer_curr=buffer_begin` (input.h:209, general.h:17). -/
def emptied (s : ISt) : ISt := { s with mem := s.mem.map fun _ => [], curr := s.mem.map fun _ => 0 }

/-- `seek` (input.h:152-212): `some p` is the returned position, `none` an exception of the device. -/
def seek (s : ISt) (off : Int) (dir : Dir) : Option (ISt × Option Nat) :=
  s.avail.map fun av =>
    let t := seekTarget av off dir
    match devSeek s.dev t.1 t.2 with
    | (d, some p) => (emptied { s with dev := d }, some p)
    | (d, none) => ({ s with dev := d }, none)

/-- The input half of `flush` (general.h:16-17). -/
def flushIn (s : ISt) : ISt := emptied s

/-- `read_all_impl_decay_cold` (read_all.h:8-34): `fuel` bounds the number of rounds, `none` when it is used up. The result
is the data stored and how the loop ended. -/
inductive AllRes | done | eof | threw
deriving DecidableEq, Repr

/-- See `AllRes`. -/
def readAllCold (bfs : Nat) : Nat → ISt → Nat → Option (ISt × List Nat × AllRes)
  | _, s, 0 => some (s, [], .done)
  | 0, _, _ => none
  | fuel + 1, s, n => (read bfs s n).bind fun r =>
    if r.2.threw then some (r.1, r.2.data, .threw)
    else if r.2.data = [] then some (r.1, [], .eof)
    else (readAllCold bfs fuel r.1 (n - r.2.data.length)).map fun q => (q.1, r.2.data ++ q.2.1, q.2.2)

/-- `read_all_impl_decay` for a buffered stream (read_all.h:118-140). -/
def readAll (bfs : Nat) (s : ISt) (n : Nat) : Option (ISt × List Nat × AllRes) :=
  s.avail.bind fun av =>
    if n < av.length then some ({ s with curr := s.curr.map (· + n) }, av.take n, .done)
    else readAllCold bfs n s n

/-- `raw_transmit_decay` from a buffered stream (transmit.h:57-73): the data written (the output takes everything), the returned
count, and whether the input threw; `fuel` bounds the rounds. -/
def transmitBuf (bfs : Nat) : Nat → ISt → Option (ISt × List Nat × Nat × Bool)
  | 0, _ => none
  | fuel + 1, s => s.avail.bind fun av =>
    let s1 := if av = [] then s else { s with curr := s.curr.map (· + av.length) }
    match underflow bfs s1 with
    | (s2, some true) => (transmitBuf bfs fuel s2).map fun q => (q.1, av ++ q.2.1, av.length + q.2.2.1, q.2.2.2)
    | (s2, some false) => some (s2, av, av.length, false)
    | (s2, none) => some (s2, av, av.length, true)

/-- `raw_transmit64_decay` from a buffered stream (transmit.h:146-179). -/
def transmit64Buf (bfs : Nat) : Nat → ISt → Nat → Option (ISt × List Nat × Nat × Bool)
  | 0, _, _ => none
  | fuel + 1, s, n => s.avail.bind fun av =>
    let k := if n ≤ av.length then n else av.length
    let s1 := if av = [] then s else { s with curr := s.curr.map (· + k) }
    if av ≠ [] ∧ n - k = 0 then some (s1, av.take k, k, false)
    else
      match underflow bfs s1 with
      | (s2, some true) => (transmit64Buf bfs fuel s2 (n - k)).map fun q => (q.1, av.take k ++ q.2.1, k + q.2.2.1, q.2.2.2)
      | (s2, some false) => some (s2, av.take k, k, false)
      | (s2, none) => some (s2, av.take k, k, true)

/-- `raw_transmit_decay` from an unbuffered device (transmit.h:74-89), `bs` is the size of the temporary buffer. -/
def transmitRaw (bs : Nat) : Nat → IDev → Option (IDev × List Nat × Nat × Bool)
  | 0, _ => none
  | fuel + 1, d =>
    match devRead d bs with
    | (d, none) => some (d, [], 0, true)
    | (d, some []) => some (d, [], 0, false)
    | (d, some l) => (transmitRaw bs fuel d).map fun q => (q.1, l ++ q.2.1, l.length + q.2.2.1, q.2.2.2)

/-- `raw_transmit64_decay` from an unbuffered device (transmit.h:180-209), the loop; `alloc` is the size of the temporary
buffer. -/
def transmit64Loop (alloc : Nat) : Nat → IDev → Nat → Option (IDev × List Nat × Nat × Bool)
  | 0, _, _ => none
  | fuel + 1, d, n =>
    let k := if n ≤ alloc then n else alloc
    if k = 0 then some (d, [], 0, false)
    else
      match devRead d k with
      | (d, none) => some (d, [], 0, true)
      | (d, some []) => some (d, [], 0, false)
      | (d, some l) =>
        if n - l.length = 0 then some (d, l, l.length, false)
        else (transmit64Loop alloc fuel d (n - l.length)).map fun q => (q.1, l ++ q.2.1, l.length + q.2.2.1, q.2.2.2)

/-- `raw_transmit64_decay` from an unbuffered device: allocation (transmit.h:184-188) and loop. -/
def transmit64Raw (bs fuel : Nat) (d : IDev) (n : Nat) : Option (IDev × List Nat × Nat × Bool) :=
  transmit64Loop (if n < bs then n else bs) fuel d n

/-- What a program does with the stream. -/
inductive IOp
  | read (n : Nat)
  | getc
deriving DecidableEq, Repr

/-- One operation. -/
def istep (bfs : Nat) (s : ISt) : IOp → Option (ISt × Res)
  | .read n => read bfs s n
  | .getc => getc bfs s

/-- A program: exceptions are caught and the next operation is tried. -/
def irun (bfs : Nat) (s : ISt) : List IOp → Option (ISt × List Res)
  | [] => some (s, [])
  | op :: ops => (istep bfs s op).bind fun r => (irun bfs r.1 ops).map fun q => (q.1, r.2 :: q.2)

end Verif.IoBuf
