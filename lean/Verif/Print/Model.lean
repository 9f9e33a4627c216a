import Verif.Print.Spec
/-!
# Model of the print dispatcher

`include/fast_io_core_impl/{print_freestanding,overflow,temporary_buffer,io_ref}.h`.

A `mutex_stream` only adds the lock around the same calls (print_freestanding.h:743-748) and a `status_output_stream` replaces
the whole function; both are left out, as are the address sanitizer variants, which print into a separate array and copy
it.
-/
namespace Verif.Print

/-- How an operation fails: the program is ended on purpose (`fast_terminate`), or memory outside an object is touched. -/
inductive Fail | stop | ub
deriving DecidableEq, Repr

/-- Result of an operation. -/
abbrev R (α : Type) := Except Fail α

/-- A `buffer_output_stream` (concepts/stream.h): the space between `obuffer_curr` and `obuffer_end`, storing characters at
`obuffer_curr` and setting it behind them, `write`, `obuffer_overflow`, whether it is `contiguous` (`obuffer_overflow_never`),
and the constant size with its flush if it has one. -/
structure Stream (S : Type) where
  room : S → Nat
  push : S → List Nat → S
  write : S → List Nat → R S
  overflow : S → Nat → R S
  contiguous : Bool := false
  const : Option (Nat × (S → R S)) := none

/-- `print_reserve_define` at `obuffer_curr`, the line feed if wanted, and `obuffer_set_curr`; the text and what the argument
leaves behind it have to lie inside the buffer. -/
def place {S : Type} (st : Stream S) (s : S) (line : Bool) (i : Item) : R S :=
  let all := i.text ++ if line then [10] else []
  if i.text.length + i.junk.length ≤ st.room s ∧ all.length ≤ st.room s then .ok (st.push s all)
  else .error .ub

/-- `print_reserve_define` into an array of `size` characters, and the line feed. -/
def intoArray (size : Nat) (line : Bool) (i : Item) : R (List Nat) :=
  let all := i.text ++ if line then [10] else []
  if i.text.length + i.junk.length ≤ size ∧ all.length ≤ size then .ok all else .error .ub

/-- `put` (overflow.h:6-34). -/
def put {S : Type} (st : Stream S) (s : S) (c : Nat) : R S :=
  if st.room s = 0 then st.overflow s c else .ok (st.push s [c])

/-- The calls of a `print_define`. -/
def runPrims {S : Type} (st : Stream S) (s : S) : List Prim → R S
  | [] => .ok s
  | .write bs :: t => st.write s bs >>= fun s => runPrims st s t
  | .put c :: t => put st s c >>= fun s => runPrims st s t

/-- `print_control` of text available as a range (print_freestanding.h:208-257). -/
def controlScatter {S : Type} (st : Stream S) (line : Bool) (s : S) (i : Item) : R S :=
  if line then
    if st.contiguous then
      if (st.room s : Int) - 1 < i.text.length then .error .stop
      else .ok (st.push s (i.text ++ [10]))
    else if (i.text.length : Int) < (st.room s : Int) - 1 then .ok (st.push s (i.text ++ [10]))
    else st.write s i.text >>= fun s => put st s 10
  else st.write s i.text

/-- `print_control` of a type of announced size (print_freestanding.h:259-331). -/
def controlReserve {S : Type} (st : Stream S) (line : Bool) (s : S) (n : Nat) (i : Item) : R S :=
  let size := n + line.toNat
  if st.contiguous then
    if st.room s < size then .error .stop else place st s line i
  else
    match st.const.filter (fun p => size < p.1) with
    | some (_, prepare) =>
      if size < st.room s then place st s line i
      else prepare s >>= fun s => place st s line i
    | none =>
      if size < st.room s then place st s line i
      else intoArray size line i >>= fun bs => st.write s bs

/-- `print_control` of an argument whose announced size depends on its value (print_freestanding.h:332-387) with
`print_control_dynamic_reserve_bad_path` (print_freestanding.h:182-199). For a `contiguous` stream the text is stored
before the space is looked at. -/
def controlDynamic {S : Type} (st : Stream S) (line : Bool) (s : S) (n : Nat) (i : Item) : R S :=
  if (line ∧ 2 ^ 63 - 2 ≤ n) ∨ 2 ^ 63 - 1 < n then .error .stop
  else
    let size := n + line.toNat
    if st.contiguous then
      match place st s line i with
      | .ok s' => if st.room s < size then .error .stop else .ok s'
      | .error e => .error e
    else if size < st.room s then place st s line i
    else intoArray size line i >>= fun bs => st.write s bs

/-- `print_control` for a stream with a buffer (print_freestanding.h:201-400). -/
def control {S : Type} (st : Stream S) (line : Bool) (s : S) (i : Item) : R S :=
  if i.scatter then controlScatter st line s i
  else
    match i.reserve with
    | some n => controlReserve st line s n i
    | none =>
      match i.dynamic with
      | some n => controlDynamic st line s n i
      | none =>
        match i.custom with
        | some l => runPrims st s l >>= fun s => if line then put st s 10 else .ok s
        | none => .error .ub

/-- `print_reserve_total_size_para` (print_freestanding.h:409-432): how many of the leading arguments can be printed as a
group, and the space they need. -/
def totalPara : List Item → Nat × Nat
  | [] => (0, 0)
  | i :: rest =>
    match i.reserve with
    | none => (0, 0)
    | some n =>
      if 512 ≤ n then (0, 0)
      else if rest = [] then (1, n)
      else
        let next := totalPara rest
        if (2 ^ 63 - 1) - n ≤ next.2 then next else (next.1 + 1, next.2 + n)

/-- `print_reserve_multiple_parameters_total_size` (print_freestanding.h:434-453). -/
def multiTotal (n : Nat) (rest : List Item) : Nat × Nat :=
  if 512 ≤ n ∨ rest = [] then (0, n)
  else
    let next := totalPara rest
    if 512 - n ≤ next.2 then (0, n) else (next.1, n + next.2)

/-- Storing characters in an array; outside it is undefined. -/
def storeAt (mem : List Nat) (off : Nat) (bs : List Nat) : R (List Nat) :=
  if off + bs.length ≤ mem.length then .ok (mem.take off ++ bs ++ mem.drop (off + bs.length)) else .error .ub

/-- One text after the other in an array, from position `pos` on, and the line feed; the result is everything in front of the
final position. `junk` says which arguments leave their rests behind the text. -/
def chainMem (junk : Item → Bool) (line : Bool) : List Nat → Nat → List Item → R (List Nat)
  | mem, pos, [] =>
    if line then storeAt mem pos [10] >>= fun mem => .ok (mem.take (pos + 1))
    else .ok (mem.take pos)
  | mem, pos, i :: rest =>
    storeAt mem pos (i.text ++ if junk i then i.junk else []) >>= fun mem => chainMem junk line mem (pos + i.text.length) rest

/-- `print_reserve_define` of the first argument and `partition_reserve_impl` (print_freestanding.h:455-476) of the next ones, and
the line feed, in a space of `size` characters (whose contents are arbitrary, here zeros). -/
def chainLine (size : Nat) (line : Bool) (items : List Item) : R (List Nat) :=
  chainMem (fun _ => true) line (List.replicate size 0) 0 items

/-- Printing a group of arguments together (print_freestanding.h:497-540). -/
def group {S : Type} (st : Stream S) (line : Bool) (s : S) (total : Nat) (items : List Item) : R S :=
  let size := total + line.toNat
  match st.const.filter (fun p => size < p.1) with
  | some (_, prepare) =>
    (if size < st.room s then .ok s else prepare s) >>= fun s =>
      chainLine (st.room s) line items >>= fun bs => .ok (st.push s bs)
  | none => chainLine size line items >>= fun bs => st.write s bs

/-- `print_controls_line_multi_impl` (print_freestanding.h:478-560): the first `skip` arguments have been printed. -/
def multi {S : Type} (st : Stream S) (line : Bool) : Nat → S → List Item → R S
  | _, s, [] => .ok s
  | skip + 1, s, _ :: rest => multi st line skip s rest
  | 0, s, i :: rest =>
    match i.reserve with
    | some n =>
      let info := multiTotal n rest
      if info.1 ≠ 0 then
        group st (line && decide (rest.length = info.1)) s info.2 (i :: rest.take info.1) >>= fun s =>
          if info.1 ≠ rest.length then multi st line info.1 s rest else .ok s
      else if rest = [] then control st line s i
      else control st false s i >>= fun s => multi st line 0 s rest
    | none =>
      if rest = [] then control st line s i
      else control st false s i >>= fun s => multi st line 0 s rest

/-- `print_controls_line` in a build without optimisation (print_freestanding.h:562-590), which is also the fold of
`print_control` in `print_freestanding_decay_no_status`. -/
def oneByOne {S : Type} (st : Stream S) (line : Bool) : S → List Item → R S
  | s, [] => .ok s
  | s, [i] => control st line s i
  | s, i :: rest => control st false s i >>= fun s => oneByOne st line s rest

/-- `print_freestanding_decay_no_status` for a stream with a buffer (print_freestanding.h:734-767). -/
def printBuffered {S : Type} (optimised : Bool) (st : Stream S) (line : Bool) (s : S) (items : List Item) : R S :=
  if items = [] then if line then put st s 10 else .ok s
  else if optimised then multi st line 0 s items
  else oneByOne st line s items

/-! ## Streams without a buffer -/

/-- A device without a buffer: every call of `write`, `writeln` or `scatter_write` and the characters it carried. -/
structure Dev where
  calls : List (List Nat) := []
deriving DecidableEq, Repr

/-- Everything the device has received. -/
def Dev.got (d : Dev) : List Nat := d.calls.flatten

/-- One call of the device; it takes everything it is given. -/
def Dev.call (d : Dev) (bs : List Nat) : Dev := ⟨d.calls ++ [bs]⟩

/-- `temporary_buffer` (temporary_buffer.h:6-15): the characters of `[buffer,buffer+pos)` and the device behind it. -/
structure Tmp where
  held : List Nat
  dev : Dev
deriving DecidableEq, Repr

/-- `flush` (temporary_buffer.h:41-49). -/
def Tmp.flush (t : Tmp) : Tmp := if t.held = [] then t else ⟨[], t.dev.call t.held⟩

/-- `write` (temporary_buffer.h:129-145) with `temporary_buffer_write_cold_path<false>` (temporary_buffer.h:63-127). -/
def Tmp.write (t : Tmp) (bs : List Nat) : R Tmp :=
  let remain := 512 - t.held.length
  if remain ≤ bs.length then
    let d := t.dev.call (t.held ++ bs.take remain)
    let rest := bs.drop remain
    if rest.length < 512 then .ok ⟨rest, d⟩ else .ok ⟨[], d.call rest⟩
  else .ok ⟨t.held ++ bs, t.dev⟩

/-- `obuffer_overflow` (temporary_buffer.h:51-61): the whole array is written. -/
def Tmp.overflow (t : Tmp) (c : Nat) : R Tmp :=
  if t.held.length = 512 then .ok ⟨[c], t.dev.call t.held⟩ else .error .ub

/-- `temporary_buffer` as a stream, as seen through `io_ref`, which forwards neither `writeln` nor anything else. -/
def tmpStream : Stream Tmp where
  room t := 512 - t.held.length
  push t bs := ⟨t.held ++ bs, t.dev⟩
  write := Tmp.write
  overflow := Tmp.overflow

/-- What an `io_scatter_t` of `print_fallback` points to: text outside, or a part of the array on the stack or of the array on
the heap. -/
inductive Piece
  | ext (bs : List Nat)
  | stack (off len : Nat)
  | heap (off len : Nat)
deriving DecidableEq, Repr

/-- The two arrays and the positions reached in them. -/
structure Arrays where
  stack : List Nat
  heap : List Nat
  sp : Nat := 0
  hp : Nat := 0

/-- `scatter_print_with_reserve_recursive_unit` (print_freestanding.h:75-104, `reserveFirst`), the body of
`scatter_print_with_dynamic_reserve_recursive` (print_freestanding.h:121-148) and of
`scatter_print_with_dynamic_only_reserve_recursive` (print_freestanding.h:150-170), and `scatter_print_recursive`
(print_freestanding.h:9-23). -/
def scatterOne (reserveFirst : Bool) (a : Arrays) (i : Item) : R (Arrays × Piece) :=
  let onStack : R (Arrays × Piece) := do
    let m ← storeAt a.stack a.sp (i.text ++ i.junk)
    .ok ({ a with stack := m, sp := a.sp + i.text.length }, .stack a.sp i.text.length)
  if reserveFirst && i.reserve.isSome then onStack
  else if i.scatter then .ok (a, .ext i.text)
  else if i.reserve.isSome then onStack
  else if i.dynamic.isSome then do
    let m ← storeAt a.heap a.hp (i.text ++ i.junk)
    .ok ({ a with heap := m, hp := a.hp + i.text.length }, .heap a.hp i.text.length)
  else .error .ub

/-- The list of pieces, filled from left to right. -/
def scatterAll (reserveFirst : Bool) : Arrays → List Item → R (Arrays × List Piece)
  | a, [] => .ok (a, [])
  | a, i :: rest =>
    match scatterOne reserveFirst a i with
    | .error e => .error e
    | .ok (a, p) =>
      match scatterAll reserveFirst a rest with
      | .error e => .error e
      | .ok (a, ps) => .ok (a, p :: ps)

/-- What a piece holds when the device is finally called. -/
def Piece.read (a : Arrays) : Piece → List Nat
  | .ext bs => bs
  | .stack off len => (a.stack.drop off).take len
  | .heap off len => (a.heap.drop off).take len

/-- `calculate_scatter_reserve_size` (print_freestanding.h:25-50). -/
def reserveTotal (items : List Item) : Nat := (items.map fun i => i.reserve.getD 0).sum

/-- `calculate_scatter_dynamic_reserve_size` (print_freestanding.h:52-72). -/
def dynamicTotal (items : List Item) : Nat :=
  (items.map fun i => if i.reserve.isSome then 0 else i.dynamic.getD 0).sum

/-- Properties of a device: `scatter_write`, `writeln`. -/
structure DevCfg where
  scatter : Bool
  writeln : Bool

/-- Can be put into a list of pieces. -/
def Item.plain (i : Item) : Bool := i.scatter || i.reserve.isSome || i.dynamic.isSome

/-- `print_fallback` (print_freestanding.h:592-700). The arrays start with arbitrary contents, here zeros. -/
def fallback (cfg : DevCfg) (line : Bool) (d : Dev) (items : List Item) : R Dev :=
  if line ∧ items = [] then .ok (d.call [10])
  else if cfg.scatter ∧ items.all Item.plain then
    let reserveFirst := !items.all Item.scatter && items.all fun i => i.scatter || i.reserve.isSome
    -- an addition that overflows ends the program
    if 2 ^ 64 ≤ reserveTotal items ∨ 2 ^ 64 ≤ dynamicTotal items then .error .stop
    else
      match scatterAll reserveFirst ⟨List.replicate (reserveTotal items) 0, List.replicate (dynamicTotal items) 0, 0, 0⟩ items with
      | .error e => .error e
      | .ok (a, ps) => .ok (d.call ((ps.map (Piece.read a)).flatten ++ if line then [10] else []))
  else
    match multi tmpStream line 0 ⟨[], d⟩ items with
    | .error e => .error e
    | .ok t => .ok t.flush.dev

/-- The calls of a `print_define` on a device without a buffer; there is no `put` for it (overflow.h:6). -/
def devPrims (d : Dev) : List Prim → R Dev
  | [] => .ok d
  | .write bs :: t => devPrims (d.call bs) t
  | .put _ :: _ => .error .ub

/-- `print_control` for a device without a buffer (print_freestanding.h:201-400). -/
def devControl (cfg : DevCfg) (line : Bool) (d : Dev) (i : Item) : R Dev :=
  if i.scatter then
    if line then
      if cfg.writeln then .ok (d.call (i.text ++ [10]))
      else .ok ((d.call i.text).call [10])
    else .ok (d.call i.text)
  else
    match i.reserve with
    | some n => intoArray (n + line.toNat) line i >>= fun bs => .ok (d.call bs)
    | none =>
      match i.dynamic with
      | some n =>
        if (line ∧ 2 ^ 63 - 2 ≤ n) ∨ 2 ^ 63 - 1 < n then .error .stop
        else intoArray (n + line.toNat) line i >>= fun bs => .ok (d.call bs)
      | none =>
        match i.custom with
        -- with a line feed this branch needs `put`, which there is not
        | some l => if line then .error .ub else devPrims d l
        | none => .error .ub

/-- The condition for printing a single argument directly (print_freestanding.h:768-771). -/
def direct (cfg : DevCfg) (line : Bool) (i : Item) : Bool :=
  ((!line || cfg.writeln) && (i.custom.isSome || i.scatter)) || (i.reserve.isSome || i.dynamic.isSome)

/-- `print_freestanding_decay_no_status` for a device without a buffer (print_freestanding.h:734-786). -/
def printDevice (cfg : DevCfg) (line : Bool) (d : Dev) (items : List Item) : R Dev :=
  if items = [] ∧ line = false then .ok d
  else
    match items with
    | [i] => if direct cfg line i then devControl cfg line d i else fallback cfg line d [i]
    | _ => fallback cfg line d items

end Verif.Print
