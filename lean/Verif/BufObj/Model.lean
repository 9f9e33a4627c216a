import Verif.BufObj.Spec
import Verif.IoBuf.OutModel
/-!
# Model of `basic_io_buffer` objects

`include/fast_io_freestanding_impl/io_buffer/main.h` without decorators (those are the subject of C73), for a handle class whose
objects can be copied and moved as C74 says (a copy refers to the same file, a moved-from or closed handle to none). The
output buffer is that of `Verif.IoBuf.OutModel`; of the input buffer only its block and the characters ahead are kept.

The heap knows every live block and its size; freeing anything else, or with another size, is undefined (`none`).
-/
namespace Verif.BufObj
open Verif.IoBuf (Answer Out Cfg)

/-- A `basic_io_buffer` (main.h:133-218): `ob` is `obuffer` with its block and the characters of `[buffer_begin,buffer_curr)`, `ib` is `ibuffer`
with its block and the characters of `[buffer_curr,buffer_end)`, `file` the file `handle` refers to. `tag` exists only
for the specification. -/
structure Obj where
  ob : Option (Nat × List Nat) := none
  ib : Option (Nat × List Nat) := none
  file : Option Nat
  tag : Nat
deriving DecidableEq, Repr

/-- The program state. `script` are the answers of the devices to the coming calls of `write`; `nextTag` and `written` exist only for the
specification. -/
structure St where
  objs : Nat → Option Obj := fun _ => none
  heap : Nat → Option Nat := fun _ => none
  next : Nat := 0
  files : Nat → List (Nat × List Nat) := fun _ => []
  script : List Answer := []
  nextTag : Nat := 0
  written : List Written := []

/-- `allocate_iobuf_space` (`fast_io_core_impl/local_new_array_ptr.h:6-34`, memory is never short). -/
def alloc (cfg : Cfg) (s : St) : Nat × St := (s.next, { s with heap := upd s.heap s.next (some cfg.bfs), next := s.next + 1 })

/-- `deallocate_iobuf_space` (`local_new_array_ptr.h:36-60`) with `buffer_size` characters (main.h:269, 290). -/
def dealloc (cfg : Cfg) (s : St) (b : Nat) : Option St :=
  if s.heap b = some cfg.bfs then some { s with heap := upd s.heap b none } else none

/-- Calls of the device behind `o` by an operation on its output buffer (`io_ref(handle)`): the answers come from the script, an
empty handle refuses everything; what the device takes is recorded under the identity of the stream. -/
def device (s : St) (o : Obj) (op : IoBuf.St → Option (IoBuf.St × Out)) : Option (Option (List Nat) × St × Out) :=
  match o.file with
  | none => (op ⟨o.ob.map Prod.snd, ⟨[], [.fail 0, .fail 0]⟩⟩).map fun r => (r.1.buf, s, r.2)
  | some f => (op ⟨o.ob.map Prod.snd, ⟨[], s.script⟩⟩).map fun r =>
      (r.1.buf, { s with script := r.1.dev.script, files := upd s.files f (s.files f ++ [(o.tag, r.1.dev.got)]) }, r.2)

/-- Put the characters an operation left in the output buffer back into the object, allocating the block if there is none
yet (`iobuf_write_allocate_buffer_impl`, output_normal.h:13-21). -/
def setOut (cfg : Cfg) (s : St) (o : Obj) : Option (List Nat) → Obj × St
  | none => ({ o with ob := none }, s)
  | some l =>
    match o.ob with
    | some (b, _) => ({ o with ob := some (b, l) }, s)
    | none => ({ o with ob := some ((alloc cfg s).1, l) }, (alloc cfg s).2)

/-- An operation on the output buffer of the object. -/
def output (cfg : Cfg) (s : St) (o : Obj) (op : IoBuf.St → Option (IoBuf.St × Out)) : Option (Obj × St × Out) :=
  (device s o op).map fun r => ((setOut cfg r.2.1 o r.1).1, (setOut cfg r.2.1 o r.1).2, r.2.2)

/-- `close_throw_impl` (main.h:220-240) together with the reset of `obuffer.buffer_curr` after it in `operator=` and `close` (main.h:322-324,
352-354); the same in `iobuf_output_flush_impl` (output_normal.h:88-99). -/
def closeThrow (cfg : Cfg) (s : St) (o : Obj) : Option (Obj × St × Out) := output cfg s o fun b => some (IoBuf.flush b)

/-- `close_impl` (main.h:241-261): exceptions are caught, and the characters not taken by the device are given up by the
callers (main.h:337-338, 374-376, the end of the object). -/
def closeImpl (cfg : Cfg) (s : St) (o : Obj) : Option (Obj × St) :=
  (closeThrow cfg s o).map fun r => ({ r.1 with ob := r.1.ob.map fun p => (p.1, []) }, r.2.1)

/-- `if(buffer_begin) deallocate_iobuf_space(buffer_begin,buffer_size)` (main.h:268-269, 288-290). -/
def freeBuf (cfg : Cfg) (s : St) : Option (Nat × List Nat) → Option St
  | none => some s
  | some (b, _) => dealloc cfg s b

/-- `cleanup_impl` (main.h:262-302). The pointers are left as they are, but both callers overwrite or destroy them next; here they
are null afterwards. -/
def cleanup (cfg : Cfg) (s : St) (o : Obj) : Option (Obj × St) :=
  (freeBuf cfg s o.ob).bind fun s => (freeBuf cfg s o.ib).map fun s => ({ o with ob := none, ib := none }, s)

/-- `ibuffer.buffer_curr=ibuffer.buffer_end` (main.h:321, 336, 351) or both moved to `buffer_begin` (general.h:16-17). -/
def dropInput (o : Obj) : Obj := { o with ib := o.ib.map fun p => (p.1, []) }

/-- Whether printing something of announced size `size` goes through `obuffer_constant_flush_prepare` (print_freestanding.h:259-331). -/
def prepares (cfg : Cfg) (o : Obj) (size : Nat) : Bool :=
  decide (size < cfg.bfs ∧ ¬ size < IoBuf.room cfg ⟨o.ob.map Prod.snd, ⟨[], []⟩⟩)

/-- One operation: the new state and whether it returns, throws or terminates the process. What makes no sense (using a variable that holds no object, or
constructing one where there is one) does nothing. -/
def step (cfg : Cfg) (s : St) : Op → Option (St × Out)
  /- main.h:305-313 -/
  | .open x f =>
    match s.objs x with
    | some _ => some (s, .ok)
    | none => some ({ s with objs := upd s.objs x (some { file := some f, tag := s.nextTag }), nextTag := s.nextTag + 1 }, .ok)
  /- output.h:34-70 -/
  | .write x bs =>
    match s.objs x with
    | none => some (s, .ok)
    | some o =>
      (output cfg s o fun b => IoBuf.write cfg b bs).map fun r =>
        ({ r.2.1 with objs := upd s.objs x (some r.1), written := s.written ++ [⟨o.tag, o.file, bs⟩] }, r.2.2)
  /- print_freestanding.h:259-331; `obuffer_constant_flush_prepare` (general.h:30-46) also forgets the input buffer -/
  | .print x size bs =>
    match s.objs x with
    | none => some (s, .ok)
    | some o =>
      (output cfg s o fun b => IoBuf.printReserve cfg b size bs).map fun r =>
        ({ r.2.1 with
            objs := upd s.objs x (some (if prepares cfg o size then dropInput r.1 else r.1)), written := s.written ++ [⟨o.tag, o.file, bs⟩] }, r.2.2)
  /- general.h:6-18: the input buffer is forgotten too -/
  | .flush x =>
    match s.objs x with
    | none => some (s, .ok)
    | some o =>
      (closeThrow cfg s o).map fun r =>
        if r.2.2 = .ok then ({ r.2.1 with objs := upd s.objs x (some (dropInput r.1)) }, .ok)
        else ({ r.2.1 with objs := upd s.objs x (some r.1) }, r.2.2)
  /- input_normal.h:6-15: at most `buffer_size` characters are read -/
  | .fill x data =>
    match s.objs x with
    | none => some (s, .ok)
    | some o =>
      match o.ib with
      | some (b, _) => some ({ s with objs := upd s.objs x (some { o with ib := some (b, data.take cfg.bfs) }) }, .ok)
      | none => some ({ (alloc cfg s).2 with objs := upd s.objs x (some { o with ib := some ((alloc cfg s).1, data.take cfg.bfs) }) }, .ok)
  /- `ibuffer_set_curr` (input.h) -/
  | .take x n =>
    match s.objs x with
    | none => some (s, .ok)
    | some o => some ({ s with objs := upd s.objs x (some { o with ib := o.ib.map fun p => (p.1, p.2.drop n) }) }, .ok)
  /- main.h:315: only the handle is copied -/
  | .copy x y ans =>
    match s.objs x, s.objs y with
    | none, some o =>
      if ans then some ({ s with objs := upd s.objs x (some { file := o.file, tag := s.nextTag }), nextTag := s.nextTag + 1 }, .ok)
      else some (s, .threw)
    | _, _ => some (s, .ok)
  /- main.h:357-366; the moved-from stream gets a new identity -/
  | .move x y =>
    match s.objs x, s.objs y with
    | none, some o =>
      some ({ s with objs := upd (upd s.objs x (some o)) y (some { file := none, tag := s.nextTag }), nextTag := s.nextTag + 1 }, .ok)
    | _, _ => some (s, .ok)
  /- main.h:317-328 -/
  | .assignCopy x y ans =>
    match s.objs x, s.objs y with
    | some o, some p =>
      (closeThrow cfg s o).map fun r =>
        if r.2.2 = .ok then
          if ans then ({ r.2.1 with objs := upd s.objs x (some { dropInput r.1 with file := p.file }) }, .ok)
          else ({ r.2.1 with objs := upd s.objs x (some (dropInput r.1)) }, .threw)
        else ({ r.2.1 with objs := upd s.objs x (some r.1) }, r.2.2)
    | _, _ => some (s, .ok)
  /- main.h:368-387. Assigning an object to itself (which `__restrict` forbids) leaves null pointers, and the handle as it is. -/
  | .assignMove x y =>
    match s.objs x, s.objs y with
    | some o, some p =>
      (closeImpl cfg s o).bind fun r => (cleanup cfg r.2 r.1).map fun q =>
        if x = y then ({ q.2 with objs := upd s.objs x (some q.1) }, .ok)
        else ({ q.2 with objs := upd (upd s.objs x (some p)) y (some { file := none, tag := s.nextTag }), nextTag := s.nextTag + 1 }, .ok)
    | _, _ => some (s, .ok)
  /- main.h:389-397 -/
  | .swap x y =>
    match s.objs x, s.objs y with
    | some o, some p => some ({ s with objs := upd (upd s.objs x (some p)) y (some o) }, .ok)
    | _, _ => some (s, .ok)
  /- main.h:330-343; if the file cannot be opened the handle stays -/
  | .reopen x f ans =>
    match s.objs x with
    | none => some (s, .ok)
    | some o =>
      (closeImpl cfg s o).map fun r =>
        if ans then ({ r.2 with objs := upd s.objs x (some { dropInput r.1 with file := some f }) }, .ok)
        else ({ r.2 with objs := upd s.objs x (some (dropInput r.1)) }, .threw)
  /- main.h:344-356 -/
  | .close x =>
    match s.objs x with
    | none => some (s, .ok)
    | some o =>
      (closeThrow cfg s o).map fun r =>
        if r.2.2 = .ok then ({ r.2.1 with objs := upd s.objs x (some { dropInput r.1 with file := none }) }, .ok)
        else ({ r.2.1 with objs := upd s.objs x (some r.1) }, r.2.2)
  /- main.h:398-406 -/
  | .destroy x =>
    match s.objs x with
    | none => some (s, .ok)
    | some o =>
      (closeImpl cfg s o).bind fun r => (cleanup cfg r.2 r.1).map fun q => ({ q.2 with objs := upd s.objs x none }, .ok)

/-- A program; exceptions are caught and the next operation is performed; a terminated process does nothing more. -/
def run (cfg : Cfg) (s : St) : List Op → Option St
  | [] => some s
  | op :: ops => (step cfg s op).bind fun r => if r.2 = .dead then some r.1 else run cfg r.1 ops

/-- What the variables hold. -/
def vals (s : St) : Vals := fun x => (s.objs x).map fun o => (o.file, (o.ib.map Prod.snd).getD [])

end Verif.BufObj
