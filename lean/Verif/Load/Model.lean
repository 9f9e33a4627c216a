import Verif.Load.Spec
/-!
# Model of file_loaders/posix_file_loader.h

`none`: undefined behaviour (a store outside the block, freeing what is not allocated) or an endless loop.
-/
namespace Verif.Load

/-- `malloc`: null, or a block that was not allocated. -/
def malloc (s : Sys) (n : Nat) (ans : Option Nat) : Option (Sys × Nat) :=
  match ans with
  | none => none
  | some b => if s.heap b = none then some ({ s with heap := upd s.heap b (some (List.replicate n none)) }, b) else none

/-- `free`. -/
def free (s : Sys) : Option Nat → Option Sys
  | none => some s
  | some b => if s.heap b = none then none else some { s with heap := upd s.heap b none }

/-- The kernel stores `l` at offset `i` of block `b`. -/
def store (s : Sys) (b i : Nat) (l : List Nat) : Option Sys :=
  match s.heap b with
  | none => none
  | some m => if m.length < i + l.length then none
    else some { s with heap := upd s.heap b (some (m.take i ++ l.map some ++ m.drop (i + l.length))) }

/-- `read(piob,i,addr_ed)` (posix.h:452-476, :681-690): `none`: it throws. -/
def sysRead (f : File) (s : Sys) (n : Nat) : Sys × Option (List Nat) :=
  match s.script with
  | [] => ({ s with pos := s.pos + ((f.data.drop s.pos).take n).length }, some ((f.data.drop s.pos).take n))
  | none :: t => ({ s with script := t }, none)
  | some k :: t => ({ s with script := t, pos := s.pos + (((f.data.drop s.pos).take n).take (k + 1)).length },
      some (((f.data.drop s.pos).take n).take (k + 1)))

/-- The loop of posix_file_loader.h:165-171 and :204-210; `true`: the block is full, `false`: it throws. -/
def fill (f : File) (b size : Nat) : Nat → Sys → Nat → Option (Sys × Bool)
  | 0, _, _ => none
  | fuel + 1, s, i =>
    if i = size then some (s, true)
    else match sysRead f s (size - i) with
      | (s, none) => some (s, false)
      | (s, some l) => (store s b i l).bind fun s =>
        if l = [] then some (s, false) else fill f b size fuel s (i + l.length)

/-- `posix_load_address<true>` (posix_file_loader.h:155-175) with `load_file_allocation_guard` (:119-152). The inner `none`: it throws. -/
def loadAddress (f : File) (size : Nat) (ans : Option Nat) (s : Sys) : Option (Sys × Option (Option Nat)) :=
  if size = 0 then some (s, some none)
  else match malloc s size ans with
    | none => some (s, none)
    | some (s, b) => (fill f b size (size + 1) s 0).bind fun r =>
      if r.2 then some (r.1, some (some b)) else (free r.1 (some b)).map fun s => (s, none)

/-- `posix_load_address_extra` (posix_file_loader.h:193-223). -/
def loadExtra (f : File) (size exsz : Nat) (ans : Option Nat) (s : Sys) : Option (Sys × Option (Option Nat)) :=
  if 2 ^ 64 - 1 - exsz < size then some (s, none)
  else match malloc s ((size + exsz) % 2 ^ 64) ans with
    | none => some (s, none)
    | some (s, b) => (fill f b size (size + 1) s 0).bind fun r =>
      if r.2 then (store r.1 b size (List.replicate exsz 0)).map fun s => (s, some (some b))
      else (free r.1 (some b)).map fun s => (s, none)

/-- `posix_load_address_impl<true>` (:258-263; `exb`: `none`) and `posix_load_address_allocation_extra_impl` (:288-293): the loader made
from a descriptor (:339, :386). `stat`: `posix_loader_get_file_size` (:73-116) succeeds. -/
def loadFd (exb : Option Nat) (f : File) (stat : Bool) (ans : Option Nat) (s : Sys) : Option (Sys × Option (Option Nat × Nat)) :=
  if stat then
    (match exb with
      | none => loadAddress f f.reported ans s
      | some e => loadExtra f f.reported e ans s).map fun (r : Sys × Option (Option Nat)) => (r.1, r.2.map fun a => (a, f.reported))
  else some (s, none)

/-- `posix_load_file_impl<true>` (:265-285) and `posix_load_file_allocation_extra_impl` (:295-314): the loader made from a name; `op`: the file
can be opened. The destructor of `pf` closes it. -/
def loadName (exb : Option Nat) (f : File) (op stat : Bool) (ans : Option Nat) (s : Sys) : Option (Sys × Option (Option Nat × Nat)) :=
  if op then (loadFd exb f stat ans { s with pos := 0, fd := true }).map fun r => ({ r.1 with fd := false }, r.2)
  else some (s, none)

/-- `close` and the destructor (posix_file_loader.h:500-507, :520-523): `posix_unload_address<true>` (:226-238). -/
def unload (s : Sys) (ld : Option Nat × Nat) : Option Sys := free s ld.1

/-- `posix_load_address<false>` (:177-191): `ans`: the bytes the kernel maps, those of the file from its beginning, or a refusal. The loader
holds the mapped bytes. -/
def loadMmap (f : File) (stat map : Bool) : Option (List Nat) :=
  if stat then
    if f.reported = 0 then some []
    else if map then some (f.data.take f.reported) else none
  else none

end Verif.Load
