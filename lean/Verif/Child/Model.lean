import Verif.Child.Spec
/-!
# Child processes: descriptors (model)

`include/fast_io_hosted/process_revamp/posix.h` and `include/fast_io_hosted/platforms/posix.h`, on Linux. Simplified: `fork` and the final
`execveat` succeed; `/dev/null` can be opened; a descriptor of −1 is `none`.
-/
namespace Verif.Child

/-- A process: its descriptors and its pipe objects (posix.h:1410-1414; `pipe_fds` of platforms/posix.h:293 points to these). -/
structure St where
  tab : Table
  pipes : Pipes

/-- Setting an entry. -/
def put : Table → Nat → Option Entry → Table
  | [], 0, v => [v]
  | [], j + 1, v => none :: put [] j v
  | _ :: t, 0, v => v :: t
  | x :: t, j + 1, v => x :: put t j v

/-- The lowest free descriptor, which the kernel gives to a file that is opened. -/
def lowFree : Table → Nat
  | [] => 0
  | none :: _ => 0
  | some _ :: t => lowFree t + 1

/-- `sys_close` (systemcall_details.h:61-72). -/
def sysClose (t : Table) (fd : Nat) : Table := put t fd none

/-- `sys_dup2<true>` (systemcall_details.h:36-59): the process is ended (`none`) if `old_fd` is not open; nothing happens if both are the same;
the copy is not closed on exec. -/
def sysDup2 (t : Table) (old new : Nat) : Option Table :=
  match at? t old with
  | none => none
  | some e => if old = new then some t else some (put t new (some ⟨e.file, false⟩))

/-- `basic_posix_pipe()` (platforms/posix.h:1415-1431): `::pipe`, which sets no flag. -/
def mkPipe (s : St) (p : Nat) : St :=
  let r := lowFree s.tab
  let t := put s.tab r (some ⟨.rd p, false⟩)
  let w := lowFree t
  ⟨put t w (some ⟨.wr p, false⟩), fun q b => if q = p then some (if b then w else r) else s.pipes q b⟩

/-- `posix_io_redirection` (platforms/posix.h:291-296). -/
structure Redir where
  pipeFds : Option Nat := none
  fd : Option Nat := none
  devNull : Bool := false

/-- `posix_io_redirection_std` (platforms/posix.h:298-305) with `redirect` of a file (:938-941), a pipe (:1468-1471), the null device
(:321-324). -/
def redirect : Want → Redir
  | .keep => {}
  | .file fd => { fd := fd }
  | .devNull => { devNull := true }
  | .pipe p => { pipeFds := some p }

/-- An element of a pipe object is set to −1. -/
def forget (P : Pipes) (p : Nat) (b : Bool) : Pipes := fun q c => if q = p ∧ c = b then none else P q c

/-- `child_process_deal_with_process_io` (process_revamp/posix.h:135-155). -/
def dealChild (s : St) (red : Redir) (fd : Nat) : Option Nat × St :=
  let isStdin := fd == 0
  match red.pipeFds with
  | some p =>
    let v := s.pipes p (!isStdin)
    let fd := match v with
      | some v => v
      | none => fd
    match s.pipes p isStdin with
    | some c => (some fd, ⟨sysClose s.tab c, forget s.pipes p isStdin⟩)
    | none => (some fd, s)
  | none =>
    match red.fd with
    | some n => (some n, s)
    | none => if red.devNull then (none, s) else (some fd, s)

/-- `if(in_fd==-1) sys_dup2<true>(pf.fd,0);` (process_revamp/posix.h:166-171). -/
def nullTo (t : Table) (pf : Nat) (c : Option Nat) (i : Nat) : Option Table :=
  match c with
  | none => sysDup2 t pf i
  | some _ => some t

/-- `if((in_fd!=-1)&(in_fd!=0)) sys_dup2<true>(in_fd,0);` (process_revamp/posix.h:173-178). -/
def dupTo (t : Table) (c : Option Nat) (i : Nat) : Option Table :=
  match c with
  | some n => if n ≠ i then sysDup2 t n i else some t
  | none => some t

/-- The opening of `/dev/null` (process_revamp/posix.h:163-172); the object `pf` closes its descriptor at the end of the block. -/
def nullPhase (t : Table) (a b c : Option Nat) : Option Table :=
  if a = none ∨ b = none ∨ c = none then
    let pf := lowFree t
    let t := put t pf (some ⟨.null, false⟩)
    match nullTo t pf a 0 with
    | none => none
    | some t =>
      match nullTo t pf b 1 with
      | none => none
      | some t =>
        match nullTo t pf c 2 with
        | none => none
        | some t => some (sysClose t pf)
  else some t

/-- process_revamp/posix.h:173-178. -/
def dupPhase (t : Table) (a b c : Option Nat) : Option Table :=
  match dupTo t a 0 with
  | none => none
  | some t =>
    match dupTo t b 1 with
    | none => none
    | some t => dupTo t c 2

/-- The program starts: descriptors with the flag are closed (process_revamp/posix.h:121-125). -/
def exec (t : Table) : Table := t.map fun o => o.bind fun e => if e.cloexec then none else some e

/-- `child_process_execveat` (process_revamp/posix.h:158-180): the table of the program, `none` if the child was ended before. -/
def child (s : St) (io : Nat → Want) : Option Table :=
  let a := dealChild s (redirect (io 0)) 0
  let b := dealChild a.2 (redirect (io 1)) 1
  let c := dealChild b.2 (redirect (io 2)) 2
  match nullPhase c.2.tab a.1 b.1 c.1 with
  | none => none
  | some t => (dupPhase t a.1 b.1 c.1).map exec

/-- `parent_process_deal_with_process_io` (process_revamp/posix.h:183-195). -/
def dealParent (s : St) (red : Redir) (isStdin : Bool) : St :=
  match red.pipeFds with
  | some p =>
    match s.pipes p (!isStdin) with
    | some c => ⟨sysClose s.tab c, forget s.pipes p (!isStdin)⟩
    | none => s
  | none => s

/-- `posix_fork_execveat_common_impl` (process_revamp/posix.h:198-210): the parent afterwards and the table of the child. -/
def start (s : St) (io : Nat → Want) : St × Option Table :=
  (dealParent (dealParent (dealParent s (redirect (io 0)) true) (redirect (io 1)) false) (redirect (io 2)) false, child s io)

/-- `close` of an end of a pipe by the program (platforms/posix.h:109-113 of the file object). -/
def closeEnd (s : St) (p : Nat) (b : Bool) : St :=
  match s.pipes p b with
  | some c => ⟨sysClose s.tab c, forget s.pipes p b⟩
  | none => s

end Verif.Child
