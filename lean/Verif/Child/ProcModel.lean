import Verif.Child.ProcSpec
/-!
# Child processes: waiting (model)

`posix_process` of `include/fast_io_hosted/process_revamp/posix.h`, on Linux. Simplified: `fork` succeeds, `wait4` is not interrupted by
signals, and process numbers come from `fork` (no handles made from numbers).
-/
namespace Verif.Child.Proc

/-- The children the kernel knows by number (running, or ended with a status and not waited for), and the objects (`pid`, posix.h:237, −1 is
`none`). -/
structure St where
  kids : Nat → Option (Option Nat)
  hs : Nat → Option (Option Nat)

def upd {α : Type} (f : Nat → α) (i : Nat) (v : α) : Nat → α := fun j => if j = i then v else f j

/-- The system call `wait4(pid,...,0,nullptr)` (posix.h:100-119): for a number it waits until that child has ended, takes it away and returns
its status, `none` (`ECHILD`) if there is no such child; for −1 it does this for any child. While the children it waits for are running, it
does not return. -/
inductive Wait4 (kids : Nat → Option (Option Nat)) : Option Nat → (Nat → Option (Option Nat)) → Option Nat → Prop
  | one (p st : Nat) (h : kids p = some (some st)) : Wait4 kids (some p) (upd kids p none) (some st)
  | noSuch (p : Nat) (h : kids p = none) : Wait4 kids (some p) kids none
  | any (p st : Nat) (h : kids p = some (some st)) : Wait4 kids none (upd kids p none) (some st)
  | noAny (h : ∀ p, kids p = none) : Wait4 kids none kids none

/-- One event. -/
inductive Step : St → Ev → St → Prop
  /-- The kernel: a child ends. -/
  | exit (s : St) (p st : Nat) (h : s.kids p = some none) : Step s (.exit p st) { s with kids := upd s.kids p (some (some st)) }
  /-- `posix_process()` (posix.h:415). -/
  | default (s : St) (h : Nat) (hf : s.hs h = none) : Step s (.default h) { s with hs := upd s.hs h (some none) }
  /-- The constructors that start a program (posix.h:420-429): `fork` gives a number that no child has. -/
  | start (s : St) (h p : Nat) (hf : s.hs h = none) (hp : s.kids p = none) :
      Step s (.start h p) ⟨upd s.kids p (some none), upd s.hs h (some (some p))⟩
  /-- `posix_process(posix_process&&)` (posix.h:433-436). -/
  | move (s : St) (h g : Nat) (v : Option Nat) (hf : s.hs h = none) (hg : s.hs g = some v) :
      Step s (.move h g) { s with hs := upd (upd s.hs h (some v)) g (some none) }
  /-- `operator=(posix_process&&)` (posix.h:437-443); the parameter is `__restrict`: the objects are different. -/
  | assign (s : St) (h g : Nat) (v w : Option Nat) (hh : s.hs h = some v) (hg : s.hs g = some w) (hne : h ≠ g) (k : Nat → Option (Option Nat))
      (r : Option Nat) (hw : Wait4 s.kids v k r) : Step s (.assign h g) ⟨k, upd (upd s.hs h (some w)) g (some none)⟩
  /-- `wait` (posix.h:263-268), success. -/
  | waitOk (s : St) (h : Nat) (v : Option Nat) (hh : s.hs h = some v) (k : Nat → Option (Option Nat)) (st : Nat) (hw : Wait4 s.kids v k (some st)) :
      Step s (.wait h (some st)) ⟨k, upd s.hs h (some none)⟩
  /-- `wait` (posix.h:263-268), the exception of `posix_waitpid` (:104). -/
  | waitErr (s : St) (h : Nat) (v : Option Nat) (hh : s.hs h = some v) (k : Nat → Option (Option Nat)) (hw : Wait4 s.kids v k none) :
      Step s (.wait h none) { s with kids := k }
  /-- `detach` (posix.h:258-261). -/
  | detach (s : St) (h : Nat) (v : Option Nat) (hh : s.hs h = some v) : Step s (.detach h) { s with hs := upd s.hs h (some none) }
  /-- `~posix_process` (posix.h:444-447). -/
  | destroy (s : St) (h : Nat) (v : Option Nat) (hh : s.hs h = some v) (k : Nat → Option (Option Nat)) (r : Option Nat) (hw : Wait4 s.kids v k r) :
      Step s (.destroy h) ⟨k, upd s.hs h none⟩

/-- Histories from the start of the program (the last event first). -/
inductive Run : List Ev → St → Prop
  | nil : Run [] ⟨fun _ => none, fun _ => none⟩
  | cons {es s e s'} (h : Run es s) (hs : Step s e s') : Run (e :: es) s'

end Verif.Child.Proc
