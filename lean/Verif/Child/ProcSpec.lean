/-!
# Child processes: waiting (specification)

What a program and its children do, and what status a child ended with.
-/
namespace Verif.Child.Proc

/-- Events: child `p` ends with status `st`; the program constructs object `h` (empty; by starting a program, which gets the number `p`; by
moving from `g`), move-assigns `g` to `h`, waits with `h` (the status is returned, or `none`: an exception is thrown), detaches it, destroys it. -/
inductive Ev
  | exit (p st : Nat)
  | default (h : Nat)
  | start (h p : Nat)
  | move (h g : Nat)
  | assign (h g : Nat)
  | wait (h : Nat) (r : Option Nat)
  | detach (h : Nat)
  | destroy (h : Nat)
deriving DecidableEq, Repr

/-- The status that the child with number `p` (the last one started with it) ended with, if it has ended; the last event first. -/
def status : List Ev → Nat → Option Nat
  | [], _ => none
  | .exit q st :: es, p => if q = p then some st else status es p
  | .start _ q :: es, p => if q = p then none else status es p
  | _ :: es, p => status es p

end Verif.Child.Proc
