/-!
# Child processes: descriptors (specification)

A process has a table of descriptors. The call that starts a program names for each of the streams 0, 1, 2 where it shall lead.
-/
namespace Verif.Child

/-- What a descriptor refers to: the null device, the reading or writing end of a pipe, or another open file. -/
inductive File
  | null
  | rd (p : Nat)
  | wr (p : Nat)
  | file (n : Nat)
deriving DecidableEq, Repr

/-- A descriptor in use: what it refers to and whether it is closed when another program starts. -/
structure Entry where
  file : File
  cloexec : Bool
deriving DecidableEq, Repr

/-- The descriptors of a process from 0 on; those behind the end of the list are free. -/
abbrev Table := List (Option Entry)

/-- What descriptor `j` is. -/
def at? (t : Table) (j : Nat) : Option Entry := (t[j]?).join

/-- What file descriptor `j` refers to. -/
def fileAt (t : Table) (j : Nat) : Option File := (at? t j).map Entry.file

/-- What the user asks for a stream: nothing said, a file object (empty, or with its descriptor), the null device, a pipe object. -/
inductive Want
  | keep
  | file (fd : Option Nat)
  | devNull
  | pipe (p : Nat)
deriving DecidableEq, Repr

/-- The pipe objects: the descriptors of the reading end (`false`) and of the writing end (`true`). -/
abbrev Pipes := Nat → Bool → Option Nat

/-- A child reads from its stream 0 and writes to 1 and 2: of a pipe it uses this end. -/
def mine (i : Nat) : Bool := i != 0

/-- And not this one. -/
def other (i : Nat) : Bool := i == 0

/-- The descriptor of the parent that the stream is to be taken from. -/
def source (P : Pipes) (io : Nat → Want) (i : Nat) : Option Nat :=
  match io i with
  | .keep => some i
  | .file fd => fd
  | .devNull => none
  | .pipe p => P p (mine i)

/-- The file that stream `i` of the child has to refer to, given the table of the parent. -/
def wanted (T : Table) (P : Pipes) (io : Nat → Want) (i : Nat) : Option File :=
  match io i with
  | .devNull => some .null
  | _ => (source P io i).bind (fileAt T)

/-- `j` is the end of a pipe used for a stream that the child does not use. -/
def OtherEnd (P : Pipes) (io : Nat → Want) (j : Nat) : Prop := ∃ i < 3, ∃ p, io i = .pipe p ∧ P p (other i) = some j

/-- `j` is the end of a pipe used for a stream that the child uses. -/
def OwnEnd (P : Pipes) (io : Nat → Want) (j : Nat) : Prop := ∃ i < 3, ∃ p, io i = .pipe p ∧ P p (mine i) = some j

/-- What is asked for can be done: files and pipes are open. -/
def Possible (T : Table) (P : Pipes) (io : Nat → Want) : Prop :=
  ∀ i < 3, io i = .keep ∨ io i = .devNull ∨ ∃ n e, source P io i = some n ∧ at? T n = some e

/-- The request is simple:
* if the null device is asked for, the parent has the three standard descriptors;
* the ends of the pipes are no standard descriptors, and no end is needed by the child for one stream and to be closed for another;
* no stream is taken from a standard descriptor that is changed before it;
* a stream that keeps its descriptor is not to be closed when the program starts. -/
structure Simple (T : Table) (P : Pipes) (io : Nat → Want) : Prop where
  std : (∃ i < 3, io i = .devNull) → ∀ i < 3, at? T i ≠ none
  high : ∀ j, OtherEnd P io j → 3 ≤ j
  apart : ∀ j, OtherEnd P io j → ∀ i < 3, source P io i ≠ some j
  order : ∀ i < 3, ∀ n < 3, source P io i = some n → n ≠ i → io n = .keep ∨ (i < n ∧ io n ≠ .devNull)
  kept : ∀ i < 3, source P io i = some i → ∀ e, at? T i = some e → e.cloexec = false

end Verif.Child
