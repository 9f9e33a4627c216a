import Mathlib.Data.List.Basic
/-!
# What buffered stream objects mean

A buffered stream is a file handle with an output buffer and an input buffer. Programs construct, copy, move, assign, swap,
reopen, close and destroy them, and write and read in between. What is written to a stream belongs to the file the stream
refers to at that time: it has to arrive there, once and in the order written, at the latest when the stream is destroyed,
closed, reopened or assigned to; moving a stream moves what it still holds.

To say so, every stream carries a number (its *identity*) that exists only in the specification: a constructed or copied stream
gets a new one, moving and swapping hand it over together with the stream's contents. `written` is the record of the write
operations, each with the identity and the file of the stream at that time.
-/
namespace Verif.BufObj

/-- What a program does with variables `x`, `y` of a buffered stream type. The boolean answers are those of the operating system:
whether the file can be opened or the handle duplicated. -/
inductive Op
  /-- Construction by opening file `f`. -/
  | open (x f : Nat)
  /-- `write`, or printing a string. -/
  | write (x : Nat) (bs : List Nat)
  /-- Printing something that announces its size beforehand, such as a number. -/
  | print (x size : Nat) (bs : List Nat)
  | flush (x : Nat)
  /-- The input buffer is refilled with what the device delivers. -/
  | fill (x : Nat) (data : List Nat)
  /-- `n` characters are taken out of the input buffer. -/
  | take (x n : Nat)
  | copy (x y : Nat) (ans : Bool)
  | move (x y : Nat)
  | assignCopy (x y : Nat) (ans : Bool)
  | assignMove (x y : Nat)
  | swap (x y : Nat)
  | reopen (x f : Nat) (ans : Bool)
  | close (x : Nat)
  | destroy (x : Nat)
deriving DecidableEq, Repr

/-- A write operation that was performed: the identity of the stream, its file, and the characters. -/
structure Written where
  tag : Nat
  file : Option Nat
  bs : List Nat
deriving DecidableEq, Repr

/-- Everything written through the stream with identity `t` while it referred to the file `f`, in order. -/
def wrote (t : Nat) (f : Option Nat) (h : List Written) : List Nat :=
  ((h.filter fun w => w.tag = t ∧ w.file = f).map Written.bs).flatten

/-- What a file has received from the stream with identity `t`: the pieces marked with it. -/
def received (t : Nat) (log : List (Nat × List Nat)) : List Nat :=
  ((log.filter fun p => p.1 = t).map Prod.snd).flatten

/-- `f` with another value at `x`. -/
def upd {α : Type} (f : Nat → α) (x : Nat) (v : α) : Nat → α := fun y => if y = x then v else f y

/-- What a variable holds: no object, or the file referred to and the characters read ahead. -/
abbrev Vals := Nat → Option (Option Nat × List Nat)

/-- What an operation that does not throw should do to the variables. Reading ahead is private to a stream: it is not copied, and is
given up when the stream gets another file. -/
def wanted (v : Vals) : Op → Vals
  | .open x f => upd v x (some (some f, []))
  | .write _ _ => v
  | .print _ _ _ => v
  | .flush _ => v
  | .fill x data => upd v x ((v x).map fun p => (p.1, data))
  | .take x n => upd v x ((v x).map fun p => (p.1, p.2.drop n))
  | .copy x y _ => upd v x ((v y).map fun p => (p.1, []))
  | .move x y => upd (upd v x (v y)) y (some (none, []))
  | .assignCopy x y _ => upd v x ((v y).map fun p => (p.1, []))
  | .assignMove x y => if x = y then upd v x ((v x).map fun p => (p.1, [])) else upd (upd v x (v y)) y (some (none, []))
  | .swap x y => upd (upd v x (v y)) y (v x)
  | .reopen x f _ => upd v x (some (some f, []))
  | .close x => upd v x (some (none, []))
  | .destroy x => upd v x none

/-- Who is who after an operation that does not throw: `v` are the identities of the streams in the variables, `n` the next new one. -/
def identities (v : Nat → Option Nat) (n : Nat) : Op → (Nat → Option Nat) × Nat
  | .open x _ => (upd v x (some n), n + 1)
  | .copy x _ _ => (upd v x (some n), n + 1)
  | .move x y => (upd (upd v x (v y)) y (some n), n + 1)
  | .assignMove x y => if x = y then (v, n) else (upd (upd v x (v y)) y (some n), n + 1)
  | .swap x y => (upd (upd v x (v y)) y (v x), n)
  | .destroy x => (upd v x none, n)
  | _ => (v, n)

/-- What an operation asks to be written, with the stream and its file: `who` and `file` tell them of a variable. -/
def asks (who file : Nat → Option Nat) : Op → List Written
  | .write x bs => (who x).toList.map fun t => ⟨t, file x, bs⟩
  | .print x _ bs => (who x).toList.map fun t => ⟨t, file x, bs⟩
  | _ => []

/-- Operations that make sense: a variable is constructed where there is no object, and used where there is one; what is printed is
not longer than announced. `cap` is the buffer size: more than that is not read at a time. -/
def Fits (cap : Nat) (v : Vals) : Op → Prop
  | .open x _ => v x = none
  | .write x _ => v x ≠ none
  | .print x size bs => v x ≠ none ∧ bs.length ≤ size
  | .flush x => v x ≠ none
  | .fill x data => v x ≠ none ∧ data.length ≤ cap
  | .take x _ => v x ≠ none
  | .copy x y _ => v x = none ∧ v y ≠ none
  | .move x y => v x = none ∧ v y ≠ none
  | .assignCopy x y _ => v x ≠ none ∧ v y ≠ none
  | .assignMove x y => v x ≠ none ∧ v y ≠ none
  | .swap x y => v x ≠ none ∧ v y ≠ none
  | .reopen x _ _ => v x ≠ none
  | .close x => v x ≠ none
  | .destroy x => v x ≠ none

/-- The variable an operation is about. -/
def target : Op → Nat
  | .open x _ | .write x _ | .print x _ _ | .flush x | .fill x _ | .take x _ | .copy x _ _ | .move x _ | .assignCopy x _ _ | .assignMove x _
  | .swap x _ | .reopen x _ _ | .close x | .destroy x => x

/-- What is printed is not longer than announced. -/
def Honest : Op → Prop
  | .print _ size bs => bs.length ≤ size
  | _ => True

instance (op : Op) : Decidable (Honest op) := by
  cases op <;> simp only [Honest] <;> infer_instance

end Verif.BufObj
