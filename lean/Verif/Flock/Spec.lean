import Mathlib.Logic.Basic
/-!
# What locks on files mean

A process holds a lock on some bytes of a file, shared or exclusive. Different processes may hold shared locks on a byte together; an exclusive
lock excludes all others.
-/
namespace Verif.Flock

inductive Kind | shared | exclusive | unlock
deriving DecidableEq, Repr

inductive Whence | beg | cur | end_
deriving DecidableEq, Repr

/-- A request of a program: `len` bytes from `start` on, counted from the beginning, the position or the end of the file; a negative length
means the bytes in front of `start`, zero all bytes from `start` on. -/
structure Request where
  kind : Kind
  whence : Whence
  start : Int
  len : Int
deriving DecidableEq, Repr

/-- Position and size of the file when the call is made. -/
structure Place where
  pos : Nat
  size : Nat

/-- From where offsets count. -/
def Place.base (w : Place) : Whence → Nat
  | .beg => 0
  | .cur => w.pos
  | .end_ => w.size

/-- The request is about byte `b`. -/
def Covers (r : Request) (w : Place) (b : Nat) : Prop :=
  let s : Int := w.base r.whence + r.start
  (0 < r.len ∧ s ≤ b ∧ (b : Int) < s + r.len) ∨ (r.len = 0 ∧ s ≤ b) ∨ (r.len < 0 ∧ s + r.len ≤ b ∧ (b : Int) < s)

/-- Which lock (`shared` or `exclusive`) a process holds on a byte. -/
abbrev Table := Nat → Nat → Option Kind

/-- Locks exclude each other. -/
def Safe (t : Table) : Prop := ∀ p q b, p ≠ q → t p b = some .exclusive → t q b = none

/-- Largest offset in a file. -/
def offMax : Nat := 2 ^ 63 - 1

end Verif.Flock
