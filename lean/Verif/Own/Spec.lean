import Mathlib.Logic.Basic
/-!
# What file objects mean

A file object is empty or refers to an open file (a *description*, in the words of POSIX). Copying shares the description, moving takes it
away from the source, and every handle of the operating system is closed exactly once.
-/
namespace Verif.Own

/-- What a program does with variables `x`, `y` of one file class. The remaining arguments are answers of the operating system: the handle
it gives out (`none`: it refuses), whether the second call of a pair succeeds, whether closing reports an error. -/
inductive Op
  /-- Default construction. -/
  | init (x : Nat)
  /-- Construction by opening the file with description `d`. -/
  | open (x d : Nat) (ans : Option Nat)
  /-- Construction from a handle the program owns. -/
  | adopt (x h : Nat)
  | copy (x y : Nat) (ans : Option Nat)
  | move (x y : Nat)
  | assignCopy (x y : Nat) (ans : Option Nat) (ans2 : Bool)
  | assignMove (x y : Nat)
  | reset (x : Nat)
  | close (x : Nat) (err : Bool)
  /-- The object gives its handle to the program. -/
  | release (x : Nat)
  /-- The end of the lifetime. -/
  | destroy (x : Nat)
deriving DecidableEq, Repr

/-- `f` with another value at `x`. -/
def upd {α : Type} (f : Nat → α) (x : Nat) (v : α) : Nat → α := fun y => if y = x then v else f y

/-- The values of the variables: `none`: no object, `some none`: an empty one, `some (some d)`: it refers to `d`. -/
abbrev Vals := Nat → Option (Option Nat)

/-- What an operation that does not throw should do. The value of an adopted handle is what the handle refers to, `r`. -/
def wanted (r : Nat → Option Nat) (v : Vals) : Op → Vals
  | .init x => upd v x (some none)
  | .open x d _ => upd v x (some (some d))
  | .adopt x h => upd v x (some (r h))
  | .copy x y _ => upd v x (v y)
  | .move x y => upd (upd v x (v y)) y (some none)
  | .assignCopy x y _ _ => upd v x (v y)
  | .assignMove x y => upd (upd v x (v y)) y (some none)
  | .reset x => upd v x (some none)
  | .close x _ => upd v x (some none)
  | .release x => upd v x (some none)
  | .destroy x => upd v x none

/-- What an operation that throws should do: nothing, but an object whose file cannot be closed properly is empty all the same. -/
def afterThrow (v : Vals) : Op → Vals
  | .close x _ => upd v x (some none)
  | _ => v

end Verif.Own
