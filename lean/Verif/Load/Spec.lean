import Mathlib.Logic.Basic
/-!
# Loading a whole file: what the environment does and what a loader should give
-/
namespace Verif.Load

/-- A file: its bytes and the size `statx` or `fstat` reports (the same for ordinary files; 0 for files made up by the kernel). -/
structure File where
  data : List Nat
  reported : Nat

/-- The rest of the world. `heap`: the allocated blocks and their bytes (`none`: not initialised). `script`: the answers to the next
calls of `read`: `none`: an error, `some k`: at most `k + 1` bytes are delivered; when it ends, all that is there is delivered. `pos`: the
file position. `fd`: the descriptor opened by the loader is still open. -/
structure Sys where
  heap : Nat → Option (List (Option Nat))
  script : List (Option Nat)
  pos : Nat
  fd : Bool

/-- `f` with another value at `x`. -/
def upd {α : Type} (f : Nat → α) (x : Nat) (v : α) : Nat → α := fun y => if y = x then v else f y

/-- The loader (`address_begin`: a block or null; the number of bytes between `address_begin` and `address_end`) holds the text `t`,
followed by `extra` zeros, in a block made for it. -/
def Holds (before after : Nat → Option (List (Option Nat))) (t : List Nat) (extra : Nat) (ld : Option Nat × Nat) : Prop :=
  ld.2 = t.length ∧
  match ld.1 with
  | none => t = [] ∧ extra = 0 ∧ after = before
  | some b => before b = none ∧ after = upd before b (some ((t ++ List.replicate extra 0).map some))

end Verif.Load
