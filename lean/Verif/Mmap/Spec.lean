import Mathlib.Logic.Basic
/-!
# What memory-mapped files mean

An object is empty or shows a part of a file. Moving takes the mapping away from the source; every mapping is given back once, together with
the object that shows it, and no other memory of the process is touched.
-/
namespace Verif.Mmap

/-- `file_map_attribute`: what the program may ask for. -/
inductive Attr | executeRead | executeReadWrite | executeWriteCopy | readOnly | readWrite | writeCopy
deriving DecidableEq, Repr

/-- What can be done with mapped memory; `shared`: what is written reaches the file, otherwise a private copy is changed. -/
structure Access where
  read : Bool
  write : Bool
  execute : Bool
  shared : Bool
deriving DecidableEq, Repr

/-- Meaning of the attributes. -/
def Attr.access : Attr → Access
  | .executeRead => ⟨true, false, true, true⟩
  | .executeReadWrite => ⟨true, true, true, true⟩
  | .executeWriteCopy => ⟨true, true, true, false⟩
  | .readOnly => ⟨true, false, false, true⟩
  | .readWrite => ⟨true, true, false, true⟩
  | .writeCopy => ⟨true, true, false, false⟩

/-- A part of a file: `len` bytes from byte `off` on. -/
structure Region where
  file : Nat
  off : Nat
  len : Nat
  attr : Attr
deriving DecidableEq, Repr

/-- What a program does with variables `x`, `y`. The answer of the system to a request for memory is the page it chooses, or it refuses. -/
inductive Op
  /-- Default construction. -/
  | init (x : Nat)
  | map (x : Nat) (r : Region) (ans : Option Nat)
  | move (x y : Nat)
  | assignMove (x y : Nat)
  | close (x : Nat)
  /-- The end of the lifetime. -/
  | destroy (x : Nat)
deriving DecidableEq, Repr

/-- `f` with another value at `x`. -/
def upd {α : Type} (f : Nat → α) (x : Nat) (v : α) : Nat → α := fun y => if y = x then v else f y

/-- `none`: no object, `some none`: an empty one, `some (some r)`: it shows `r`. -/
abbrev Vals := Nat → Option (Option Region)

/-- Programs construct objects where there is none and use objects that exist. -/
def Legal (v : Vals) : Op → Prop
  | .init x => v x = none
  | .map x _ _ => v x = none
  | .move x y => v x = none ∧ v y ≠ none
  | .assignMove x y => v x ≠ none ∧ v y ≠ none
  | .close x => v x ≠ none
  | .destroy x => v x ≠ none

/-- What an operation does that takes effect. -/
def wanted (v : Vals) : Op → Vals
  | .init x => upd v x (some none)
  | .map x r _ => upd v x (some (some r))
  | .move x y => upd (upd v x (v y)) y (some none)
  | .assignMove x y => upd (upd v x (v y)) y (some none)
  | .close x => upd v x (some none)
  | .destroy x => upd v x none

/-- The values after a history; an operation marked `false` did not take effect. -/
def replay : Vals → List (Op × Bool) → Vals
  | v, [] => v
  | v, (op, d) :: h => replay (if d then wanted v op else v) h

/-- The pieces one gets by asking for so many bytes each time. -/
def chop : List Nat → List Nat → List (List Nat)
  | _, [] => []
  | l, k :: ks => l.take k :: chop (l.drop k) ks

end Verif.Mmap
