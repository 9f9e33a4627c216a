import Mathlib.Data.List.Basic
/-!
# What `print` and `concat` are expected to write

Characters are numbers.  An argument is described by the ways in which the library can print it and by the text it stands
for; the expected result of `print(out,a,b,c)` is the three texts one after the other, and of `println` the same followed
by a line feed.
-/
namespace Verif.Print

/-- A call a `print_define` function makes on the stream it was given. -/
inductive Prim
  | write (bs : List Nat)
  | put (c : Nat)
deriving DecidableEq, Repr

/-- The characters asked for by a call. -/
def Prim.text : Prim → List Nat
  | .write bs => bs
  | .put c => [c]

/-- One argument of `print`: the text it stands for and how it can be printed.

* `scatter`: its text is available as a range (`print_scatter_define`);
* `reserve = some n`: it announces, for its type, that `n` characters suffice (`print_reserve_size` of the type) and writes
  its text into the space it is given;
* `dynamic = some n`: the same with a size that depends on the value;
* `precise`: it can also announce the exact size (`print_reserve_precise_size`);
* `custom = some l`: it has a `print_define` that makes the calls `l`.

`junk` is what it leaves behind the end of its text inside the announced space. -/
structure Item where
  text : List Nat
  junk : List Nat := []
  scatter : Bool := false
  reserve : Option Nat := none
  dynamic : Option Nat := none
  precise : Bool := false
  custom : Option (List Prim) := none
deriving DecidableEq, Repr

/-- The argument keeps the promises it makes: at least one way of printing, never beyond the announced space, and
`print_define` writes its text. -/
structure Item.Honest (i : Item) : Prop where
  some_way : i.scatter = true ∨ i.reserve ≠ none ∨ i.dynamic ≠ none ∨ i.custom ≠ none
  reserve_ok : ∀ n, i.reserve = some n → i.text.length + i.junk.length ≤ n
  dynamic_ok : ∀ n, i.dynamic = some n → i.text.length + i.junk.length ≤ n
  dynamic_small : ∀ n, i.dynamic = some n → n < 2 ^ 63 - 2
  reserve_small : ∀ n, i.reserve = some n → n < 2 ^ 63 - 2
  custom_ok : ∀ l, i.custom = some l → (l.map Prim.text).flatten = i.text

/-- What a `print` (`line = false`) or `println` of the arguments has to write. -/
def expected (line : Bool) (items : List Item) : List Nat :=
  (items.map Item.text).flatten ++ if line then [10] else []

end Verif.Print
