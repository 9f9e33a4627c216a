import Verif.IntScan.Spec
/-!
# What `to` should do

`to<T>(a,b,c)` prints the arguments one after the other and scans a `T` from the text.  The text and what scanning it yields
are specified in `Verif.Print.Spec` and `Verif.IntScan.Spec`.
-/
namespace Verif.To
open Verif.IntScan

/-- What the caller of `to` observes: a value, or an exception carrying the `parse_code`. -/
inductive Res (V : Type) | value (v : V) | throws (c : Code)
deriving DecidableEq, Repr

/-- What the caller should observe, given the outcome of scanning: the value, or an exception with the code. -/
def Answer (o : Outcome) (r : Res Int) : Prop :=
  (∃ v, o.code = .ok ∧ o.value = some v ∧ r = .value v) ∨ (o.code ≠ .ok ∧ r = .throws o.code)

end Verif.To
