import Verif.IntPrint.Spec
/-!
# What printing an integer with a locale should produce

The digits are separated into groups counted from the right. `g` lists the sizes of the groups; the last one repeats, and a size
of 0 ends the grouping (the convention of the locale files of the library).
-/
namespace Verif.Lc
open Verif Verif.IntPrint

/-- The size of group number `j`, counted from the right from 0. -/
def groupSize (g : List Nat) (j : Nat) : Nat := (g[j]?).getD (g.getLast?.getD 0)

/-- The number of digits in the first `m` groups. -/
def groupSum (g : List Nat) : Nat → Nat
  | 0 => 0
  | m + 1 => groupSum g m + groupSize g m

/-- There is a group boundary to the left of the `k` rightmost digits. -/
def IsBoundary (g : List Nat) (k : Nat) : Prop := ∃ m, (∀ j ≤ m, groupSize g j ≠ 0) ∧ k = groupSum g (m + 1)

/-- `txt` is the digits `ds` with the separator `sep` at the group boundaries. -/
inductive Grouped (g sep : List Nat) : List Nat → List Nat → Prop
  | nil : Grouped g sep [] []
  | plain (d : Nat) (ds txt : List Nat) : ¬ IsBoundary g ds.length → Grouped g sep ds txt → Grouped g sep (d :: ds) (d :: txt)
  | sep (d : Nat) (ds txt : List Nat) : IsBoundary g ds.length → Grouped g sep ds txt →
      Grouped g sep (d :: ds) (d :: (sep ++ txt))

/-- The digit characters of a number: the canonical numeral, or (`full`) as many digits as the largest number of `bits` bits has. -/
def IsDigits (bits base : Nat) (upper full : Bool) (n : Nat) (ds : List Nat) : Prop :=
  if full then ∃ l, (∀ d ∈ l, d < base) ∧ digitsValue base l = n ∧
      (∀ x, IsNumeral base x (2 ^ bits - 1) → l.length = x.length) ∧ ds = l.map (digitChar upper)
  else IsNumeralText base upper ds n

end Verif.Lc
