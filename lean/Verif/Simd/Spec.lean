/-!
# Specification of the vector type `simd_vector<T,N>`

Written from the meaning of the operations only. A vector of bytes is given lowest address first; a vector of elements is the
list of its elements.
-/
namespace Verif.Simd.Spec

/-- The bytes of every element (of `w` bytes) are reversed, the elements stay where they are. -/
def Swapped (w : Nat) (v r : List Nat) : Prop :=
  r.length = v.length ∧ ∀ i j, j < w → i * w + w ≤ v.length → r[i * w + j]? = v[i * w + (w - 1 - j)]?

/-- The result of an operator is formed element by element. -/
def LaneWise {α β : Type} (op : α → α → β) (a b : List α) (r : List β) : Prop :=
  r.length = a.length ∧ ∀ (i : Nat) x y, a[i]? = some x → b[i]? = some y → r[i]? = some (op x y)

/-- The result of a comparison: all bits set where it holds, zero elsewhere. -/
def truth {n : Nat} (b : Bool) : BitVec n := if b then BitVec.allOnes n else 0

/-- `x < y` in the element type. -/
def less {n : Nat} (signed : Bool) (x y : BitVec n) : Bool := if signed then decide (x.toInt < y.toInt) else decide (x.toNat < y.toNat)
/-- `x <= y` in the element type. -/
def lessEq {n : Nat} (signed : Bool) (x y : BitVec n) : Bool := if signed then decide (x.toInt ≤ y.toInt) else decide (x.toNat ≤ y.toNat)

/-- `x >> k` in the element type, for `k` below the width: division by `2^k` rounding down. -/
def shiftRight {n : Nat} (signed : Bool) (x : BitVec n) (k : Nat) : BitVec n :=
  if signed then BitVec.ofInt n (x.toInt / 2 ^ k) else BitVec.ofNat n (x.toNat / 2 ^ k)

/-- `x / y` in the element type (rounding towards zero). -/
def divide {n : Nat} (signed : Bool) (x y : BitVec n) : BitVec n :=
  if signed then BitVec.ofInt n (x.toInt.tdiv y.toInt) else BitVec.ofNat n (x.toNat / y.toNat)

/-- A vector whose elements are all truth values. -/
def IsMask {n : Nat} (v : List (BitVec n)) : Prop := ∀ x ∈ v, x = 0 ∨ x = BitVec.allOnes n

/-- The number of elements before the first one that is not `x`. -/
def leading {n : Nat} (x : BitVec n) : List (BitVec n) → Nat
  | [] => 0
  | y :: l => if y = x then leading x l + 1 else 0

end Verif.Simd.Spec
