/-! What a sequence container is (C40): operations on mathematical sequences. -/
namespace Verif.Vec

/-- Operations that change a sequence. Positions are indices. -/
inductive Op where
  | pushBack (x : Nat)
  | popBack
  | insert (i x : Nat)
  | erase (i : Nat)
  | eraseRange (i j : Nat)
  | reserve (n : Nat)
  | shrinkToFit
  | clear
  deriving DecidableEq, Repr

/-- The sequence afterwards; `none`: the operation is out of range, and the program is to be ended. -/
def Op.apply : Op → List Nat → Option (List Nat)
  | .pushBack x, l => some (l ++ [x])
  | .popBack, l => if l = [] then none else some l.dropLast
  | .insert i x, l => if i ≤ l.length then some (l.take i ++ x :: l.drop i) else none
  | .erase i, l => if i < l.length then some (l.take i ++ l.drop (i + 1)) else none
  | .eraseRange i j, l => if i ≤ j ∧ j ≤ l.length then some (l.take i ++ l.drop j) else none
  | .reserve _, l => some l
  | .shrinkToFit, l => some l
  | .clear, _ => some []

end Verif.Vec
