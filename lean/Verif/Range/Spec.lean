import Mathlib.Data.List.Basic
/-! # What printing a range with separators has to write -/
namespace Verif.Range

/-- The texts of the elements with the separator between two neighbours, nowhere else. -/
def joined (sep : List Nat) : List (List Nat) → List Nat
  | [] => []
  | [t] => t
  | t :: u :: rest => t ++ sep ++ joined sep (u :: rest)

end Verif.Range
