import Mathlib.Data.List.Basic
/-!
# Specification of line iteration

A line is a maximal run of characters other than LF.  A text consists of lines each ended by LF, except that the last
line may lack the LF if it is not empty.  (The empty text has no lines; a text ending in LF has no further line after
it.)  This is what `std::getline` in a loop delivers.
-/
namespace Verif.Line

/-- Line feed. -/
def LF : Nat := 10

/-- The lines `ls` each followed by LF. -/
def terminated (ls : List (List Nat)) : List Nat := ls.flatMap (fun l => l ++ [LF])

/-- `ls` is the sequence of lines of `text`. -/
def LinesOf (text : List Nat) (ls : List (List Nat)) : Prop :=
  (∀ l ∈ ls, LF ∉ l) ∧
    (text = terminated ls ∨ ∃ init last, ls = init ++ [last] ∧ last ≠ [] ∧ text = terminated init ++ last)

end Verif.Line
