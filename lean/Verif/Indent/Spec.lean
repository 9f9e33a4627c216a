/-! What `auto_indent` means (C62): a text is a table, lines of cells. -/
namespace Verif.Indent

/-- Texts with a separator between them. -/
def join (sep : Nat) : List (List Nat) → List Nat
  | [] => []
  | [c] => c
  | c :: d :: r => c ++ sep :: join sep (d :: r)

/-- The text of a table: cells separated by tabs, lines by line feeds. -/
def tableText (lines : List (List (List Nat))) : List Nat := join 10 (lines.map (join 9))

/-- There are lines, they have cells, and the cells are free of tabs and line feeds. -/
structure IsTable (lines : List (List (List Nat))) : Prop where
  nonempty : lines ≠ []
  cells : ∀ l ∈ lines, l ≠ []
  plain : ∀ l ∈ lines, ∀ c ∈ l, ∀ x ∈ c, x ≠ 9 ∧ x ≠ 10

/-- The width of a column: the largest length of its cells. -/
def colWidth (lines : List (List (List Nat))) (j : Nat) : Nat :=
  (lines.map fun l => (l.getD j []).length).foldr max 0

/-- A line whose cells (from column `j` on), except the last one, are filled with spaces to the width of their column. -/
def align (W : Nat → Nat) : Nat → List (List Nat) → List Nat
  | _, [] => []
  | _, [c] => c
  | j, c :: d :: r => c ++ List.replicate (W j - c.length) 32 ++ 9 :: align W (j + 1) (d :: r)

/-- The aligned table. -/
def aligned (lines : List (List (List Nat))) : List Nat := join 10 (lines.map (align (colWidth lines) 0))

end Verif.Indent
