import Verif.Core.Mem
/-!
# Model of `auto_indent`

`include/fast_io_freestanding_impl/auto_indent.h`. The source text is a list of characters, positions in it are numbers.
The output iterator is the list of the characters written so far (every write of this code is at the iterator, which then
advances). `none` is a read outside of the column widths, or the program ended by an overflow check.
-/
namespace Verif.Indent

/-- The column widths: `cont` with the cell of width `w` at column `pos` (auto_indent.h:68-74, 86-92). -/
def column (cont : List Nat) (pos w : Nat) : List Nat :=
  if pos < cont.length then (if cont.getD pos 0 < w then cont.set pos w else cont) else cont ++ [w]

/-- The loop of `calculate_auto_width_result` (auto_indent.h:63-83): `i` is `first`, `lt` is `last_tab`, `pos` is
`pos_this_line`. -/
def widthLoop : List Nat → Nat → Nat → Nat → Nat → List Nat → Nat × Nat × Nat × List Nat
  | [], _, lt, pos, lines, cont => (lt, pos, lines, cont)
  | c :: r, i, lt, pos, lines, cont =>
    if c = 9 ∨ c = 10 then
      let cont := column cont pos (i - lt)
      if c = 10 then widthLoop r (i + 1) (i + 1) 0 (lines + 1) cont
      else widthLoop r (i + 1) (i + 1) (pos + 1) lines cont
    else widthLoop r (i + 1) lt pos lines cont

/-- `add_or_overflow_die_chain` and `mul_or_overflow_die` (intrinsics.h) on a 64-bit `size_t`: the program ends on overflow. -/
def orDie (n : Nat) : Option Nat := if n < 2 ^ 64 then some n else none

/-- The sum over the columns (auto_indent.h:95-97). -/
def sumLoop : List Nat → Nat → Option Nat
  | [], t => some t
  | e :: r, t => (orDie (t + e)).bind fun t => (orDie (t + 1)).bind (sumLoop r)

/-- `calculate_auto_width_result` (auto_indent.h:54-100): the announced size and the column widths. -/
def calculate (text : List Nat) : Option (Nat × List Nat) :=
  let (lt, pos, lines, cont) := widthLoop text 0 0 0 0 []
  let (lines, cont) :=
    if lt ≠ text.length then (lines + 1, column cont pos (text.length - lt)) else (lines, cont)
  (sumLoop cont 1).bind fun t => (orDie (t * lines)).map fun t => (t, cont)

/-- The loop of `print_reserve_define_auto_indent` (auto_indent.h:116-141). -/
def printLoop (text cont : List Nat) : List Nat → Nat → Nat → Nat → List Nat → Option (Nat × List Nat)
  | [], _, lt, _, out => some (lt, out)
  | c :: r, i, lt, pos, out =>
    if c = 9 ∨ c = 10 then
      let diff := i - lt
      let out := out ++ (text.drop lt).take diff
      if c = 9 then
        (cont[pos]?).bind fun w =>
          printLoop text cont r (i + 1) (i + 1) (pos + 1) (out ++ List.replicate (w - diff) 32 ++ [9])
      else printLoop text cont r (i + 1) (i + 1) 0 (out ++ [10])
    else printLoop text cont r (i + 1) lt pos out

/-- `print_reserve_define_auto_indent` (auto_indent.h:102-146). -/
def print (text cont : List Nat) : Option (List Nat) :=
  (printLoop text cont text 0 0 0 []).map fun (lt, out) =>
    if lt ≠ text.length then out ++ (text.drop lt).take (text.length - lt) else out

end Verif.Indent
