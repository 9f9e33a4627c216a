import Verif.Num.Spec
/-!
# What integer printing should produce

Independent of the implementation: the text of an integer is an optional sign, an optional base prefix and the
canonical numeral of the magnitude.
-/
namespace Verif.IntPrint
open Verif

/-- ASCII codes of a string literal. -/
def ascii (s : String) : List Nat := s.toList.map Char.toNat

/-- Sign: `-` for negative numbers, `+` for the others if requested. -/
def signText (showpos : Bool) (t : Int) : List Nat :=
  if t < 0 then ascii "-" else if showpos then ascii "+" else ascii ""

/-- Documented base prefix. -/
def prefixText (base : Nat) (upper : Bool) : List Nat :=
  match base, upper with
  | 2, false => ascii "0b" | 2, true => ascii "0B"
  | 3, false => ascii "0t" | 3, true => ascii "0T"
  | 8, _ => ascii "0"
  | 16, false => ascii "0x" | 16, true => ascii "0X"
  | 10, _ => ascii ""
  | b, _ => ascii "0[" ++ decText b ++ ascii "]"

/-- `txt` is the expected text of integer `t`. -/
def IsIntText (base : Nat) (upper showbase upperShow showpos : Bool) (txt : List Nat) (t : Int) : Prop :=
  ∃ body, IsNumeralText base upper body t.natAbs ∧
    txt = signText showpos t ++ (if showbase then prefixText base upperShow else []) ++ body

/-- The mathematical range of an integer type of `bits` bits. -/
def InRange (bits : Nat) (signed : Bool) (t : Int) : Prop :=
  if signed then -(2 ^ (bits - 1) : Int) ≤ t ∧ t < (2 ^ (bits - 1) : Int) else 0 ≤ t ∧ t < (2 ^ bits : Int)

end Verif.IntPrint
