import Verif.IntPrint.Spec
import Mathlib.Data.List.Forall2
/-!
# What integer scanning should do

A grammar, independent of the implementation: white space, an optional minus sign (signed types only), then the
longest run of digits.  `ScanSpec … text o` relates an input text to the outcome the caller should observe.
-/
namespace Verif.IntScan
open Verif Verif.IntPrint

/-- The observable status of a scan (`fast_io::parse_code`). -/
inductive Code | ok | eof | part | invalid | overflow
deriving DecidableEq, Repr

/-- What the caller observes: the characters that were *not* consumed, the status, the value stored (if any). -/
structure Outcome where
  rest : List Nat
  code : Code
  value : Option Int
deriving DecidableEq, Repr

/-- C white space: space, tab, line feed, vertical tab, form feed, carriage return (ASCII). -/
def IsSpace (c : Nat) : Prop := c = 32 ∨ c = 9 ∨ c = 10 ∨ c = 11 ∨ c = 12 ∨ c = 13

/-- Character `c` denotes the digit `d` in base `b` (letters of either case). -/
def IsDigit (b c d : Nat) : Prop := d < b ∧ (c = digitChar false d ∨ c = digitChar true d)

/-- `cs` are the characters of the digits `ds`. -/
def DigitRun (b : Nat) (cs ds : List Nat) : Prop := List.Forall₂ (IsDigit b) cs ds

/-- The text does not begin with a base-`b` digit. -/
def NoDigitFirst (b : Nat) (l : List Nat) : Prop := ∀ c t d, l = c :: t → ¬ IsDigit b c d

/-- The text does not begin with the character `ch`. -/
def NotStartingWith (ch : Nat) (l : List Nat) : Prop := ∀ t, l ≠ ch :: t

/-- An optional minus sign, and whether the number is negative: `-` (45) is a sign for signed types only. -/
def Sign (signed : Bool) (sgn : List Nat) (neg : Bool) : Prop :=
  (sgn = [] ∧ neg = false) ∨ (signed = true ∧ sgn = [45] ∧ neg = true)

/-- The integer denoted by a sign and a magnitude. -/
def signedValue (neg : Bool) (n : Nat) : Int := if neg then -(n : Int) else n

/-- Parsing what follows the white space. `skipzero` says whether superfluous leading zeros are accepted. -/
inductive NumSpec (bits : Nat) (signed skipzero : Bool) (base : Nat) : List Nat → Outcome → Prop
  /-- no digit after the optional sign -/
  | noDigits (sgn rest neg) :
      Sign signed sgn neg → (sgn = [] → signed = true → NotStartingWith 45 rest) → NoDigitFirst base rest →
      NumSpec bits signed skipzero base (sgn ++ rest) ⟨rest, .invalid, none⟩
  /-- a superfluous leading zero is rejected just after that zero, unless zeros are skipped -/
  | leadingZero (sgn c rest neg d) :
      skipzero = false → Sign signed sgn neg → IsDigit base c d →
      NumSpec bits signed skipzero base (sgn ++ 48 :: c :: rest) ⟨c :: rest, .invalid, none⟩
  /-- a representable number -/
  | ok (sgn cs ds rest neg) :
      Sign signed sgn neg → DigitRun base cs ds → ds ≠ [] → NoDigitFirst base rest →
      (skipzero = false → ds.head? = some 0 → ds = [0]) →
      InRange bits signed (signedValue neg (digitsValue base ds)) →
      NumSpec bits signed skipzero base (sgn ++ cs ++ rest)
        ⟨rest, .ok, some (signedValue neg (digitsValue base ds))⟩
  /-- a number the type cannot represent -/
  | overflow (sgn cs ds rest neg) :
      Sign signed sgn neg → DigitRun base cs ds → ds ≠ [] → NoDigitFirst base rest →
      (skipzero = false → ds.head? = some 0 → ds = [0]) →
      ¬ InRange bits signed (signedValue neg (digitsValue base ds)) →
      NumSpec bits signed skipzero base (sgn ++ cs ++ rest) ⟨rest, .overflow, none⟩

/-- A whole scan: leading white space is skipped unless `noskipws`; white space only is end of file. -/
inductive ScanSpec (bits : Nat) (signed noskipws skipzero : Bool) (base : Nat) : List Nat → Outcome → Prop
  | eof (ws) : noskipws = false → (∀ c ∈ ws, IsSpace c) →
      ScanSpec bits signed noskipws skipzero base ws ⟨[], .eof, none⟩
  | num (ws l o) : (noskipws = true → ws = []) → (∀ c ∈ ws, IsSpace c) →
      (noskipws = false → l ≠ [] ∧ ∀ c t, l = c :: t → ¬ IsSpace c) →
      NumSpec bits signed skipzero base l o →
      ScanSpec bits signed noskipws skipzero base (ws ++ l) o

end Verif.IntScan
