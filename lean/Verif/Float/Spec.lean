import Verif.Num.Spec
import Mathlib.Algebra.Order.Field.Rat
import Mathlib.Data.Rat.Cast.Order
/-!
# Specification: binary floating point numbers and their texts

A binary interchange format is given by the width of its trailing significand (`mbits`) and of its exponent
field (`ebits`).  Everything here is about exact rational numbers, independent of any printing algorithm.
-/
namespace Verif.Float.Spec
open Verif

/-- Trailing significand field of a representation. -/
def fracField (mbits bits : Nat) : Nat := bits % 2 ^ mbits

/-- Exponent field of a representation. -/
def expField (mbits ebits bits : Nat) : Nat := bits / 2 ^ mbits % 2 ^ ebits

/-- Sign bit of a representation. -/
def signBit (mbits ebits bits : Nat) : Bool := decide (bits / 2 ^ (mbits + ebits) % 2 = 1)

/-- The exponent bias of IEC 60559. -/
def bias (ebits : Nat) : Nat := 2 ^ (ebits - 1) - 1

/-- The exponent of the unit in the last place of a finite number with exponent field `e`. -/
def ulpExp (mbits ebits e : Nat) : Int := (if e = 0 then 1 else (e : Int)) - bias ebits - mbits

/-- The integral significand of a finite number: hidden bit included. -/
def significand (mbits e f : Nat) : Nat := if e = 0 then f else 2 ^ mbits + f

/-- The magnitude of a finite number with exponent field `e` and trailing significand `f`. -/
def magnitude (mbits ebits e f : Nat) : ℚ := significand mbits e f * (2 : ℚ) ^ ulpExp mbits ebits e

/-- The magnitude of a finite representation. -/
def absValue (mbits ebits bits : Nat) : ℚ :=
  magnitude mbits ebits (expField mbits ebits bits) (fracField mbits bits)

/-- The numbers to which a decimal number may be rounded: those of the format, and those that would continue the format
with larger exponents (IEC 60559 rounds "as if the exponent range were unbounded" and looks at overflow afterwards). -/
def Grid (mbits ebits : Nat) (w : ℚ) : Prop :=
  ∃ (M : Nat) (E : Int), M < 2 ^ (mbits + 1) ∧ ulpExp mbits ebits 0 ≤ E ∧ w = M * (2 : ℚ) ^ E

/-- A correct reader, rounding to nearest with ties to even, converts `x` to the number with fields `e`, `f`. -/
def RoundsTo (mbits ebits : Nat) (x : ℚ) (e f : Nat) : Prop :=
  ∀ w, Grid mbits ebits w → w ≠ magnitude mbits ebits e f →
    |x - magnitude mbits ebits e f| < |x - w| ∨
      (|x - magnitude mbits ebits e f| = |x - w| ∧ significand mbits e f % 2 = 0)

/-- Text of the sign: `+` only on request. -/
def signText (showpos sign : Bool) : List Nat := if sign then [45] else if showpos then [43] else []

/-- Text of infinities and not-a-numbers. -/
def specialText (upper nan : Bool) : List Nat :=
  if nan then (if upper then [78, 65, 78] else [110, 97, 110])
  else (if upper then [73, 78, 70] else [105, 110, 102])

/-- Value of the hexadecimal constant `lead.frac p e`. -/
def hexValue (lead : Nat) (frac : List Nat) (e : Int) : ℚ :=
  (digitsValue 16 (lead :: frac) : ℚ) / 16 ^ frac.length * (2 : ℚ) ^ e

/-- Text of the hexadecimal constant `lead.frac p e`: no point when there is no fraction digit, and a sign in the
exponent. -/
def hexText (upper comma upperP : Bool) (lead : Nat) (frac : List Nat) (e : Int) : List Nat :=
  [digitChar upper lead] ++ (if frac = [] then [] else (if comma then 44 else 46) :: frac.map (digitChar upper)) ++
    [if upperP then 80 else 112, if e < 0 then 45 else 43] ++ decText e.natAbs

/-- `txt` is a hexadecimal text of the finite number `v`, with exactly its value, canonical: leading digit 0 or 1,
the last digit of the fraction is not zero. -/
def IsHexText (upper comma upperP : Bool) (v : ℚ) (txt : List Nat) : Prop :=
  ∃ lead frac e, txt = hexText upper comma upperP lead frac e ∧ lead ≤ 1 ∧ (∀ d ∈ frac, d < 16) ∧
    frac.getLast? ≠ some 0 ∧ hexValue lead frac e = v

/-- The text of the number with representation `bits`: sign, then either `inf`/`nan` or the optional prefix and the
exact hexadecimal text of the magnitude.  `upperD` is the case of the digits, `upperP` that of the exponent letter. -/
def IsHexFloat (mbits ebits : Nat) (showbase upperShow showpos upper upperD upperP comma : Bool) (bits : Nat)
    (txt : List Nat) : Prop :=
  if expField mbits ebits bits = 2 ^ ebits - 1 then
    txt = signText showpos (signBit mbits ebits bits) ++ specialText upper (decide (fracField mbits bits ≠ 0))
  else
    ∃ body, txt = signText showpos (signBit mbits ebits bits) ++
        (if showbase then [48, if upperShow then 88 else 120] else []) ++ body ∧
      IsHexText upperD comma upperP (absValue mbits ebits bits) body

/-! ## Decimal texts -/

/-- The styles of a decimal text. -/
inductive Style where
  | general | scientific | fixed | decimal
  deriving DecidableEq

/-- Value of the decimal constant with integer digits `int`, fraction digits `frac` and exponent `ex`. -/
def decValue (int frac : List Nat) (ex : Option Int) : ℚ :=
  (digitsValue 10 (int ++ frac) : ℚ) / 10 ^ frac.length * (10 : ℚ) ^ (ex.getD 0)

/-- Text of the decimal constant: no point when there is no fraction digit; the exponent has a sign and at least two
digits. -/
def decNumeral (comma upperE : Bool) (int frac : List Nat) (ex : Option Int) : List Nat :=
  int.map (digitChar false) ++
    (if frac = [] then [] else (if comma then 44 else 46) :: frac.map (digitChar false)) ++
    match ex with
    | none => []
    | some e => [if upperE then 69 else 101, if e < 0 then 45 else 43] ++
        (if e.natAbs < 10 then [48] else []) ++ decText e.natAbs

/-- `txt` is a decimal text of the given style with the value `x`: at least one integer digit, no superfluous leading
zero; no exponent in the fixed style; exactly one, non-zero, integer digit whenever there is an exponent; with `trim`,
the last digit of the fraction is not zero. -/
def IsDecText (style : Style) (comma upperE trim : Bool) (x : ℚ) (txt : List Nat) : Prop :=
  ∃ int frac ex, txt = decNumeral comma upperE int frac ex ∧ int ≠ [] ∧ (∀ d ∈ int ++ frac, d < 10) ∧
    (int.head? = some 0 → int = [0]) ∧ (ex.isSome → int.length = 1 ∧ int ≠ [0]) ∧
    (style = .fixed → ex = none) ∧ (style = .scientific → ex.isSome) ∧ (trim = true → frac.getLast? ≠ some 0) ∧
    decValue int frac ex = x

/-- The text of the number with representation `bits`: sign, then either `inf`/`nan`, or the text of zero, or a decimal
text of the given style whose value `x` satisfies `good x e f`, where `e`, `f` are the fields of the number. -/
def IsDecFloat (mbits ebits : Nat) (style : Style) (showpos upper upperE comma trim : Bool)
    (good : ℚ → Nat → Nat → Prop) (bits : Nat) (txt : List Nat) : Prop :=
  if expField mbits ebits bits = 2 ^ ebits - 1 then
    txt = signText showpos (signBit mbits ebits bits) ++ specialText upper (decide (fracField mbits bits ≠ 0))
  else if fracField mbits bits = 0 ∧ expField mbits ebits bits = 0 then
    txt = signText showpos (signBit mbits ebits bits) ++
      (if style = .scientific then [48, if upperE then 69 else 101, 43, 48] else [48])
  else
    ∃ body x, txt = signText showpos (signBit mbits ebits bits) ++ body ∧
      IsDecText style comma upperE trim x body ∧ good x (expField mbits ebits bits) (fracField mbits bits)

/-- `x` is `k·10^n` such that every decimal number that a reader converts to the same number has at least as many
digits as `k`. -/
def Shortest (mbits ebits : Nat) (x : ℚ) (e f : Nat) : Prop :=
  ∃ (k : Nat) (n : Int), x = k * (10 : ℚ) ^ n ∧
    ∀ (t : Nat) (j : Int), 0 < t → RoundsTo mbits ebits (t * (10 : ℚ) ^ j) e f →
      (decText k).length ≤ (decText t).length

/-- Shortest, and in addition no decimal number with that many digits that a reader converts to the same number is
closer to it. -/
def ShortestClosest (mbits ebits : Nat) (x : ℚ) (e f : Nat) : Prop :=
  ∃ (k : Nat) (n : Int), x = k * (10 : ℚ) ^ n ∧
    ∀ (t : Nat) (j : Int), 0 < t → RoundsTo mbits ebits (t * (10 : ℚ) ^ j) e f →
      (decText k).length ≤ (decText t).length ∧
      ((decText t).length = (decText k).length →
        |x - magnitude mbits ebits e f| ≤ |t * (10 : ℚ) ^ j - magnitude mbits ebits e f|)

end Verif.Float.Spec
