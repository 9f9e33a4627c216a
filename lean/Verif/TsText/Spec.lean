import Verif.Time.Spec
import Verif.Lc.Spec
/-!
# What the decimal text of a timestamp means

A timestamp is a number of seconds with up to nineteen decimals. The unit of `TS.val` is `10^-19` seconds.
-/
namespace Verif.TsText
open Verif Verif.Time

/-- The digit characters of a list of digits. -/
def chars (ds : List Nat) : List Nat := ds.map (48 + ·)

/-- `txt` is a decimal number with the given decimal point: a minus sign if negative, a canonical numeral, and nothing or
the decimal point with at most nineteen decimals, the last of which is not 0. Its value in units of `10^-19` is `v`. -/
def DecimalText (point : List Nat) (txt : List Nat) (v : Int) : Prop :=
  ∃ (neg : Bool) (i : Nat) (is fs : List Nat), IsNumeral 10 is i ∧ (∀ d ∈ fs, d < 10) ∧ fs.length ≤ 19 ∧ fs.getLast? ≠ some 0 ∧
    txt = (if neg then [45] else []) ++ chars is ++ (if fs = [] then [] else point ++ chars fs) ∧
    v = (if neg then -1 else 1) * ((i * 10 ^ 19 + digitsValue 10 fs * 10 ^ (19 - fs.length) : Nat) : Int)

/-- The same with a separator at the group boundaries of the whole part. -/
def GroupedDecimalText (g sep point : List Nat) (txt : List Nat) (v : Int) : Prop :=
  ∃ (neg : Bool) (i : Nat) (is body fs : List Nat), IsNumeral 10 is i ∧ Lc.Grouped g sep (chars is) body ∧ (∀ d ∈ fs, d < 10) ∧ fs.length ≤ 19 ∧
    fs.getLast? ≠ some 0 ∧ txt = (if neg then [45] else []) ++ body ++ (if fs = [] then [] else point ++ chars fs) ∧
    v = (if neg then -1 else 1) * ((i * 10 ^ 19 + digitsValue 10 fs * 10 ^ (19 - fs.length) : Nat) : Int)

/-- `v` is the natural number nearest to `num / den`, the even one of two that are equally near. -/
def NearestEven (num den v : Nat) : Prop :=
  2 * num ≤ (2 * v + 1) * den ∧ 2 * v * den ≤ 2 * num + den ∧
    (2 * num = (2 * v + 1) * den ∨ 2 * v * den = 2 * num + den → v % 2 = 0)

end Verif.TsText
