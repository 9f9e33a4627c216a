import Verif.Lc.Spec
/-!
# What printing a floating point number with a locale should produce

The text printed without a locale, with two changes: the digits of the integer part are separated into groups (see
`Verif.Lc.Grouped`), and the decimal point is the one of the locale.
-/
namespace Verif.LcFloat
open Verif Verif.Lc

/-- A decimal digit character. -/
def IsDigit (c : Nat) : Prop := 48 ≤ c ∧ c ≤ 57

/-- The text with every full stop replaced by `dp`. -/
def withPoint (dp : List Nat) (l : List Nat) : List Nat := l.flatMap fun c => if c = 46 then dp else [c]

/-- `txt` is `plain` (an optional sign, the digits of the integer part, and the rest, which does not begin with a digit) with
the integer part grouped and the decimal point of the locale. -/
def Localised (g sep dp plain txt : List Nat) : Prop :=
  ∃ sign int tail int', plain = sign ++ int ++ tail ∧ (sign = [] ∨ sign = [43] ∨ sign = [45]) ∧ (∀ c ∈ int, IsDigit c) ∧
    (∀ c, tail.head? = some c → ¬ IsDigit c) ∧ Grouped g sep int int' ∧ txt = sign ++ int' ++ withPoint dp tail

end Verif.LcFloat
