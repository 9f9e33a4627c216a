import Mathlib.Data.Int.Basic
/-!
# Specification: the proleptic Gregorian calendar and time values

A date is found by counting days, one at a time, from 1970-01-01. Nothing here refers to the code.
-/
namespace Verif.Time

/-- A calendar date; years are astronomical (year 0 exists). -/
structure Date where
  y : Int
  m : Nat
  d : Nat
deriving DecidableEq, Repr

/-- Leap years of the Gregorian rule. -/
def isLeap (y : Int) : Bool := (y % 4 == 0 && y % 100 != 0) || y % 400 == 0

/-- The length of a month. -/
def monthLen (y : Int) (m : Nat) : Nat :=
  if m = 2 then (if isLeap y then 29 else 28)
  else if m = 4 ∨ m = 6 ∨ m = 9 ∨ m = 11 then 30 else 31

/-- A date that exists. -/
def Date.Valid (x : Date) : Prop := 1 ≤ x.m ∧ x.m ≤ 12 ∧ 1 ≤ x.d ∧ x.d ≤ monthLen x.y x.m

/-- Tomorrow. -/
def Date.next (x : Date) : Date :=
  if x.d < monthLen x.y x.m then { x with d := x.d + 1 }
  else if x.m < 12 then { x with m := x.m + 1, d := 1 }
  else { y := x.y + 1, m := 1, d := 1 }

/-- Yesterday. -/
def Date.prev (x : Date) : Date :=
  if 1 < x.d then { x with d := x.d - 1 }
  else if 1 < x.m then { x with m := x.m - 1, d := monthLen x.y (x.m - 1) }
  else { y := x.y - 1, m := 12, d := 31 }

/-- 1970-01-01. -/
def epoch : Date := { y := 1970, m := 1, d := 1 }

/-- `n` steps of `f`. -/
def steps (f : Date → Date) : Nat → Date → Date
  | 0, x => x
  | n + 1, x => f (steps f n x)

/-- The date `k` days after 1970-01-01 (before, for negative `k`). -/
def dateOf : Int → Date
  | .ofNat n => steps Date.next n epoch
  | .negSucc n => steps Date.prev (n + 1) epoch

/-- The day of the week of day `k`, Sunday = 0: 1970-01-01 was a Thursday. -/
def weekdayOf (k : Int) : Int := (k + 4) % 7

/-- The months in which the library converts dates to timestamps exactly: from year 0 on every month but February of leap
years; before year 0, January, and March to December of leap years. -/
def GoodMonth (y : Int) (m : Nat) : Prop :=
  if 0 ≤ y then ¬ (m = 2 ∧ isLeap y) else m = 1 ∨ (2 < m ∧ isLeap y)

instance (y : Int) (m : Nat) : Decidable (GoodMonth y m) := by unfold GoodMonth; infer_instance

/-- `10^19`, the subseconds of a second. -/
def S : Nat := 10 ^ 19

/-- A point in time as the library represents it: whole seconds and the magnitude of the fraction. -/
structure TS where
  sec : Int
  sub : Nat
deriving DecidableEq, Repr

/-- A representable time: a 64-bit second count and a proper fraction. -/
def TS.Ok (a : TS) : Prop := -2 ^ 63 ≤ a.sec ∧ a.sec < 2 ^ 63 ∧ a.sub < S

/-- The value in units of `10^-19` s. The fraction has the sign of the seconds (this is what the comparison operators of the
library implement). -/
def TS.val (a : TS) : Int := if a.sec < 0 then a.sec * S - a.sub else a.sec * S + a.sub

end Verif.Time
