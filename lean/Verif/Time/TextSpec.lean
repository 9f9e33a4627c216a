import Verif.Time.Model
import Verif.Num.Spec
/-!
# Specification: the ISO 8601 text of a timestamp

`YYYY-MM-DDThh:mm:ss[.fraction](Z|±hh:mm[:ss])`, in ASCII codes.
-/
namespace Verif.Time
open Verif

/-- Two decimal digits. -/
def dd (n : Nat) : List Nat := [48 + n / 10, 48 + n % 10]

/-- A year: a minus sign if negative, then at least four digits. -/
def yearText (y : Int) : List Nat :=
  (if y < 0 then [45] else []) ++
    (if y.natAbs < 10000 then dd (y.natAbs / 100) ++ dd (y.natAbs % 100) else decText y.natAbs)

/-- A fraction of a second in units of `10^-19`: nothing if zero, else a point and the digits without trailing zeros. -/
def fracText (sub : Nat) : List Nat :=
  if sub = 0 then []
  else 46 :: (((padded 10 19 sub).reverse.dropWhile (· == 0)).reverse.map fun d => 48 + d)

/-- A time zone: `Z`, or sign, hours (two digits or more), minutes, and seconds unless zero. -/
def zoneText (z : Int) : List Nat :=
  if z = 0 then [90]
  else
    let a := z.natAbs
    (if z < 0 then [45] else [43]) ++
      ((if a / 3600 < 100 then dd (a / 3600) else decText (a / 3600)) ++ (58 :: dd (a / 60 % 60) ++
        (if a % 60 = 0 then [] else 58 :: dd (a % 60))))

/-- The text of a timestamp. -/
def isoText (t : Iso) : List Nat :=
  yearText t.year ++ (45 :: dd t.month ++ (45 :: dd t.day ++ (84 :: dd t.hours ++ (58 :: dd t.minutes ++ (58 :: dd t.seconds ++
    (fracText t.sub ++ zoneText t.timezone))))))

end Verif.Time
