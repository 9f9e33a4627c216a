import Verif.Time.Spec
import Verif.Arith.Model
/-!
# Model of `include/fast_io_core_impl/iso/iso8601.h`: calendar and timestamp arithmetic

Signed integers are `Int`s; a signed operation whose result leaves its type is undefined and makes the result `none`; so is
an array index out of bounds. Process termination (`fast_terminate`) is also `none`. C++ division truncates: `Int.tdiv`.
-/
namespace Verif.Time

/-- A signed 64-bit result. -/
def i64 (x : Int) : Option Int := if -2 ^ 63 ≤ x ∧ x < 2 ^ 63 then some x else none

/-- Conversion to a 64-bit unsigned integer. -/
def u64 (x : Int) : Nat := (x % 2 ^ 64).toNat

/-- Conversion of a 64-bit unsigned integer to a signed one. -/
def s64 (x : Nat) : Int := if x < 2 ^ 63 then x else (x : Int) - 2 ^ 64

/-- `iso8601_timestamp` (iso8601.h:270-280). -/
structure Iso where
  year : Int
  month : Nat
  day : Nat
  hours : Nat
  minutes : Nat
  seconds : Nat
  sub : Nat
  timezone : Int
deriving DecidableEq, Repr

/-- `days_in_month` (iso8601.h:297), from March. -/
def daysInMonth : List Nat := [31, 30, 31, 30, 31, 31, 30, 31, 30, 31, 31, 29]

/-- `secs_through_month` (iso8601.h:299-303). -/
def secsThroughMonth : List Nat := [0, 31 * 86400, 59 * 86400, 90 * 86400, 120 * 86400, 151 * 86400, 181 * 86400, 212 * 86400,
  243 * 86400, 273 * 86400, 304 * 86400, 334 * 86400]

/-- `y2k` (iso8601.h:307). -/
def y2k : Int := 946684800

/-- `leapoch` (iso8601.h:311). -/
def leapoch : Int := y2k + 86400 * (31 + 29)

/-- `days_per_400_year`, `days_per_100_year`, `days_per_4_year` (iso8601.h:313-315). -/
def d400 : Int := 365 * 400 + 97
def d100 : Int := 365 * 100 + 24
def d4 : Int := 365 * 4 + 1

/-- The month loop (iso8601.h:393-394). -/
def monthLoop : Nat → Nat → Int → Option (Nat × Int)
  | 0, _, _ => none
  | fuel + 1, months, remdays => do
    let n ← daysInMonth[months]?
    if (n : Int) ≤ remdays then monthLoop fuel (months + 1) (remdays - n) else some (months, remdays)

/-- `unix_timestamp_to_iso8601_tsp_impl_internal` (iso8601.h:359-407); no signed operation in it overflows except the first,
which terminates. The loop of at most 13 tests is given that much fuel. -/
def toIso (seconds : Int) (sub : Nat) (timezone : Int) : Option Iso := do
  let secs ← i64 (seconds - leapoch)
  let days := secs.tdiv 86400
  let remsecs := secs.tmod 86400
  let (remsecs, days) := if remsecs < 0 then (remsecs + 86400, days - 1) else (remsecs, days)
  let qc := days.tdiv d400
  let remdays := days.tmod d400
  let (remdays, qc) := if remdays < 0 then (remdays + d400, qc - 1) else (remdays, qc)
  let c := remdays.tdiv d100
  let c := if c = 4 then c - 1 else c
  let remdays := remdays - c * d100
  let q := remdays.tdiv d4
  let q := if q = 25 then q - 1 else q
  let remdays := remdays - q * d4
  let ry := remdays.tdiv 365
  let ry := if ry = 4 then ry - 1 else ry
  let remdays := remdays - ry * 365
  let years := ry + 4 * q + 100 * c + 400 * qc
  let (months, remdays) ← monthLoop 13 0 remdays
  let (years, months) := if 10 ≤ months then (years + 1, (months + 256 - 12) % 256) else (years, months)
  some { year := years + 2000, month := (months + 3) % 256, day := ((remdays + 1) % 256).toNat,
         hours := (remsecs.tdiv 3600 % 256).toNat, minutes := ((remsecs.tdiv 60).tmod 60 % 256).toNat,
         seconds := (remsecs.tmod 60 % 256).toNat, sub := sub, timezone := timezone }

/-- `utc` of a `unix_timestamp` (iso8601.h:457-469). -/
def utc (t : TS) : Option Iso := toIso t.sec t.sub 0

/-- Conversion of a 32-bit unsigned integer to a signed one. -/
def s32 (x : Nat) : Int := if x < 2 ^ 31 then x else (x : Int) - 2 ^ 32

/-- `to_iso8601_local_impl` on Linux (fast_io_hosted/timeutil/time.h:557-598); `west` is `timezone` plus the daylight saving bias, in
seconds west of Greenwich. -/
def localIso (west : Int) (t : TS) : Option Iso := do
  let u := (west % 2 ^ 32).toNat
  let s ← i64 (t.sec - s32 u)
  toIso s t.sub (s32 ((2 ^ 32 - u) % 2 ^ 32))

/-- `year_month_to_seconds` (iso8601.h:418-440). -/
def yearMonthToSeconds (year : Int) (month : Nat) : Option Int := do
  let ymin : Int := (-2 ^ 63 : Int).tdiv (365 * 86400)
  let ymax : Int := (2 ^ 63 - 1 : Int).tdiv (365 * 86400)
  if year ≤ ymin ∨ ymax ≤ year then none
  let leaps := year.tdiv 4
  let leap : Bool := year.tmod 400 == 0 || (year.tmod 4 == 0 && year.tmod 100 != 0)
  let leaps := leaps + (year.tdiv 400 - year.tdiv 100)
  let month := (month + 255) % 256
  if 11 < month then none
  let t ← secsThroughMonth[month]?
  let t := if month ≠ 0 ∨ (0 ≤ year ∧ leap = false) then t + 86400 else t
  let a ← i64 (year * 365)
  let a ← i64 (a + leaps)
  let a ← i64 (a * 86400)
  let a ← i64 (a - 62167219200)
  i64 (a + t)

/-- `iso8601_to_unix_timestamp_impl` (iso8601.h:445-453). The inner sum is 32-bit unsigned arithmetic. -/
def toTimestamp (t : Iso) : Option TS := do
  let u : Int := (((t.day : Int) - 1) * 86400 + t.hours * 3600 + t.minutes * 60 + t.seconds - t.timezone) % 2 ^ 32
  let ym ← yearMonthToSeconds t.year t.month
  let s ← i64 (u + ym)
  some { sec := s, sub := t.sub }

/-- `c_weekday_tb` (iso8601.h:479). -/
def weekdayTb : List Nat := [0, 3, 2, 5, 0, 3, 5, 1, 4, 6, 2, 4]

/-- The 64-bit sum of `c_weekday_impl` and `weekday_impl` (iso8601.h:489-492,503-506). -/
def weekdaySum (year : Int) (month day extra : Nat) : Option Nat := do
  let tb ← weekdayTb[month]?
  some (u64 ((u64 year : Int) + u64 (year.tdiv 4) - u64 (year.tdiv 100) + u64 (year.tdiv 400) + tb + day + extra))

/-- The adjustment of month and year in `c_weekday` and `weekday` (iso8601.h:513-517,528-532). -/
def weekdayAdjust (year : Int) (month : Nat) : Int × Nat :=
  let month := (month + 255) % 256
  if month < 2 then (s64 ((u64 year + 2 ^ 64 - 1) % 2 ^ 64), month)
  else if 11 < month then (year, month % 12) else (year, month)

/-- `c_weekday` (iso8601.h:511-519): Sunday is 0. -/
def cWeekday (year : Int) (month day : Nat) : Option Nat :=
  let a := weekdayAdjust year month
  (weekdaySum a.1 a.2 day 0).map fun s => s % 7

/-- `weekday` (iso8601.h:526-534): Monday is 1, Sunday is 7. -/
def weekday (year : Int) (month day : Nat) : Option Nat :=
  let a := weekdayAdjust year month
  (weekdaySum a.1 a.2 day 6).map fun s => s % 7 + 1

/-! ## Arithmetic of timestamps -/

/-- `add_impl` (iso8601.h:55-77), on unsigned seconds; `max_digit` is 1. -/
def addImpl (a b : Nat × Nat) : Nat × Nat :=
  let r := Arith.addCarry 64 false a.2 b.2
  let (cf, res) := if S ≤ r.2 then (true, (r.2 + 2 ^ 64 - S) % 2 ^ 64) else r
  ((Arith.addCarry 64 cf a.1 b.1).2, res)

/-- `sub_impl` (iso8601.h:79-88). -/
def subImpl (a b : Nat × Nat) : Nat × Nat :=
  let r := Arith.subBorrow 64 false a.2 b.2
  let s := Arith.subBorrow 64 r.1 a.1 b.1
  (s.2, if r.1 then (r.2 + S) % 2 ^ 64 else r.2)

/-- Negation of a 64-bit word. -/
def neg64 (x : Nat) : Nat := (2 ^ 64 - x) % 2 ^ 64

/-- `operator+` (iso8601.h:144-202). -/
def add (a b : TS) : TS :=
  if a.sec < 0 then
    let aa := neg64 (u64 a.sec)
    if b.sec < 0 then
      let bb := neg64 (u64 b.sec)
      let r := addImpl (aa, a.sub) (bb, b.sub)
      { sec := s64 (neg64 r.1), sub := r.2 }
    else
      let bb := u64 b.sec
      if aa < bb ∨ (aa = bb ∧ a.sub < b.sub) then
        let r := subImpl (bb, b.sub) (aa, a.sub)
        { sec := s64 r.1, sub := r.2 }
      else
        let r := subImpl (aa, a.sub) (bb, b.sub)
        { sec := s64 (neg64 r.1), sub := r.2 }
  else
    let aa := u64 a.sec
    if b.sec < 0 then
      let bb := neg64 (u64 b.sec)
      if aa < bb ∨ (aa = bb ∧ a.sub < b.sub) then
        let r := subImpl (bb, b.sub) (aa, a.sub)
        { sec := s64 (neg64 r.1), sub := r.2 }
      else
        let r := subImpl (aa, a.sub) (bb, b.sub)
        { sec := s64 r.1, sub := r.2 }
    else
      let bb := u64 b.sec
      let r := addImpl (aa, a.sub) (bb, b.sub)
      { sec := s64 r.1, sub := r.2 }

/-- `operator-`, unary (iso8601.h:136-142). -/
def neg (a : TS) : TS := { sec := s64 (neg64 (u64 a.sec)), sub := a.sub }

/-- `operator-`, binary (iso8601.h:210-214). -/
def sub (a b : TS) : TS := add a (neg b)

/-- `operator==` (iso8601.h:28-32). -/
def eqTS (a b : TS) : Bool := a.sec == b.sec && a.sub == b.sub

/-- `operator<=>` (iso8601.h:34-45). -/
def cmpTS (a b : TS) : Ordering :=
  let v := compare a.sec b.sec
  if v = .eq then
    if a.sec < 0 then compare b.sub a.sub else compare a.sub b.sub
  else v

/-- `div_uint` with `__int128` (iso8601.h:90-116). -/
def divUint (a : TS) (d : Nat) : Option TS :=
  if d = 0 then none
  else
    let minus := decide (a.sec < 0)
    let seconds := if minus then neg64 (u64 a.sec) else u64 a.sec
    let total := (seconds * S + a.sub) % 2 ^ 128
    let mid := d / 2
    let r := total % d % 2 ^ 64
    let q := total / d
    let q := if mid < r then (q + 1) % 2 ^ 128 else if mid = r then (if q % 2 = 1 then (q + 1) % 2 ^ 128 else q) else q
    let rs := q / S % 2 ^ 64
    let rsub := q % S % 2 ^ 64
    some { sec := s64 (if minus then neg64 rs else rs), sub := rsub }

/-- `div_uint` without `__int128` (iso8601.h:118-130), with the older two-word division. -/
def divUintOld (a : TS) (d : Nat) : Option TS :=
  if d = 0 then none
  else do
    let minus := decide (a.sec < 0)
    let seconds := if minus then neg64 (u64 a.sec) else u64 a.sec
    let t := Arith.umul64Emulated seconds S
    let l := Arith.addCarry 64 false t.1 a.sub
    let h := Arith.addCarry 64 l.1 t.2 0
    let mid := d / 2
    let (ql, qh, r, _) ← Arith.udivmodOld 64 l.2 h.2 d 0
    let q := if mid < r ∨ (mid = r ∧ ql % 2 = 1) then
        let x := Arith.addCarry 64 false ql 1
        (x.2, (Arith.addCarry 64 x.1 qh 0).2)
      else (ql, qh)
    let (rsl, _, rsubl, _) ← Arith.udivmodOld 64 q.1 q.2 S 0
    some { sec := s64 (if minus then neg64 rsl else rsl), sub := rsubl }

/-- The explicit conversion between epochs (iso8601.h:12-17): `off` and `newOff` are the distances from 1970. -/
def convert (off newOff : Int) (a : TS) : Option TS := do
  let diff ← i64 (off - newOff)
  let s ← i64 (a.sec + diff)
  some { sec := s, sub := a.sub }

end Verif.Time
