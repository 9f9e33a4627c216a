import Verif.Time.Model
import Verif.IntPrint.Model
import Verif.IntScan.Model
/-!
# Model of printing and scanning `iso8601_timestamp`

Memory and characters as in `Verif.IntPrint.Model` and `Verif.IntScan.Model`: a scanner takes the characters between `begin` and
`end` and returns those it left; reading beyond `end` is `none`.
-/
namespace Verif.Time
open Verif Verif.IntPrint Verif.IntScan

/-! ## Printing -/

/-- One character, `*iter=c; ++iter`. -/
def putc (c : Nat) (s : Mem × Nat) : Mem × Nat := (store s.1 s.2 [c], s.2 + 1)

/-- `chrono_two_digits_impl<true>` of an unsigned number (integers/chrono.h:25-61): no range check, an index beyond the table is
undefined. -/
def two (u : Nat) (s : Mem × Nat) : Option (Mem × Nat) := do
  let m ← copyPair (digitsTable 10 false) s.1 s.2 u
  some (m, s.2 + 2)

/-- `chrono_two_digits_impl` with range check, for a 64-bit unsigned number (integers/chrono.h:25-61). -/
def twoChecked (u : Nat) (s : Mem × Nat) : Option (Mem × Nat) :=
  if 100 ≤ u then printInt 64 false {} s.1 s.2 u else two u s

/-- `chrono_year_impl` (integers/chrono.h:63-82). -/
def printYear (i : Int) (s : Mem × Nat) : Option (Mem × Nat) :=
  let (u, s) := if i < 0 then (neg64 (u64 i), putc 45 s) else (u64 i, s)
  if 10000 ≤ u then printInt 64 false {} s.1 s.2 u
  else (two (u / 100) s).bind (two (u % 100))

/-- The loop of `output_iso8601_subseconds_main` (iso/isos.h:13-15); a 64-bit number other than zero has fewer than 20 trailing
zeros, which is the fuel. -/
def fracStrip : Nat → Nat → Nat → Option (Nat × Nat)
  | 0, _, _ => none
  | k + 1, sub, sz => if sub % 10 = 0 then fracStrip k (sub / 10) (sz - 1) else some (sub, sz)

/-- `output_iso8601_subseconds<false>` (iso/isos.h:9-26). -/
def printFrac (sub : Nat) (s : Mem × Nat) : Option (Mem × Nat) := do
  let s := putc 46 s
  let r ← fracStrip 20 sub 19
  let m ← genMain 64 10 false s.1 (s.2 + r.2) r.1 r.2
  some (m, s.2 + r.2)

/-- `print_reserve_timezone_impl` (iso8601.h:547-575). -/
def printZone (tz : Int) (s : Mem × Nat) : Option (Mem × Nat) := do
  let (u, s) := if tz < 0 then (neg64 (u64 tz), putc 45 s) else (u64 tz, putc 43 s)
  let ss := u % 60 % 256
  let u := u / 60
  let mm := u % 60 % 256
  let u := u / 60
  let s ← twoChecked u s
  let s ← two mm (putc 58 s)
  if ss ≠ 0 then two ss (putc 58 s) else some s

/-- `print_reserve_iso8601_timestamp_impl` (iso8601.h:577-608). -/
def printIso (t : Iso) (m : Mem) (iter : Nat) : Option (Mem × Nat) := do
  let s ← printYear t.year (m, iter)
  let s ← two t.month (putc 45 s)
  let s ← two t.day (putc 45 s)
  let s ← two t.hours (putc 84 s)
  let s ← two t.minutes (putc 58 s)
  let s ← two t.seconds (putc 58 s)
  let s ← if t.sub ≠ 0 then printFrac t.sub s else some s
  if t.timezone = 0 then some (putc 90 s) else printZone t.timezone s

/-! ## Scanning a contiguous range -/

/-- `chrono_scan_two_digits_unsafe_impl` (integers/chrono.h:84-101): inner `none` is `parse_code::invalid`. -/
def scanTwo (cw : Nat) (l : List Nat) : Option (Option Nat) :=
  match l with
  | [] => none
  | c :: l =>
    if 10 ≤ (c + 2 ^ cw - 48) % 2 ^ cw then some none
    else match l with
      | [] => none
      | d :: _ => if 10 ≤ (d + 2 ^ cw - 48) % 2 ^ cw then some none else some (some ((c - 48) * 10 + (d - 48)))

/-- Scanner settings: `cw`, `simd`, `sse` as in `IntScan.Cfg`. -/
structure TCfg where
  cw : Nat
  simd : Nat
  sse : Bool

/-- The integer scan of a year, `scan_int_contiguous_define_impl<10,true,false,false>` (integers/chrono.h:119). -/
def yearCfg (cfg : TCfg) : Cfg := Cfg.mk 64 true 10 true false cfg.cw cfg.simd cfg.sse 2 false

/-- The integer scan of a fraction, `scan_int_contiguous_define_impl<10,true,false,true>` (integers/chrono.h:172). -/
def fracCfg (cfg : TCfg) : Cfg := Cfg.mk 64 false 10 true true cfg.cw cfg.simd cfg.sse 2 false

/-- The loop over the first four characters of a year (integers/chrono.h:113-116): `none` read beyond the end; inner `some l`
stopped there. -/
def yearLoop (cw : Nat) : Nat → List Nat → Option (Option (List Nat))
  | 0, _ => some none
  | _ + 1, [] => none
  | k + 1, c :: l => (charDigit cw 10 c).bind fun
    | none => some (some (c :: l))
    | some _ => yearLoop cw k l

/-- `chrono_scan_year_impl` (integers/chrono.h:103-138), for `std::int_least64_t`. -/
def scanYear (cfg : TCfg) (l : List Nat) : Option (List Nat × Code × Int) :=
  if l.length < 20 then some ([], .invalid, 0)
  else
    match l with
    | [] => none
    | c :: l' =>
      let sign := c == 45
      let l := if sign then l' else l
      (yearLoop cfg.cw 4 l).bind fun
        | some stop => some (stop, .invalid, 0)
        | none =>
          match l with
          | a :: b :: c :: d :: e :: rest =>
            (charDigit cfg.cw 10 e).bind fun
              | some _ =>
                (scanContig (yearCfg cfg) l).bind fun o =>
                  match o.value with
                  | some v => some (o.rest, .ok, if sign then -v else v)
                  | none => some (e :: rest, o.code, 0)
              | none =>
                let v : Int := ((a - 48) * 1000 + (b - 48) * 100 + (c - 48) * 10 + (d - 48) : Nat)
                some (e :: rest, .ok, if sign then -v else v)
          | _ => none

/-- `chrono_scan_decimal_fraction_part_rounding_impl` (integers/chrono.h:140-161); the first argument is the run of digits. -/
def roundDigits (l : List Nat) (v : Nat) : Option Nat :=
  match l with
  | [] => none
  | c :: l =>
    if c < 53 then some v
    else if 53 < c then some ((v + 1) % 2 ^ 64)
    else if l.any (fun d => d != 48) then some ((v + 1) % 2 ^ 64)
    else if v % 2 = 1 then some ((v + 1) % 2 ^ 64) else some v

/-- `chrono_scan_decimal_fraction_part_never_overflow_impl` (integers/chrono.h:163-194), for `std::uint_least64_t`. -/
def scanFrac (cfg : TCfg) (l : List Nat) : Option (List Nat × Code × Nat) :=
  if l = [] then some ([], .invalid, 0)
  else
    let c := fracCfg cfg
    let head := l.take 19
    let tail := l.drop 19
    (scanContig c head).bind fun o =>
      match o.value with
      | none => some (o.rest ++ tail, o.code, 0)
      | some v =>
        let used := head.length - o.rest.length
        if used = 0 then some (l, .invalid, 0)
        else
          let v := v.toNat * 10 ^ (19 - used) % 2 ^ 64
          let itr := o.rest ++ tail
          if itr ≠ [] ∧ o.rest = [] then
            (skipDigits c itr).bind fun digitEnd =>
              if digitEnd.length ≠ itr.length then
                (roundDigits (itr.take (itr.length - digitEnd.length)) v).bind fun v => some (digitEnd, .ok, v)
              else some (itr, .ok, v)
          else some (itr, .ok, v)

/-- What a scan reports: the characters left, the code, the timestamp stored (if any). -/
abbrev TOutcome := List Nat × Code × Option Iso

/-- A separator and a two-digit field between `lo` and `hi` (e.g. iso8601.h:987-993). -/
def scanField (cw sep lo hi : Nat) (l : List Nat) (k : Nat → List Nat → Option TOutcome) : Option TOutcome :=
  match l with
  | [] => none
  | c :: l =>
    if c ≠ sep then some (l, .invalid, none)
    else (scanTwo cw l).bind fun
      | none => some (l, .invalid, none)
      | some v => if v < lo ∨ hi < v then some (l, .overflow, none) else k v (l.drop 2)

/-- The time zone (iso8601.h:1054-1077); `l` begins at the sign. -/
def scanZone (cw : Nat) (t : Iso) (sign : Bool) (l : List Nat) : Option TOutcome :=
  if l.length < 5 then some ([], .invalid, none)
  else
    let l := l.drop 1
    (scanTwo cw l).bind fun
      | none => some (l, .invalid, none)
      | some h =>
        if 24 ≤ h then some (l, .overflow, none)
        else scanField cw 58 0 59 (l.drop 2) fun mm l =>
          let z : Int := h * 3600 + mm * 60
          some (l, .ok, some { t with timezone := if sign then -z else z })

/-- What follows the seconds or the fraction: `Z` or a time zone (iso8601.h:1018-1050). -/
def scanTail (cw : Nat) (t : Iso) (l : List Nat) (other : Option TOutcome) : Option TOutcome :=
  match l with
  | [] => none
  | c :: rest =>
    if c = 90 then some (rest, .ok, some t)
    else if c = 43 then scanZone cw t false l
    else if c = 45 then scanZone cw t true l
    else other

/-- `scn_cnt_define_iso8601_impl<false>` (iso8601.h:976-1078). -/
def scanIso (cfg : TCfg) (l : List Nat) : Option TOutcome :=
  let l := findSpace (yearCfg cfg) l
  (scanYear cfg l).bind fun y =>
    if y.2.1 ≠ .ok then some (y.1, y.2.1, none)
    else if y.1.length < 16 then some ([], .invalid, none)
    else
      scanField cfg.cw 45 1 12 y.1 fun month l =>
      scanField cfg.cw 45 1 31 l fun day l =>
      scanField cfg.cw 84 0 23 l fun hours l =>
      scanField cfg.cw 58 0 59 l fun minutes l =>
      scanField cfg.cw 58 0 59 l fun seconds l =>
        let t := Iso.mk y.2.2 month day hours minutes seconds 0 0
        scanTail cfg.cw t l <|
          match l with
          | 46 :: l =>
            (scanFrac cfg l).bind fun f =>
              if f.2.1 ≠ .ok then some (f.1, f.2.1, none)
              else if f.1 = [] then some ([], .invalid, none)
              else scanTail cfg.cw { t with sub := f.2.2 } f.1 (some (f.1, .invalid, none))
          | _ => some (l, .invalid, none)

end Verif.Time
