import Verif.Lc.Spec
import Verif.IntPrint.Model
/-!
# Model of locale-dependent integer printing: `fast_io_i18n/lc_numbers/integers.h`

Text written backwards through `*--iter` is a list that grows at its head. Numbers of the character type are `Nat`; the EBCDIC
branches are not modelled.
-/
namespace Verif.Lc
open Verif Verif.IntPrint

/-- The part of `basic_lc_all` that is used: `numeric.grouping`, `numeric.thousands_sep` (`fast_io_i18n/lc.h:66-71`). -/
structure Numeric where
  sep : List Nat
  grouping : List Nat

/-- `to_char_single_digit` (`lc_numbers/integers.h:16-87`, not EBCDIC). -/
def toChar (base : Nat) (upper : Bool) (t : Nat) : Nat :=
  if base ≤ 10 then 48 + t
  else if t < 10 then 48 + t
  else (if upper then 65 else 97) + (t - 10)

/-- Template and function arguments of `lc_grouping_single_sep_ch_impl`: `cap` is the size of the array written to
(`cal_max_int_size<T,base>()*2u-1u`, `lc_numbers/integers.h:185-187`), `fullLen` is `full_len`. -/
structure GCfg where
  full : Bool
  base : Nat
  upper : Bool
  sepCh : Nat
  fullLen : Nat
  cap : Nat

/-- The state: `t`, `full_i`, and the text from `iter` to the end of the array. -/
structure GSt where
  t : Nat
  cnt : Nat
  acc : List Nat

/-- `*--iter=c`; writing in front of the array is undefined. -/
def push (cap c : Nat) (s : GSt) : Option GSt := if s.acc.length < cap then some { s with acc := c :: s.acc } else none

/-- The inner loop over one group (`lc_numbers/integers.h:103-117`, `142-156`): at most `e` digits; the first component tells
whether the function returned. -/
def group (c : GCfg) : Nat → GSt → Option (Bool × GSt)
  | 0, s => some (false, s)
  | e + 1, s => (push c.cap (toChar c.base c.upper (s.t % c.base)) s).bind fun s =>
    let s := { s with t := s.t / c.base }
    let s := if c.full then { s with cnt := s.cnt + 1 } else s
    if (if c.full then s.cnt == c.fullLen else s.t == 0) then some (true, s) else group c e s

/-- The loop `for(;;)` of digits without further grouping (`lc_numbers/integers.h:122-136`), run for at most `fuel` digits. -/
def rest (c : GCfg) (fuel : Nat) (s : GSt) : Option (List Nat) :=
  (group c fuel s).bind fun r => if r.1 then some r.2.acc else none

/-- The loop repeating the last group (`lc_numbers/integers.h:140-157`), run for at most `fuel` groups. -/
def repeatLast (c : GCfg) (e : Nat) : Nat → GSt → Option (List Nat)
  | 0, _ => none
  | fuel + 1, s => (group c e s).bind fun r =>
    if r.1 then some r.2.acc else (push c.cap c.sepCh r.2).bind (repeatLast c e fuel)

/-- `lc_grouping_single_sep_ch_impl` (`lc_numbers/integers.h:89-159`): the loop over `grouping`, then one of the two endings.
`last` is `grouping_base[i-1]`. -/
def groupingLoop (c : GCfg) (fuel last : Nat) : List Nat → GSt → Option (List Nat)
  | [], s => repeatLast c last fuel s
  | e :: g, s =>
    if e = 0 then rest c fuel s
    else (group c e s).bind fun r =>
      if r.1 then some r.2.acc else (push c.cap c.sepCh r.2).bind (groupingLoop c fuel e g)

/-- `grouping_mul_sep_print_sep_impl` (`lc_numbers/integers.h:162-180`): every comma is replaced by the separator. -/
def replaceComma (sep : List Nat) : List Nat → List Nat
  | [] => []
  | x :: l => (if x = 44 then sep else [x]) ++ replaceComma sep l

/-- `grouping_mul_sep_impl` (`lc_numbers/integers.h:182-204`). The loops end after at most `maxIntSize` rounds. -/
def mulSep (nu : Numeric) (bits : Nat) (full : Bool) (base : Nat) (upper : Bool) (m : Mem) (iter t : Nat) : Option (Mem × Nat) :=
  let mx := maxIntSize bits false base
  let ch := if nu.sep.length = 1 then nu.sep.headD 0 else 44
  (groupingLoop ⟨full, base, upper, ch, mx, mx * 2 - 1⟩ mx 0 nu.grouping ⟨t, 0, []⟩).map fun txt =>
    let txt := if nu.sep.length = 1 then txt else replaceComma nu.sep txt
    (store m iter txt, iter + txt.length)

/-- `lc_print_unsigned_with_3_seperator_len` (`lc_numbers/integers.h:206-237`), writing backwards from `iter`. -/
def threeSep (base : Nat) (upper : Bool) (sep : Nat) (m : Mem) (iter value size : Nat) : Option Mem :=
  if 3 < size then
    let low3 := value % (base * base * base)
    let value := value / (base * base * base)
    let low2 := low3 % (base * base)
    let high := low3 / (base * base)
    (copyPair (digitsTable base upper) m (iter - 2) low2).bind fun m =>
      let m := store m (iter - 3) [toChar base upper high]
      threeSep base upper sep (store m (iter - 4) [sep]) (iter - 4) value (size - 3)
  else if size = 3 then
    (copyPair (digitsTable base upper) m (iter - 2) (value % (base * base))).map fun m =>
      store m (iter - 3) [toChar base upper (value / (base * base))]
  else if size = 2 then copyPair (digitsTable base upper) m (iter - 2) value
  else some (store m (iter - 1) [toChar base upper value])
termination_by size

/-- `print_lc_grouping_3_path_impl` (`lc_numbers/integers.h:239-261`). -/
def threePath (sep bits : Nat) (full : Bool) (base : Nat) (upper : Bool) (m : Mem) (iter t : Nat) : Option (Mem × Nat) :=
  let size := if full then maxIntSize bits false base else charsLen bits base t
  let e := iter + (size + (size - 1) / 3)
  (threeSep base upper sep m e t size).map fun m => (m, e)

/-- `lc_print_reserve_integral_withfull_main_impl` (`lc_numbers/integers.h:263-272`). -/
def lcWithFull (nu : Numeric) (bits : Nat) (full : Bool) (base : Nat) (upper : Bool) (m : Mem) (first t : Nat) : Option (Mem × Nat) :=
  if nu.grouping.length = 0 ∨ nu.sep.length = 0 then withFull bits full base upper m first t
  else if nu.grouping = [3] ∧ nu.sep.length = 1 then threePath (nu.sep.headD 0) bits full base upper m first t
  else mulSep nu bits full base upper m first t

/-- `lc_print_reserve_integral_define` (`lc_numbers/integers.h:274-330`); upper case in a base up to 10 goes to the function
without locale (line 285). -/
def lcPrintInt (nu : Numeric) (bits : Nat) (signed : Bool) (f : Fmt) (m : Mem) (first : Nat) (t : Int) : Option (Mem × Nat) :=
  if f.base ≤ 10 ∧ f.upper then printInt bits signed { f with upper := false } m first t
  else
    let u := absBits bits t
    let s := signChars signed f.showpos t
    let m := store m first s
    let first := first + s.length
    let p := if f.showbase ∧ f.base ≠ 10 then basePrefix f.base f.upperShow else []
    let m := store m first p
    let first := first + p.length
    lcWithFull nu bits f.full f.base f.upper m first u

/-- `lc_print_reserve_size_int_cal` (`lc_numbers/integers.h:9-14`). -/
def lcReserve (nu : Numeric) (bits : Nat) (signed : Bool) (f : Fmt) : Nat :=
  let s := reserveSize bits signed f.base f.showbase f.showpos
  s + (s - 1) * nu.sep.length

end Verif.Lc
