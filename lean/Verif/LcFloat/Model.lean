import Verif.LcFloat.Spec
import Verif.Lc.Model
import Verif.Float.RtModel
/-!
# Model of printing floating point numbers with a locale

`fast_io_unit/floating/{lc_roundtrip,lc_hexfloat,lc_impl}.h` for a 64-bit target and `float`, `double` (hexadecimal: all
formats of `Verif.Float.Trait`). The conversion to decimal and the functions without a locale are those of `Verif.Float`. A
store behind the end or in front of a local array is `none`.
-/
namespace Verif.LcFloat
open Verif Verif.IntPrint Verif.Float Verif.Lc

/-- `basic_lc_numeric` (`fast_io_i18n/lc.h:66-71`): decimal point, separator, grouping. -/
structure LcNum where
  dp : List Nat
  sep : List Nat
  grouping : List Nat

/-- `print_reserve_integral_main_impl<10,false,true>(res,m10,len)` (integers/impl.h:955-1064, `need_seperate_print` is false). -/
def mainImpl (m : Mem) (res m10 len : Nat) : Option Mem := genWord 10 false m res m10 len

/-- Copying the decimal point (lc_roundtrip.h:13-16, 60-65, 77-85, 189-197; lc_hexfloat.h:57-65): one character by assignment,
else `non_overlapped_copy_n`. -/
def putPoint (dp : List Nat) (m : Mem) (iter : Nat) : Mem :=
  if dp.length = 1 then store m iter [dp.headD 0] else store m iter dp

/-- `lc_print_rsv_fp_dgs_common_decay_impl`, `lc_print_rsv_fp_dgs_common_impl` (lc_roundtrip.h:6-25): digits behind the place of
the point, the first one moved to the front. -/
def dgsCommon (dp : List Nat) (m : Mem) (iter m10 len : Nat) : Option (Mem × Nat) := do
  let res := iter + len + dp.length
  let m ← mainImpl m res m10 len
  let m := store m iter [m (iter + dp.length)]
  return (putPoint dp m (iter + 1), res)

/-- `lc_print_rsv_fp_decimal_common_impl` (lc_roundtrip.h:27-38). -/
def lcDecimalCommon (dp : List Nat) (m : Mem) (iter m10 len : Nat) : Option (Mem × Nat) :=
  if len = 1 then some (store m iter [48 + m10], iter + 1) else dgsCommon dp m iter m10 len

/-- `lc_no_grouping_fixed_case1_integer_and_point` (lc_roundtrip.h:45-68). -/
def plainCase1 (dp : List Nat) (m : Mem) (iter m10 len : Nat) (realExp : Int) : Option (Mem × Nat) := do
  let epos := realExp + 1
  if (len : Int) = epos then
    let m ← mainImpl m (iter + len) m10 len
    return (m, iter + len)
  else
    let e := iter + (len + dp.length)
    let m ← mainImpl m e m10 len
    let n := toU32 epos
    let m := store m iter (load m (iter + dp.length) n)
    return (putPoint dp m (iter + n), e)

/-- `lc_grouping_fixed_case2_all_point` (lc_roundtrip.h:70-91). -/
def lcCase2 (dp : List Nat) (m : Mem) (iter m10 len : Nat) (realExp : Int) : Option (Mem × Nat) := do
  let m := store m iter [48]
  let m := putPoint dp m (iter + 1)
  let s := fillZeros m (iter + 1 + dp.length) (toU32 (-realExp - 1))
  let m ← mainImpl s.1 (s.2 + len) m10 len
  return (m, s.2 + len)

/-- The inner loop of `lc_grouping_single_sep_ch_impl` (lc_roundtrip.h:103-108, 124-129): at most `e` characters of the source,
which is given backwards, go in front of the text `acc`; the first component tells whether the function returned. `cap` is the
size of the array that is written backwards. -/
def group (cap : Nat) : Nat → List Nat → List Nat → Option (Bool × List Nat × List Nat)
  | 0, r, acc => some (false, r, acc)
  | _ + 1, [], _ => none
  | e + 1, c :: r, acc =>
    if acc.length < cap then
      if r.isEmpty then some (true, r, c :: acc) else group cap e r (c :: acc)
    else none

/-- The loop over the rest without grouping (lc_roundtrip.h:113-118). -/
def rest (cap : Nat) (r acc : List Nat) : Option (List Nat) :=
  (group cap r.length r acc).bind fun s => if s.1 then some s.2.2 else none

/-- The loop repeating the last group (lc_roundtrip.h:122-130), run for at most `fuel` groups. -/
def repeatLast (cap ch e : Nat) : Nat → List Nat → List Nat → Option (List Nat)
  | 0, _, _ => none
  | fuel + 1, r, acc => (group cap e r acc).bind fun s =>
    if s.1 then some s.2.2
    else if s.2.2.length < cap then repeatLast cap ch e fuel s.2.1 (ch :: s.2.2) else none

/-- `lc_grouping_single_sep_ch_impl` (lc_roundtrip.h:93-133): `last` is `grouping_base[i-1]`. -/
def groupingLoop (cap ch fuel last : Nat) : List Nat → List Nat → List Nat → Option (List Nat)
  | [], r, acc => repeatLast cap ch last fuel r acc
  | e :: g, r, acc =>
    if e = 0 then rest cap r acc
    else (group cap e r acc).bind fun s =>
      if s.1 then some s.2.2
      else if s.2.2.length < cap then groupingLoop cap ch fuel e g s.2.1 (ch :: s.2.2) else none

/-- `grouping_handle_buffer<digits>`, `grouping_handle_buffer_internal` (lc_roundtrip.h:135-162): the digits `src` are written,
grouped, at `iter`. -/
def handleBuffer (nu : LcNum) (digits : Nat) (src : List Nat) (m : Mem) (iter : Nat) : Option (Mem × Nat) :=
  let ch := if nu.sep.length = 1 then nu.sep.headD 0 else 44
  (groupingLoop (digits * 2) ch src.length 0 nu.grouping src.reverse []).map fun txt =>
    let txt := if nu.sep.length = 1 then txt else replaceComma nu.sep txt
    (store m iter txt, iter + txt.length)

/-- An array of `cap` characters (`buffer1`) filled by `f` from its beginning: the text in it. -/
def inBuffer (cap : Nat) (r : Option (Mem × Nat)) : Option (List Nat) :=
  r.bind fun s => if s.2 ≤ cap then some (load s.1 0 s.2) else none

/-- `lc_grouping_fixed_case1_integer_and_point` (lc_roundtrip.h:164-201). -/
def groupCase1 (t : Trait) (nu : LcNum) (m : Mem) (iter m10 len : Nat) (realExp : Int) : Option (Mem × Nat) := do
  let total := t.m10digits + t.e10digits + 2
  let epos := realExp + 1
  let buf ← inBuffer total ((mainImpl (fun _ => 0) len m10 len).map fun m => (m, len))
  if (len : Int) = epos then handleBuffer nu total buf m iter
  else
    let n := toU32 epos
    let (m, iter) ← handleBuffer nu total (buf.take n) m iter
    let m := putPoint nu.dp m iter
    let iter := iter + nu.dp.length
    return (store m iter (buf.drop n), iter + (buf.drop n).length)

/-- `no_grouping_grouping_case` (lc_roundtrip.h:215, 313). -/
def noGrouping (nu : LcNum) : Bool := nu.grouping.length == 0 || nu.sep.length == 0

/-- The full integer case with or without groups (lc_roundtrip.h:218-229, 320-329). -/
def lcCase0 (t : Trait) (nu : LcNum) (total : Nat) (m : Mem) (iter m10 len : Nat) (realExp : Int) : Option (Mem × Nat) :=
  if noGrouping nu then fixedCase0 t.mw m iter m10 len realExp
  else (inBuffer total (fixedCase0 t.mw (fun _ => 0) 0 m10 len realExp)).bind fun buf => handleBuffer nu total buf m iter

/-- The case of an integer part and a fraction (lc_roundtrip.h:233-240, 333-340). -/
def lcCase1 (t : Trait) (nu : LcNum) (m : Mem) (iter m10 len : Nat) (realExp : Int) : Option (Mem × Nat) :=
  if noGrouping nu then plainCase1 nu.dp m iter m10 len realExp else groupCase1 t nu m iter m10 len realExp

/-- `lc_print_rsv_fp_fixed_decision_impl` (lc_roundtrip.h:203-246). -/
def lcFixedDecision (t : Trait) (nu : LcNum) (m : Mem) (iter m10 : Nat) (e10 : Int) : Option (Mem × Nat) :=
  let len := ryuLen t.mw m10
  let realExp : Int := e10 + len - 1
  if (len : Int) ≤ realExp then lcCase0 t nu (t.m10digits + t.e10max + 2) m iter m10 len realExp
  else if 0 ≤ realExp ∧ realExp < len then lcCase1 t nu m iter m10 len realExp
  else lcCase2 nu.dp m iter m10 len realExp

/-- The scientific branch of `lc_print_rsv_fp_decision_impl` (lc_roundtrip.h:263-278). -/
def lcSciDecision (t : Trait) (dp : List Nat) (upperE : Bool) (m : Mem) (iter m10 : Nat) (e10 : Int) : Option (Mem × Nat) :=
  if m10 < 10 then fpE t upperE (store m iter [48 + m10]) (iter + 1) e10
  else do
    let len := ryuLen t.mw m10
    let (m, iter) ← dgsCommon dp m iter m10 len
    fpE t upperE m iter (e10 + (len - 1 : Int))

/-- The decimal branch of `lc_print_rsv_fp_decision_impl` (lc_roundtrip.h:279-347). -/
def lcDecDecision (t : Trait) (nu : LcNum) (upperE : Bool) (m : Mem) (iter m10 : Nat) (e10 : Int) : Option (Mem × Nat) := do
  let len := ryuLen t.mw m10
  let realExp : Int := e10 + len - 1
  let (fixedLen, thisCase) :=
    if (len : Int) ≤ realExp then (toU32 (realExp + 1), 1)
    else if 0 ≤ realExp ∧ realExp < len then
      (if (len : Int) = realExp + 1 then toU32 ((len : Int) + 2) - 1 else toU32 ((len : Int) + 2), 2)
    else ((toU32 (-realExp) + len + 1) % 2 ^ 32, 0)
  let sciLen := if len = 1 then len + 3 else len + 5
  if sciLen < fixedLen then
    let (m, iter) ← lcDecimalCommon nu.dp m iter m10 len
    fpE t upperE m iter realExp
  else if thisCase = 1 then lcCase0 t nu (t.m10digits + t.e10digits + 2) m iter m10 len realExp
  else if thisCase = 2 then lcCase1 t nu m iter m10 len realExp
  else lcCase2 nu.dp m iter m10 len realExp

/-- `lc_print_rsv_fp_decision_impl` (lc_roundtrip.h:248-348), with `fixed` treated by the caller (385-388). -/
def lcDecision (t : Trait) (fmt : Format) (nu : LcNum) (upperE : Bool) (m : Mem) (iter m10 : Nat) (e10 : Int) :
    Option (Mem × Nat) :=
  match fmt with
  | .general =>
    if -5 < e10 ∧ e10 < 7 then lcFixedDecision t nu m iter m10 e10
    else lcSciDecision t nu.dp upperE m iter m10 e10
  | .scientific => lcSciDecision t nu.dp upperE m iter m10 e10
  | .decimal => lcDecDecision t nu upperE m iter m10 e10
  | .fixed => lcFixedDecision t nu m iter m10 e10

/-- `lc_print_rsvflt_define_impl` (lc_roundtrip.h:350-390). -/
def lcPrintFlt (t : Trait) (d : DB) (sizet64 : Bool) (fmt : Format) (f : Flags) (nu : LcNum) (m : Mem) (iter bits : Nat) :
    Option (Mem × Nat) := do
  let (mantissa, exponent, sign) := punned t bits
  let (m, iter) := fpSign f.showpos m iter sign
  if exponent = 2 ^ t.ebits - 1 then return fpNan f.upper m iter (decide (mantissa ≠ 0))
  else if mantissa = 0 ∧ exponent = 0 then
    if fmt ≠ .scientific then return (store m iter [48], iter + 1)
    else return dece0 f.upper m iter
  else
    let (m10, e10) ← dragonImpl d sizet64 mantissa exponent
    lcDecision t fmt nu f.upperE m iter m10 e10

/-- `lc_print_rsv_iec559_size` (lc_impl.h:12-36): what callers allocate. -/
def lcSize (t : Trait) (fmt : Format) (nu : LcNum) : Nat :=
  match fmt with
  | .fixed => 2 + (t.e10max + t.m10digits - 1) + nu.dp.length + (t.e10max + t.m10digits - 1) * nu.sep.length
  | .scientific => fltSize t .scientific + nu.dp.length
  | _ => 3 + t.e10digits + (t.m10digits + 3) + nu.dp.length + (t.m10digits + 3) * nu.sep.length

/-- `lc_print_rsvhexfloat_define_impl` (lc_hexfloat.h:11-76). -/
def lcPrintHex (t : Trait) (f : Flags) (dp : List Nat) (m : Mem) (iter bits : Nat) : Option (Mem × Nat) :=
  let bias : Nat := 2 ^ t.ebits / 2 - 1
  let mask := 2 ^ t.ebits - 1
  let (mantissa, exponent, sign) := punned t bits
  let makeup := ((t.mbits / 4 + 1) * 4 - t.mbits) % 4
  let s := fpSign f.showpos m iter sign
  if exponent = mask then some (fpNan f.upper s.1 s.2 (decide (mantissa ≠ 0)))
  else
    let s := if f.showbase then lit s.1 s.2 (basePrefix 16 f.upperShow) else s
    if mantissa = 0 ∧ exponent = 0 then some (hex0p0 f.upper s.1 s.2)
    else
      let e2 : Int := (exponent : Int) + -(bias : Int)
      let r : Option (Mem × Nat × Int) :=
        if mantissa ≠ 0 then
          let tz := countrZero t.mw mantissa + makeup
          let md4 := (t.mbits + makeup) / 4
          let d4 := tz / 4
          let mant := (mantissa <<< makeup) % 2 ^ t.mw
          let mant := mant >>> (d4 * 4)
          let len := md4 - d4
          let e2 := if exponent = 0 then e2 + 1 else e2
          let m := store s.1 s.2 [if exponent = 0 then 48 else 49]
          let m := putPoint dp m (s.2 + 1)
          let iter := s.2 + 1 + dp.length
          (genMain t.mw 16 f.upper m (iter + len) mant len).map fun m => (m, iter + len, e2)
        else some (store s.1 s.2 [49], s.2 + 1, e2)
      r.bind fun (m, iter, e2) =>
        hexExponent t.e2hexdigits (store m iter [if f.upperE then 80 else 112]) (iter + 1) e2

/-- The hexadecimal branch of `lc_print_reserve_float_size_impl` (lc_impl.h:46-52). -/
def lcHexSize (t : Trait) (showbase : Bool) (dp : List Nat) : Nat := dp.length + (hexSize t showbase - 1)

end Verif.LcFloat
