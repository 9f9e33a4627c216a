import Verif.Float.Model
import Verif.Float.Tables
/-!
# Model of round-trip printing of `float` and `double`

Models `include/fast_io_unit/floating/roundtrip.h` (lines 716-1374) and `impl.h`.  Unsigned arithmetic is reduced
explicitly where it could wrap; `none` stands for undefined behaviour (a table read out of range, a shift by a
negative or too large amount, a loop that never ends).  `schubfach_asymmetric_interval` (834-883) is not modelled:
its only call is guarded by a condition that is never true (see `dragonMain`).
-/
namespace Verif.Float
open Verif Verif.IntPrint

/-- The constants in which the two instantiations of `dragonbox_main` differ (roundtrip.h:894-906, 784-832). -/
structure DB where
  /-- width of `mantissa_type` -/
  w : Nat
  mbits : Nat
  ebits : Nat
  kappa : Nat
  big : Nat
  small : Nat
  /-- `is_integral_end_point`: below this exponent, no -/
  endLo : Int
  /-- `is_integral_mid_point`: below this exponent, look at powers of two -/
  midLo : Int
  /-- up to this exponent, always -/
  hi1 : Int
  /-- up to this exponent, look at powers of five -/
  hi2 : Int

/-- Constants for `double` (roundtrip.h:784-804). -/
def db64 : DB := ⟨64, 52, 11, 2, 1000, 100, -2, -4, 9, 86⟩
/-- Constants for `float` (roundtrip.h:812-832). -/
def db32 : DB := ⟨32, 23, 8, 1, 100, 10, -1, -2, 6, 39⟩

/-- `mul_ln2_div_ln10_floor` (roundtrip.h:723-726): `>>` on a signed operand rounds down. -/
def mulLn2DivLn10 (e : Int) : Int := (e * 1262611) / 2 ^ 22

/-- `mul_ln10_div_ln2_floor` (roundtrip.h:728-731). -/
def mulLn10DivLn2 (e : Int) : Int := (e * 1741647) / 2 ^ 19

/-- `mulshift_float64` (roundtrip.h:733-741). -/
def mulshift64 (x lo hi : Nat) : Nat :=
  let p0high := x * lo / 2 ^ 64
  let p1high := x * hi / 2 ^ 64
  let p1low := x * hi % 2 ^ 64
  let carry := (p1low + p0high) / 2 ^ 64
  (p1high + 0 + carry) % 2 ^ 64

/-- `mulshift_float32` (roundtrip.h:743-746). -/
def mulshift32 (x y : Nat) : Nat := x * y / 2 ^ 64 % 2 ^ 32

/-- `mul_parity_float64` (roundtrip.h:748-755). -/
def mulParity64 (twoF lo hi beta : Nat) : Bool :=
  let p01 := twoF * hi % 2 ^ 64
  let p10 := twoF * lo / 2 ^ 64
  let mid := (p01 + p10) % 2 ^ 64
  mid.testBit (64 - beta)

/-- `mul_parity_float32` (roundtrip.h:757-762). -/
def mulParity32 (twoF pow10 beta : Nat) : Bool := (twoF * pow10 % 2 ^ 64).testBit (64 - beta)

/-- `multiple_of_pow2_unchecked` (roundtrip.h:764-769). -/
def multipleOfPow2U (value e2 : Nat) : Bool := value &&& (2 ^ e2 - 1) == 0

/-- `multiple_of_pow2` (roundtrip.h:771-776). -/
def multipleOfPow2 (w value : Nat) (e2 : Int) : Option Bool :=
  if e2 < (w : Int) then
    if e2 < 0 then none else some (multipleOfPow2U value e2.toNat)
  else some false

/-- `multiple_of_pow5` and `multiple_of_pow5_float32` (roundtrip.h:778-782, 806-810). -/
def multipleOfPow5 (w value : Nat) (e5 : Int) : Option Bool :=
  if e5 < 0 then none
  else ((if w = 64 then mod5Tb64 else mod5Tb32)[e5.toNat]?).map fun t => decide (value * t.1 % 2 ^ w ≤ t.2)

/-- `is_integral_end_point`, `is_integral_end_point_float32` (roundtrip.h:784-793, 812-821). -/
def integralEnd (d : DB) (twoF : Nat) (e2 minusK : Int) : Option Bool :=
  if e2 < d.endLo then some false
  else if e2 ≤ d.hi1 then some true
  else if e2 ≤ d.hi2 then multipleOfPow5 d.w twoF minusK
  else some false

/-- `is_integral_mid_point`, `is_integral_mid_point_float32` (roundtrip.h:795-804, 823-832). -/
def integralMid (d : DB) (twoF : Nat) (e2 minusK : Int) : Option Bool :=
  if e2 < d.midLo then multipleOfPow2 d.w twoF (minusK - e2 + 1)
  else if e2 ≤ d.hi1 then some true
  else if e2 ≤ d.hi2 then multipleOfPow5 d.w twoF minusK
  else some false

/-- The last digit (roundtrip.h:950-964 for `double`, 985-996 for `float`). -/
def dbRound (d : DB) (delta : Nat) (mid : Unit → Option Bool) (parC : Bool) (q r : Nat) : Option (Nat × Bool) :=
  let q := q * 10 % 2 ^ d.w
  let dist := (r + 2 ^ 32 - delta / 2 + d.small / 2) % 2 ^ 32
  let distQ := dist / d.small
  let q := (q + distQ) % 2 ^ d.w
  if dist = distQ * d.small then
    let approx := decide (dist % 2 = 1)
    (if parC != approx then some true else if q % 2 = 1 then mid () else some false).map fun dec =>
      if dec then ((q + 2 ^ d.w - 1) % 2 ^ d.w, false) else (q, false)
  else some (q, false)

/-- The part of `dragonbox_main` after the multiplication (roundtrip.h:936-965 for `double`, 970-997 for `float`;
the two texts differ in the names of the helpers only).  `endR`, `endL`, `mid` are the end point tests of
`two_fr`, `two_fl`, `two_fc`; `parL`, `parC` the parities.  `&&` and `||` do not evaluate their right operand when the
left one decides, hence the suspended arguments.  The flag of the result tells `minus_k+kappa+1` from
`minus_k+kappa`. -/
def dbTail (d : DB) (isEven : Bool) (zi delta : Nat) (endR endL mid : Unit → Option Bool)
    (parL parC : Bool) : Option (Nat × Bool) :=
  let q := zi / d.big
  let r := zi % d.big
  if r < delta then
    (if r ≠ 0 then some true else if isEven then some true else (endR ()).map (!·)).bind fun keep =>
      if keep then some (q, true) else dbRound d delta mid parC ((q + 2 ^ d.w - 1) % 2 ^ d.w) d.big
  else if r = delta then
    (if isEven then endL () else some false).bind fun a =>
      if a || parL then some (q, true) else dbRound d delta mid parC q r
  else dbRound d delta mid parC q r

/-- `dragonbox_main` from the computation of `is_even` on (roundtrip.h:923-998). -/
def dragonRest (d : DB) (m2 : Nat) (e2 : Int) : Option (Nat × Int) := do
  let isEven := decide (m2 % 2 = 0)
  let minusK := mulLn2DivLn10 e2 - d.kappa
  let plusK := -minusK
  let beta := e2 + mulLn10DivLn2 plusK
  if beta < 1 ∨ 63 < beta then none
  else
    let b := beta.toNat
    let twoFc := m2 * 2 % 2 ^ d.w
    let twoFl := (twoFc + 2 ^ d.w - 1) % 2 ^ d.w
    let twoFr := (twoFc + 1) % 2 ^ d.w
    let (zi, delta, parL, parC) ←
      if d.w = 64 then
        if plusK + 292 < 0 then none
        else (pow10Tb64[(plusK + 292).toNat]?).map fun (hi, lo) =>
          (mulshift64 (twoFr <<< b % 2 ^ 64) lo hi, hi >>> (63 - b) % 2 ^ 32, mulParity64 twoFl lo hi b,
            mulParity64 twoFc lo hi b)
      else
        if plusK + 31 < 0 then none
        else (pow10Tb32[(plusK + 31).toNat]?).map fun p =>
          (mulshift32 (twoFr <<< b % 2 ^ 32) p, p >>> (63 - b) % 2 ^ 32, mulParity32 twoFl p b, mulParity32 twoFc p b)
    let (q, up) ← dbTail d isEven zi delta (fun _ => integralEnd d twoFr e2 minusK)
      (fun _ => integralEnd d twoFl e2 minusK) (fun _ => integralMid d twoFc e2 minusK) parL parC
    return (q, if up then minusK + d.kappa + 1 else minusK + d.kappa)

/-- `dragonbox_main` (roundtrip.h:885-998): `m2`, `e` are the fields of a non-zero finite number.  The call of
`schubfach_asymmetric_interval` is guarded by `m2==0` *after* `m2|=mflags` has been executed; it is modelled by
`none`. -/
def dragonMain (d : DB) (m2 e : Nat) : Option (Nat × Int) :=
  let bias : Int := 2 ^ (d.ebits - 1) - 1
  let exponentBias : Int := bias + d.mbits
  if e = 0 then dragonRest d m2 (1 - exponentBias)
  else
    let e2 : Int := e - exponentBias
    let m2 := m2 ||| 2 ^ d.mbits
    let posE2 := ((-e2) % 2 ^ 32).toNat
    if posE2 < d.mbits ∧ multipleOfPow2U m2 posE2 then some (m2 >>> posE2, 0)
    else if m2 = 0 ∧ 1 < e then none
    else dragonRest d m2 e2

/-- The loop that divides by 100 (roundtrip.h:1026-1034); it never ends for 0. -/
def strip100 (m10 : Nat) (e10 : Int) : Option (Nat × Int) :=
  if h : m10 = 0 then none
  else if m10 % 100 ≠ 0 then some (m10, e10)
  else strip100 (m10 / 100) (e10 + 2)
termination_by m10
decreasing_by omega

/-- The first loop for 32-bit targets (roundtrip.h:1056-1073): `inr` is the early return. -/
def strip100Big (m10 : Nat) (e10 : Int) : (Nat × Int) ⊕ (Nat × Int) :=
  if h : 1000000000 ≤ m10 then
    if m10 % 100 ≠ 0 then
      .inr (if m10 % 10 = 0 then (m10 / 10, e10 + 1) else (m10, e10))
    else strip100Big (m10 / 100) (e10 + 2)
  else .inl (m10, e10)
termination_by m10
decreasing_by omega

/-- `dragonbox_impl` (roundtrip.h:1000-1083): removes trailing decimal zeros.  `sizet64` tells whether `size_t` has
at least 64 bits; it matters for `double` only. -/
def dragonImpl (d : DB) (sizet64 : Bool) (m2 e : Nat) : Option (Nat × Int) := do
  let (m10, e10) ← dragonMain d m2 e
  let eight (m10 : Nat) (e10 : Int) : Nat × Int :=
    if m10 % 100000000 = 0 then (m10 / 100000000, e10 + 8) else (m10, e10)
  if sizet64 || decide (d.w < 64) then
    let (m10, e10) := if 64 ≤ d.w then eight m10 e10 else (m10, e10)
    let (m10, e10) ← strip100 m10 e10
    return if m10 % 10 = 0 then (m10 / 10, e10 + 1) else (m10, e10)
  else
    let (m10, e10) := eight m10 e10
    match strip100Big m10 e10 with
    | .inr r => return r
    | .inl (m10, e10) => strip100 (m10 % 2 ^ 32) e10

/-! ## Text -/

/-- The floating point formats (`manipulators::floating_format`, without `hexfloat`). -/
inductive Format where
  | general | scientific | fixed | decimal
  deriving DecidableEq

/-- `chars_len<10,true>` (utils.h:490-800): in `ryu_mode` the comparisons above 17 digits (64 bits) and 9 digits
(32 bits) are left out. -/
def ryuLen (w value : Nat) : Nat := chainLen10 (if w = 64 then 17 else 9) value

/-- `jeaiii_main_len<true>` (jeaiii_method.h:501-610) by width. -/
def ryuMainLen (w : Nat) (m : Mem) (iter n len : Nat) : Option Mem :=
  if w = 64 then jeaMainLen64 true m iter n len else jeaMainLen32 true m iter n len

/-- Decimal point. -/
def point (comma : Bool) : Nat := if comma then 44 else 46

/-- `print_rsv_fp_decimal_scientific_common_impl` (roundtrip.h:1085-1093). -/
def sciCommon (w : Nat) (comma : Bool) (m : Mem) (iter m10 len : Nat) : Option (Mem × Nat) := do
  let m ← ryuMainLen w m (iter + 1) m10 len
  let m := store m iter [m (iter + 1)]
  let m := store m (iter + 1) [point comma]
  return (m, iter + 1 + len)

/-- `print_rsv_fp_decimal_common_impl` (roundtrip.h:1095-1106). -/
def decimalCommon (w : Nat) (comma : Bool) (m : Mem) (iter m10 len : Nat) : Option (Mem × Nat) :=
  if len = 1 then some (store m iter [48 + m10], iter + 1) else sciCommon w comma m iter m10 len

/-- `print_rsv_fp_e_impl` (roundtrip.h:1108-1123). -/
def fpE (t : Trait) (upperE : Bool) (m : Mem) (iter : Nat) (e10 : Int) : Option (Mem × Nat) :=
  let m := store m iter [if upperE then 69 else 101]
  let ue10 := absBits 32 e10
  let m := store m (iter + 1) [if e10 < 0 then 45 else 43]
  prtExponent t.e10digits true m (iter + 2) ue10

/-- `fill_zeros_impl` (roundtrip.h:1125-1134). -/
def fillZeros (m : Mem) (iter : Nat) : Nat → Mem × Nat
  | 0 => (m, iter)
  | n + 1 => fillZeros (store m iter [48]) (iter + 1) n

/-- `fill_zero_point_impl` (roundtrip.h:1136-1165). -/
def zeroPoint (comma : Bool) (m : Mem) (iter : Nat) : Mem × Nat := lit m iter (if comma then [48, 44] else [48, 46])

/-- `static_cast<std::uint_least32_t>` of a signed value. -/
def toU32 (x : Int) : Nat := (x % 2 ^ 32).toNat

/-- `fixed_case0_full_integer` (roundtrip.h:1167-1173). -/
def fixedCase0 (w : Nat) (m : Mem) (iter m10 len : Nat) (realExp : Int) : Option (Mem × Nat) := do
  let m ← ryuMainLen w m iter m10 len
  return fillZeros m (iter + len) (toU32 (realExp + 1 - len))

/-- `fixed_case1_integer_and_point` (roundtrip.h:1175-1193): prints one place to the right, then moves the integer
part to the left (`my_copy_n` copies forwards, here to a lower address). -/
def fixedCase1 (w : Nat) (comma : Bool) (m : Mem) (iter m10 len : Nat) (realExp : Int) : Option (Mem × Nat) := do
  let epos := realExp + 1
  if (len : Int) = epos then
    let m ← ryuMainLen w m iter m10 len
    return (m, iter + len)
  else
    let m ← ryuMainLen w m (iter + 1) m10 len
    let n := toU32 epos
    let m := store m iter (load m (iter + 1) n)
    let m := store m (iter + n) [point comma]
    return (m, iter + (len + 1))

/-- `fixed_case2_all_point` (roundtrip.h:1195-1203). -/
def fixedCase2 (w : Nat) (comma : Bool) (m : Mem) (iter m10 len : Nat) (realExp : Int) : Option (Mem × Nat) := do
  let s := zeroPoint comma m iter
  let s := fillZeros s.1 s.2 (toU32 (-realExp - 1))
  let m ← ryuMainLen w s.1 s.2 m10 len
  return (m, s.2 + len)

/-- `print_rsv_fp_fixed_decision_impl` (roundtrip.h:1205-1222). -/
def fixedDecision (w : Nat) (comma : Bool) (m : Mem) (iter m10 : Nat) (e10 : Int) : Option (Mem × Nat) :=
  let len := ryuLen w m10
  let realExp : Int := e10 + len - 1
  if (len : Int) ≤ realExp then fixedCase0 w m iter m10 len realExp
  else if 0 ≤ realExp ∧ realExp < len then fixedCase1 w comma m iter m10 len realExp
  else fixedCase2 w comma m iter m10 len realExp

/-- The scientific branch of `print_rsv_fp_decision_impl` (roundtrip.h:1240-1259). -/
def sciDecision (t : Trait) (comma upperE : Bool) (m : Mem) (iter m10 : Nat) (e10 : Int) : Option (Mem × Nat) :=
  if m10 < 10 then fpE t upperE (store m iter [48 + m10]) (iter + 1) e10
  else do
    let (m, newIter) ← jeaMain t.mw false m (iter + 1) m10
    let e10 := e10 + ((newIter - (iter + 1) : Nat) - 1 : Int)
    let m := store m iter [m (iter + 1)]
    let m := store m (iter + 1) [point comma]
    fpE t upperE m newIter e10

/-- The decimal branch of `print_rsv_fp_decision_impl` (roundtrip.h:1260-1299): whichever is shorter. -/
def decDecision (t : Trait) (comma upperE : Bool) (m : Mem) (iter m10 : Nat) (e10 : Int) : Option (Mem × Nat) := do
  let len := ryuLen t.mw m10
  let realExp : Int := e10 + len - 1
  let (fixedLen, thisCase) :=
    if (len : Int) ≤ realExp then (toU32 (realExp + 1), 1)
    else if 0 ≤ realExp ∧ realExp < len then
      (if (len : Int) = realExp + 1 then toU32 ((len : Int) + 2) - 1 else toU32 ((len : Int) + 2), 2)
    else ((toU32 (-realExp) + len + 1) % 2 ^ 32, 0)
  let sciLen := if len = 1 then len + 3 else len + 5
  if sciLen < fixedLen then
    let (m, iter) ← decimalCommon t.mw comma m iter m10 len
    fpE t upperE m iter realExp
  else if thisCase = 1 then fixedCase0 t.mw m iter m10 len realExp
  else if thisCase = 2 then fixedCase1 t.mw comma m iter m10 len realExp
  else fixedCase2 t.mw comma m iter m10 len realExp

/-- `print_rsv_fp_decision_impl` (roundtrip.h:1224-1300), with `fixed` treated by the caller (1336-1339). -/
def decision (t : Trait) (fmt : Format) (comma upperE : Bool) (m : Mem) (iter m10 : Nat) (e10 : Int) :
    Option (Mem × Nat) :=
  match fmt with
  | .general =>
    if -5 < e10 ∧ e10 < 7 then fixedDecision t.mw comma m iter m10 e10
    else sciDecision t comma upperE m iter m10 e10
  | .scientific => sciDecision t comma upperE m iter m10 e10
  | .decimal => decDecision t comma upperE m iter m10 e10
  | .fixed => fixedDecision t.mw comma m iter m10 e10

/-- `prsv_fp_dece0` (punning.h:385-414). -/
def dece0 (upper : Bool) (m : Mem) (iter : Nat) : Mem × Nat :=
  lit m iter (if upper then [48, 69, 43, 48] else [48, 101, 43, 48])

/-- `print_rsvflt_define_impl` (roundtrip.h:1302-1343); the instantiation with `fixed` and `uppercase_e` forwards to
the one without. -/
def printFlt (t : Trait) (d : DB) (sizet64 : Bool) (fmt : Format) (f : Flags) (m : Mem) (iter bits : Nat) :
    Option (Mem × Nat) := do
  let (mantissa, exponent, sign) := punned t bits
  let (m, iter) := fpSign f.showpos m iter sign
  if exponent = 2 ^ t.ebits - 1 then return fpNan f.upper m iter (decide (mantissa ≠ 0))
  else if mantissa = 0 ∧ exponent = 0 then
    if fmt ≠ .scientific then return (store m iter [48], iter + 1)
    else return dece0 f.upper m iter
  else
    let (m10, e10) ← dragonImpl d sizet64 mantissa exponent
    decision t fmt f.comma f.upperE m iter m10 e10

/-- `print_rsvflt_size_impl` (roundtrip.h:1345-1370): what callers allocate. -/
def fltSize (t : Trait) (fmt : Format) : Nat :=
  match fmt with
  | .fixed => 1 + 2 + t.e10max + t.m10digits
  | _ => 1 + t.m10digits + 1 + 2 + t.e10digits

end Verif.Float
