import Verif.IntPrint.Model
/-!
# Model of floating point printing: common parts and the hexadecimal format

Models `include/fast_io_unit/floating/punning.h`, `hexfloat.h` and `impl.h`.  A floating point argument is its
bit pattern; `bit_cast` is trusted to deliver it, and so is the conversion of `long double` to `__float128`
(impl.h:71-77).  Memory and undefined behaviour as in `Verif.IntPrint.Model`.
-/
namespace Verif.Float
open Verif Verif.IntPrint

/-- `iec559_traits` (punning.h:15-152): `mw` is the width of `mantissa_type`. -/
structure Trait where
  mw : Nat
  mbits : Nat
  ebits : Nat
  m10digits : Nat
  e10digits : Nat
  e2hexdigits : Nat
  e10max : Nat

/-- `iec559_traits<__float16>`, `iec559_traits<_Float16>` (punning.h:17-27, 78-88). -/
def tF16 : Trait := ⟨16, 10, 5, 4, 2, 2, 7⟩
/-- `iec559_traits<float>`, `iec559_traits<_Float32>` (punning.h:30-41, 92-102). -/
def tF32 : Trait := ⟨32, 23, 8, 9, 2, 3, 38⟩
/-- `iec559_traits<double>`, `iec559_traits<_Float64>` (punning.h:43-54, 106-116). -/
def tF64 : Trait := ⟨64, 52, 11, 17, 3, 4, 308⟩
/-- `iec559_traits<__float128>`, `iec559_traits<_Float128>` (punning.h:58-71, 119-131). -/
def tF128 : Trait := ⟨128, 112, 15, 37, 4, 5, 4966⟩
/-- `iec559_traits<decltype(0.0bf16)>` (punning.h:140-151). -/
def tBF16 : Trait := ⟨16, 7, 8, 4, 2, 2, 7⟩

/-- `get_punned_result` (punning.h:440-464): mantissa, exponent, sign. -/
def punned (t : Trait) (bits : Nat) : Nat × Nat × Bool :=
  (bits &&& (2 ^ t.mbits - 1), (bits >>> t.mbits) &&& (2 ^ t.ebits - 1),
    decide ((bits >>> (t.mbits + t.ebits)) &&& 1 = 1))

/-- `print_rsv_fp_sign_impl` (punning.h:466-483). -/
def fpSign (showpos : Bool) (m : Mem) (iter : Nat) (sign : Bool) : Mem × Nat :=
  if showpos then (store m iter [if sign then 45 else 43], iter + 1)
  else if sign then (store m iter [45], iter + 1)
  else (m, iter)

/-- `copy_string_literal` (fast_io_core_impl/char_literal or freestanding helpers): copies the characters. -/
def lit (m : Mem) (iter : Nat) (s : List Nat) : Mem × Nat := (store m iter s, iter + s.length)

/-- `prsv_fp_nan_impl` (punning.h:197-259). -/
def fpNan (upper : Bool) (m : Mem) (iter : Nat) (isnan : Bool) : Mem × Nat :=
  if isnan then lit m iter (if upper then [78, 65, 78] else [110, 97, 110])
  else lit m iter (if upper then [73, 78, 70] else [105, 110, 102])

/-- `prsv_fp_hex0p0` (punning.h:354-383). -/
def hex0p0 (upper : Bool) (m : Mem) (iter : Nat) : Mem × Nat :=
  lit m iter (if upper then [48, 80, 43, 48] else [48, 112, 43, 48])

/-- `prsv_fp_hex1d` (punning.h:292-321). -/
def hex1d (comma : Bool) (m : Mem) (iter : Nat) : Mem × Nat := lit m iter (if comma then [49, 44] else [49, 46])

/-- `prsv_fp_hex0d` (punning.h:323-352). -/
def hex0d (comma : Bool) (m : Mem) (iter : Nat) : Mem × Nat := lit m iter (if comma then [48, 44] else [48, 46])

/-- `__builtin_ctz` and its wider variants: the number of trailing zero bits of a non-zero word. -/
def ctz (x : Nat) : Nat :=
  if h : x = 0 ∨ x % 2 = 1 then 0 else ctz (x / 2) + 1
termination_by x
decreasing_by omega

/-- `my_countr_zero_unchecked` (punning.h:160-187): the 128-bit case looks at the halves. -/
def countrZero (w x : Nat) : Nat :=
  if w = 128 then
    let low := x % 2 ^ 64
    if low ≠ 0 then ctz low else ctz (x / 2 ^ 64 % 2 ^ 64) + 64
  else ctz x

/-- `prt_rsv_hundred_flt_impl` (punning.h:485-492): two characters of the decimal digit table. -/
def hundredFlt (m : Mem) (iter u : Nat) : Option (Mem × Nat) := do
  return (← copyPair (digitsTable 10 false) m iter u, iter + 2)

/-- `prt_rsv_exponent_impl<mxdigits,indent>` (punning.h:494-627) for `uint_least32_t`. -/
def prtExponent (mxdigits : Nat) (indent : Bool) (m : Mem) (iter u : Nat) : Option (Mem × Nat) :=
  match mxdigits with
  | 0 => some (m, iter)
  | 1 => some (store m iter [48 + u], iter + 1)
  | 2 =>
    if indent then hundredFlt m iter u
    else if u ≥ 10 then hundredFlt m iter u
    else some (store m iter [48 + u], iter + 1)
  | 3 =>
    if indent then
      if u ≥ 100 then hundredFlt (store m iter [48 + u / 100]) (iter + 1) (u % 100)
      else hundredFlt m iter u
    else if u ≥ 100 then hundredFlt (store m iter [48 + u / 100]) (iter + 1) (u % 100)
    else if u < 10 then some (store m iter [48 + u], iter + 1)
    else hundredFlt m iter u
  | 4 =>
    if indent then
      if u < 100 then hundredFlt m iter u
      else
        let sz := if u ≥ 1000 then 4 else 3
        (genMain 32 10 false m (iter + sz) u sz).map fun m => (m, iter + sz)
    else
      let sz := if u ≥ 1000 then 4 else if u ≥ 100 then 3 else if u ≥ 10 then 2 else 1
      (genMain 32 10 false m (iter + sz) u sz).map fun m => (m, iter + sz)
  | 5 =>
    if indent then
      if u < 100 then hundredFlt m iter u
      else
        let sz := if u ≥ 10000 then 5 else if u ≥ 1000 then 4 else 3
        (genMain 32 10 false m (iter + sz) u sz).map fun m => (m, iter + sz)
    else
      let sz := if u ≥ 10000 then 5 else if u ≥ 1000 then 4 else if u ≥ 100 then 3 else if u ≥ 10 then 2 else 1
      (genMain 32 10 false m (iter + sz) u sz).map fun m => (m, iter + sz)
  | _ =>
    if indent && decide (u < 100) then hundredFlt m iter u
    else
      let sz := charsLen 32 10 u
      (genMain 32 10 false m (iter + sz) u sz).map fun m => (m, iter + sz)

/-- `with_sign_prt_rsv_exponent_hex_impl` (hexfloat.h:14-29). -/
def hexExponent (digits : Nat) (m : Mem) (iter : Nat) (e2 : Int) : Option (Mem × Nat) :=
  let ue2 := absBits 32 e2
  let m := store m iter [if e2 < 0 then 45 else 43]
  prtExponent digits false m (iter + 1) ue2

/-- Formatting flags: the template arguments of `print_rsvhexfloat_define_impl` and `print_rsvflt_define_impl`. -/
structure Flags where
  showbase : Bool := false
  upperShow : Bool := false
  showpos : Bool := false
  upper : Bool := false
  upperE : Bool := false
  comma : Bool := false

/-- `print_rsvhexfloat_define_impl` (hexfloat.h:31-88). -/
def printHex (t : Trait) (f : Flags) (m : Mem) (iter bits : Nat) : Option (Mem × Nat) :=
  let bias : Nat := 2 ^ t.ebits / 2 - 1
  let mask := 2 ^ t.ebits - 1
  let (mantissa, exponent, sign) := punned t bits
  let makeup := ((t.mbits / 4 + 1) * 4 - t.mbits) % 4
  let s := fpSign f.showpos m iter sign
  if exponent = mask then some (fpNan f.upper s.1 s.2 (decide (mantissa ≠ 0)))
  else
    let s := if f.showbase then lit s.1 s.2 (basePrefix 16 f.upperShow) else s
    if mantissa = 0 ∧ exponent = 0 then some (hex0p0 f.upper s.1 s.2)
    else
      let e2 : Int := (exponent : Int) + -(bias : Int)
      let r : Option (Mem × Nat × Int) :=
        if mantissa ≠ 0 then
          let tz := countrZero t.mw mantissa + makeup
          let md4 := (t.mbits + makeup) / 4
          let d4 := tz / 4
          let mant := (mantissa <<< makeup) % 2 ^ t.mw
          let mant := mant >>> (d4 * 4)
          let len := md4 - d4
          let e2 := if exponent = 0 then e2 + 1 else e2
          let s := if exponent = 0 then hex0d f.comma s.1 s.2 else hex1d f.comma s.1 s.2
          (genMain t.mw 16 f.upper s.1 (s.2 + len) mant len).map fun m => (m, s.2 + len, e2)
        else some (store s.1 s.2 [49], s.2 + 1, e2)
      r.bind fun (m, iter, e2) =>
        hexExponent t.e2hexdigits (store m iter [if f.upperE then 80 else 112]) (iter + 1) e2

/-- `print_rsvhexfloat_size_cache<showbase,mantissa_type>` (hexfloat.h:91-98; impl.h:21-39): what callers
allocate. -/
def hexSize (t : Trait) (showbase : Bool) : Nat :=
  reserveSize t.mw false 16 showbase true + 6 + reserveSize 32 true 10 true true

end Verif.Float
