import Verif.Core.Mem
import Verif.Num.Spec
/-!
# Model of integer printing

Models `include/fast_io_core_impl/integers/jeaiii_method.h`, `.../integers/digits_table.h`,
`.../integers/impl.h` (lines 822-1416) and the size computations of `include/fast_io_core_impl/utils.h`
(lines 456-905).

Conventions: addresses are `Nat`, memory is `Mem`, a function that writes through a pointer returns the new
memory; `none` stands for undefined behaviour (reading a table out of bounds).  `uint_least32_t`,
`uint_least64_t` are 32/64 bit; arithmetic on them is reduced explicitly.  Characters are unbounded code units:
the narrowing conversion to `char_type` in `char_literal_add` is not modelled, and is the identity on every
value that the theorems show to be written (all below 128).  EBCDIC branches are not modelled.
-/
namespace Verif.IntPrint
open Verif

/-- `charliteralofnumber` (digits_table.h:6-32, non-EBCDIC branch). -/
def charLit (upper : Bool) (v : Nat) : Nat :=
  if v < 10 then 48 + v else (if upper then 65 else 97) + (v - 10)

/-- `generate_digits_table` (digits_table.h:33-57): entry `2*(i*base+j)` is the character of `i`, the next one
that of `j`.  `get_digits_table` (62-87) turns `upper` off for `base <= 10`, where the case is irrelevant. -/
def digitsTable (base : Nat) (upper : Bool) : List Nat :=
  (List.range base).flatMap fun i => (List.range base).flatMap fun j => [charLit upper i, charLit upper j]

/-- Copy two characters of the table, starting at index `2*u`, to `iter`
(`jeaiii_w`, jeaiii_method.h:11-19; `non_overlapped_copy_n(tb+(rem<<1),2,...)`, integers/impl.h:1049). -/
def copyPair (tb : List Nat) (m : Mem) (iter u : Nat) : Option Mem := do
  let c0 ← tb[2 * u]?
  let c1 ← tb[2 * u + 1]?
  return store m iter [c0, c1]

/-- `jeaiii_w` (jeaiii_method.h:11-19). -/
def jeaW (m : Mem) (iter u : Nat) : Option Mem := copyPair (digitsTable 10 false) m iter u

/-- The fixed point word computed by `jeaiii_a<n>` before it is written (jeaiii_method.h:24-32). -/
def jeaWord (n u : Nat) : Nat :=
  let v := n / 5 * n * 53 / 16
  let constant := (2 ^ (32 + v)) / 10 ^ n + 1 + n / 6 - n / 8
  ((constant * u % 2 ^ 64) / 2 ^ v + n / 6 * 4) % 2 ^ 64

/-- `jeaiii_a<n>` (jeaiii_method.h:21-35): first two digits, returns the word. -/
def jeaA (n : Nat) (m : Mem) (iter u : Nat) : Option (Mem × Nat) := do
  let t := jeaWord n u
  let m ← jeaW m iter (t / 2 ^ 32)
  return (m, t)

/-- `jeaiii_s<n>` (jeaiii_method.h:37-42): one digit at `iter[n]`. -/
def jeaS (n : Nat) (iter : Nat) (s : Mem × Nat) : Option Mem :=
  some (store s.1 (iter + n) [48 + (10 * (s.2 % 2 ^ 32)) / 2 ^ 32])

/-- `jeaiii_d<n>` (jeaiii_method.h:44-51): two digits at `iter+n`, returns the word (unused when `last`). -/
def jeaD (n : Nat) (iter : Nat) (s : Mem × Nat) : Option (Mem × Nat) := do
  let t := 100 * (s.2 % 2 ^ 32)
  let m ← jeaW s.1 (iter + n) (t / 2 ^ 32)
  return (m, t)

/-- `jeaiii_c<n>` (jeaiii_method.h:54-105): writes `n+1` digits of `u`; only `n ≤ 9` writes anything. -/
def jeaC (n : Nat) (m : Mem) (iter u : Nat) : Option Mem :=
  match n with
  | 0 => some (store m iter [48 + u])
  | 1 => jeaW m iter u
  | 2 => do jeaS 2 iter (← jeaA 1 m iter u)
  | 3 => do return (← jeaD 2 iter (← jeaA 2 m iter u)).1
  | 4 => do jeaS 4 iter (← jeaD 2 iter (← jeaA 3 m iter u))
  | 5 => do return (← jeaD 4 iter (← jeaD 2 iter (← jeaA 4 m iter u))).1
  | 6 => do jeaS 6 iter (← jeaD 4 iter (← jeaD 2 iter (← jeaA 5 m iter u)))
  | 7 => do return (← jeaD 6 iter (← jeaD 4 iter (← jeaD 2 iter (← jeaA 6 m iter u)))).1
  | 8 => do
    let t ← jeaA 7 m iter u
    let t ← jeaD 2 iter t
    let t ← jeaD 4 iter t
    let t ← jeaD 6 iter t
    jeaS 8 iter t
  | 9 => do
    let t ← jeaA 8 m iter u
    let t ← jeaD 2 iter t
    let t ← jeaD 4 iter t
    let t ← jeaD 6 iter t
    return (← jeaD 8 iter t).1
  | _ => some m

/-- `jeaiii_f<n>` (jeaiii_method.h:107-113). -/
def jeaF (n : Nat) (m : Mem) (iter u : Nat) : Option (Mem × Nat) := do
  return (← jeaC n m iter u, iter + (n + 1))

/-- `jeaiii_tree<left,right>` (jeaiii_method.h:115-235, the `#else` part of `#if 0`). -/
def jeaTree (left right : Nat) (m : Mem) (iter u : Nat) : Option (Mem × Nat) :=
  if left ≥ right then jeaF right m iter u            -- left==right (left<=right is static_assert'ed)
  else if left + 1 = right then
    if u < 10 ^ right then jeaF left m iter u else jeaF right m iter u
  else if left + 2 = right then
    if u < 10 ^ (left + 1) then jeaF left m iter u else jeaTree (left + 1) right m iter u
  else if left = 0 then
    if u < 100 then jeaTree 0 1 m iter u else jeaTree 2 right m iter u
  else
    let middle := (left + right) / 2
    if u < 10 ^ (middle + 1) then jeaTree left middle m iter u
    else jeaTree (middle + 1) right m iter u
termination_by right - left

/-- `jeaiii_main` for types below 64 bits (jeaiii_method.h:325-336). -/
def jeaMain32 (ryu : Bool) (m : Mem) (iter n : Nat) : Option (Mem × Nat) :=
  if ryu then jeaTree 0 8 m iter n else jeaTree 0 9 m iter n

/-- `jeaiii_main<_,true>` for 64 bits: exactly nineteen digits (jeaiii_method.h:276-285). -/
def jeaMain64Rec (m : Mem) (iter n : Nat) : Option (Mem × Nat) := do
  let divisor := 1000000000
  let high := n / divisor
  let low := n % divisor % 2 ^ 32
  let highFirst := high / divisor % 2 ^ 32
  let highLow := high % divisor % 2 ^ 32
  let m ← jeaC 0 m iter highFirst
  let (m, iter) ← jeaF 8 m (iter + 1) highLow
  jeaF 8 m iter low

/-- The leading one or two digits `v` (jeaiii_method.h:304-314). -/
def jeaLead (m : Mem) (iter v : Nat) : Option (Mem × Nat) :=
  if v < 10 then do return (← jeaC 0 m iter v, iter + 1)
  else do return (← jeaW m iter v, iter + 2)

/-- The digits above the last nine (jeaiii_method.h:294-320); `a = n / 10^9`. -/
def jeaHigh64 (ryu : Bool) (m : Mem) (iter a : Nat) : Option (Mem × Nat) :=
  let divisor := 1000000000
  let alow := a % 2 ^ 32
  if ryu then jeaTree 0 7 m iter alow
  else if a ≠ alow then
    let v := a / divisor % 2 ^ 32
    let alow := a % divisor % 2 ^ 32
    (jeaLead m iter v).bind fun s => jeaF 8 s.1 s.2 alow
  else jeaTree 0 9 m iter alow

/-- `jeaiii_main<ryu_mode,false>` for 64 bits (jeaiii_method.h:286-323). -/
def jeaMain64 (ryu : Bool) (m : Mem) (iter n : Nat) : Option (Mem × Nat) :=
  let divisor := 1000000000
  if n / 2 ^ 32 % 2 ^ 32 = 0 then
    jeaTree 0 9 m iter (n % 2 ^ 32)
  else
    let a := n / divisor
    let u := n % divisor % 2 ^ 32
    (jeaHigh64 ryu m iter a).bind fun s => jeaF 8 s.1 s.2 u

/-- The digits above the last nineteen (jeaiii_method.h:249-269); `a = n / 10^19`. -/
def jeaHigh128 (ryu : Bool) (m : Mem) (iter a : Nat) : Option (Mem × Nat) :=
  let divisor := 10000000000000000000
  let alow := a % 2 ^ 64
  if ryu then jeaMain64 false m iter alow
  else if a ≠ alow then
    let v := a / divisor % 2 ^ 32
    let mid := a % divisor % 2 ^ 64
    (jeaC 0 m iter v).bind fun m => jeaMain64Rec m (iter + 1) mid
  else jeaMain64 false m iter alow

/-- `jeaiii_main` for `__uint128_t` (jeaiii_method.h:240-271). -/
def jeaMain128 (ryu : Bool) (m : Mem) (iter n : Nat) : Option (Mem × Nat) :=
  if n / 2 ^ 64 % 2 ^ 64 = 0 then
    jeaMain64 false m iter (n % 2 ^ 64)
  else
    let divisor := 10000000000000000000
    let a := n / divisor
    let u := n % divisor % 2 ^ 64
    (jeaHigh128 ryu m iter a).bind fun s => jeaMain64Rec s.1 s.2 u

/-- `jeaiii_main` by the width of the unsigned type (jeaiii_method.h:237-337). -/
def jeaMain (bits : Nat) (ryu : Bool) (m : Mem) (iter n : Nat) : Option (Mem × Nat) :=
  if bits = 128 then jeaMain128 ryu m iter n
  else if bits = 64 then jeaMain64 ryu m iter n
  else jeaMain32 ryu m iter n

/-- `jeaiii_hash<n>` (jeaiii_method.h:339-499): dispatch on the announced number of digits `len`;
lengths outside `1..n` use `jeaiii_c<n>`. -/
def jeaHash (n : Nat) (m : Mem) (iter u len : Nat) : Option Mem :=
  if 1 ≤ len ∧ len ≤ n then jeaC (len - 1) m iter u else jeaC n m iter u

/-- `jeaiii_main_len` below 64 bits (jeaiii_method.h:598-609). -/
def jeaMainLen32 (ryu : Bool) (m : Mem) (iter n len : Nat) : Option Mem :=
  if ryu then jeaHash 8 m iter n len else jeaHash 9 m iter n len

/-- `jeaiii_main_len<_,true>` for 64 bits (jeaiii_method.h:544-553). -/
def jeaMainLen64Rec (m : Mem) (iter n : Nat) : Option Mem := do
  return (← jeaMain64Rec m iter n).1

/-- `len - full_length` on `uint_least32_t`. -/
def subLen32 (len full : Nat) : Nat := (len + 2 ^ 32 - full) % 2 ^ 32

/-- The digits above the last nine (jeaiii_method.h:562-594); returns the advanced pointer. -/
def jeaHighLen64 (ryu : Bool) (m : Mem) (iter a len : Nat) : Option (Mem × Nat) :=
  let divisor := 1000000000
  let alow := a % 2 ^ 32
  let lenSub := subLen32 len 9
  if ryu then (jeaHash 7 m iter alow lenSub).map fun m => (m, iter + lenSub)
  else if a ≠ alow then
    let v := a / divisor % 2 ^ 32
    let alow := a % divisor % 2 ^ 32
    (jeaLead m iter v).bind fun s => (jeaF 8 s.1 s.2 alow).map fun r => (r.1, s.2 + 9)
  else (jeaHash 9 m iter alow lenSub).map fun m => (m, iter + lenSub)

/-- `jeaiii_main_len<ryu_mode,false>` for 64 bits (jeaiii_method.h:554-597). -/
def jeaMainLen64 (ryu : Bool) (m : Mem) (iter n len : Nat) : Option Mem :=
  let divisor := 1000000000
  if n / 2 ^ 32 % 2 ^ 32 = 0 then
    jeaHash 9 m iter (n % 2 ^ 32) len
  else
    let a := n / divisor
    let u := n % divisor % 2 ^ 32
    (jeaHighLen64 ryu m iter a len).bind fun s => (jeaF 8 s.1 s.2 u).map (·.1)

/-- The digits above the last nineteen (jeaiii_method.h:514-537, `ryu_mode` off). -/
def jeaHighLen128 (m : Mem) (iter a len : Nat) : Option (Mem × Nat) :=
  let divisor := 10000000000000000000
  let alow := a % 2 ^ 64
  if a ≠ alow then
    let v := a / divisor % 2 ^ 32
    let mid := a % divisor % 2 ^ 64
    (jeaC 0 m iter v).bind fun m => (jeaMainLen64Rec m (iter + 1) mid).map fun m => (m, iter + 1 + 19)
  else
    let lenSub := subLen32 len 19
    (jeaMainLen64 false m iter alow lenSub).map fun m => (m, iter + lenSub)

/-- `jeaiii_main_len<false,false>` for `__uint128_t` (jeaiii_method.h:504-539; the `ryu_mode` branch does not
compile, it assigns `void`, so it is not modelled). -/
def jeaMainLen128 (m : Mem) (iter n len : Nat) : Option Mem :=
  if n / 2 ^ 64 % 2 ^ 64 = 0 then
    jeaMainLen64 false m iter (n % 2 ^ 64) len
  else
    let divisor := 10000000000000000000
    let a := n / divisor
    let u := n % divisor % 2 ^ 64
    (jeaHighLen128 m iter a len).bind fun s => jeaMainLen64Rec s.1 s.2 u

/-- `jeaiii_main_len` by width (jeaiii_method.h:501-610). -/
def jeaMainLen (bits : Nat) (m : Mem) (iter n len : Nat) : Option Mem :=
  if bits = 128 then jeaMainLen128 m iter n len
  else if bits = 64 then jeaMainLen64 false m iter n len
  else jeaMainLen32 false m iter n len

/-! ## Lengths -/

/-- `cal_int_max` (utils.h:864-878): `UINT_MAX`, shifted right once for signed types. -/
def intMax (bits : Nat) (signed : Bool) : Nat := if signed then (2 ^ bits - 1) / 2 else 2 ^ bits - 1

/-- The loop of `cal_max_int_size` (utils.h:895-901); `base ≥ 2` is required for termination, smaller bases
are never instantiated. -/
def countDivs (base n : Nat) : Nat :=
  if h : n = 0 ∨ base < 2 then 0 else countDivs base (n / base) + 1
termination_by n
decreasing_by exact Nat.div_lt_self (by omega) (by omega)

/-- `cal_max_int_size<T,base>` (utils.h:892-902). -/
def maxIntSize (bits : Nat) (signed : Bool) (base : Nat) : Nat := countDivs base (intMax bits signed)

/-- The descending chain of comparisons of `chars_len` for base 10 (utils.h:495-788): the first `k` (from
`top` downwards) such that `10^(k-1) ≤ value`, else 1.  `top` is 39/20/10/5/3 for 128/64/32/16/8 bits. -/
def chainLen10 : Nat → Nat → Nat
  | 0, _ => 1
  | 1, _ => 1
  | k + 2, value => if 10 ^ (k + 1) ≤ value then k + 2 else chainLen10 (k + 1) value

/-- The highest comparison present in `chars_len<10>` for an unsigned type of `bits` bits. -/
def chainTop (bits : Nat) : Nat :=
  if bits = 128 then 39 else if bits = 64 then 20 else if bits = 32 then 10 else if bits = 16 then 5 else 3

/-- `bits - countl_zero(x)` for a non-zero `bits`-bit word: the position of the highest set bit plus one. -/
def bitLen (x : Nat) : Nat := if x = 0 then 0 else Nat.log2 x + 1

/-- The loop of `chars_len` for other bases (utils.h:837-861). -/
def charsLenLoop (base : Nat) (n value : Nat) : Nat :=
  if value < base then n
  else if value < base ^ 2 then n + 1
  else if value < base ^ 3 then n + 2
  else if h : value < base ^ 4 ∨ base < 2 then n + 3
  else charsLenLoop base (n + 4) (value / base ^ 4)
termination_by value
decreasing_by
  have hb : 2 ≤ base := by omega
  have h1 : 2 ^ 4 ≤ base ^ 4 := Nat.pow_le_pow_left hb 4
  exact Nat.div_lt_self (by omega) (by omega)

/-- `chars_len<base,false>` (utils.h:490-862). -/
def charsLen (bits base value : Nat) : Nat :=
  if base = 10 then chainLen10 (chainTop bits) value
  else if base = 2 ∨ base = 4 ∨ base = 8 ∨ base = 16 ∨ base = 32 then
    let base2len :=
      if bits = 128 then
        let high := value / 2 ^ 64 % 2 ^ 64
        if high = 0 then bitLen ((value % 2 ^ 64) ||| 1) else 64 + bitLen high
      else bitLen (value ||| 1)
    if base = 2 then base2len else (base2len - 1) / Nat.log2 base + 1
  else charsLenLoop base 1 value

/-! ## Generic base writer -/

/-- The pair loop of `print_reserve_integral_main_impl` (integers/impl.h:1042-1050): `len2` pairs, written
backwards in front of `iter`; returns memory, pointer and the remaining value. -/
def pairLoop (tb : List Nat) (pw : Nat) : Nat → Mem → Nat → Nat → Option (Mem × Nat × Nat)
  | 0, m, iter, t => some (m, iter, t)
  | i + 1, m, iter, t => do
    let rem := t % pw
    let m ← copyPair tb m (iter - 2) rem
    pairLoop tb pw i m (iter - 2) (t / pw)

/-- `print_reserve_integral_main_impl` for types up to 64 bits (integers/impl.h:1040-1062). -/
def genWord (base : Nat) (upper : Bool) (m : Mem) (iter t len : Nat) : Option Mem := do
  let tb := digitsTable base upper
  let pw := base * base
  let (m, iter, t) ← pairLoop tb pw (len / 2) m iter t
  if len % 2 = 1 then
    if base ≤ 10 then
      return store m (iter - 1) [48 + t]
    else
      let c ← tb[2 * t + 1]?
      return store m (iter - 1) [c]
  else return m

/-- `print_reserve_integral_main_impl` for `__uint128_t` with bases 2, 4, 16 (integers/impl.h:967-977):
high and low words separately.  The recursive calls pass `uppercase=false`. -/
def gen128Pow (base : Nat) (m : Mem) (iter t len : Nat) : Option Mem := do
  let high := t / 2 ^ 64
  let low := t % 2 ^ 64
  let sizet := maxIntSize 64 false base
  if len > sizet then
    let m ← genWord base false m (iter - sizet) high (len - sizet)
    genWord base false m iter low sizet
  else
    genWord base false m iter low len

/-- `print_reserve_integral_main_impl` for `__uint128_t` with the other bases (integers/impl.h:978-1032,
`ryu_mode=false`).  Note `compile_pow10` whatever the base. -/
def gen128Other (base : Nat) (upper : Bool) (m : Mem) (iter t len : Nat) : Option Mem := do
  let basetdigits := maxIntSize 128 false base
  let sizetm1 := maxIntSize 64 false base - 1
  let remain := basetdigits - sizetm1 * 2
  let maxhigh := 10 ^ (sizetm1 * 2) % 2 ^ 128
  let (m, t, len) ←
    if remain = 0 then pure (m, t, len)
    else if maxhigh = 0 then none
    else if remain = 1 then
      if len = basetdigits then
        pure (store m (iter - basetdigits) [48 + t / maxhigh], t % maxhigh, len - 1)
      else pure (m, t, len)
    else
      if len > basetdigits - remain then
        let high := t / maxhigh
        let t := t % maxhigh
        if len = basetdigits then do
          let m ← copyPair (digitsTable base upper) m (iter - basetdigits) (high % 256)
          pure (m, t, len - 2)
        else
          pure (store m (iter + 1 - basetdigits) [48 + high], t, len - 1)
      else pure (m, t, len)
  if len > sizetm1 then
    let half := 10 ^ sizetm1 % 2 ^ 128
    if half = 0 then none
    else
      let high := t / half % 2 ^ 64
      let low := t % half % 2 ^ 64
      let m ← genWord base false m (iter - sizetm1) high (len - sizetm1)
      genWord base false m iter low sizetm1
  else
    genWord base false m iter (t % 2 ^ 64) len

/-- `print_reserve_integral_main_impl<base,uppercase>` (integers/impl.h:955-1064); `bits` is the width after the
caller's cast to `unsigned` of the small types. -/
def genMain (bits base : Nat) (upper : Bool) (m : Mem) (iter t len : Nat) : Option Mem :=
  if bits = 128 then
    if base = 2 ∨ base = 4 ∨ base = 16 then gen128Pow base m iter t len
    else gen128Other base upper m iter t len
  else genWord base upper m iter t len

/-- `print_reserve_integral_withfull_main_impl<full,base,uppercase>` (integers/impl.h:1066-1109). -/
def withFull (bits : Nat) (full : Bool) (base : Nat) (upper : Bool) (m : Mem) (first u : Nat) :
    Option (Mem × Nat) := do
  if full then
    let sz := maxIntSize bits false base
    return (← genMain bits base upper m (first + sz) u sz, first + sz)
  else if base = 10 then jeaMain bits false m first u
  else
    let sz := charsLen bits base u
    return (← genMain bits base upper m (first + sz) u sz, first + sz)

/-- The prefix of `print_reserve_show_base_impl` (integers/impl.h:825-953). -/
def basePrefix (base : Nat) (upperShow : Bool) : List Nat :=
  if base = 2 then [48, if upperShow then 66 else 98]
  else if base = 3 then [48, if upperShow then 84 else 116]
  else if base = 8 then [48]
  else if base = 16 then [48, if upperShow then 88 else 120]
  else if base = 10 then []
  else if base < 10 then [48, 91, 48 + base, 93]
  else [48, 91, 48 + base / 10, 48 + base % 10, 93]

/-- Formatting options: the template arguments of `print_reserve_integral_define`. -/
structure Fmt where
  base : Nat := 10
  showbase : Bool := false
  upperShow : Bool := false
  showpos : Bool := false
  upper : Bool := false
  full : Bool := false

/-- `static_cast<unsigned_type>(t)`, then `zero-u` when negative (integers/impl.h:1151-1188). -/
def absBits (bits : Nat) (t : Int) : Nat :=
  let u := (t % (2 ^ bits : Int)).toNat
  if t < 0 then (2 ^ bits - u) % 2 ^ bits else u

/-- Sign character written in front (integers/impl.h:1153-1188). -/
def signChars (signed showpos : Bool) (t : Int) : List Nat :=
  if showpos then
    if !signed then [43] else if t < 0 then [45] else [43]
  else if signed && decide (t < 0) then [45] else []

/-- `print_reserve_integral_define` for a non-`bool` integer of `bits` bits (integers/impl.h:1123-1195). -/
def printInt (bits : Nat) (signed : Bool) (f : Fmt) (m : Mem) (first : Nat) (t : Int) : Option (Mem × Nat) :=
  let u := absBits bits t
  let s := signChars signed f.showpos t
  let m := store m first s
  let first := first + s.length
  let p := if f.showbase ∧ f.base ≠ 10 then basePrefix f.base f.upperShow else []
  let m := store m first p
  let first := first + p.length
  withFull bits f.full f.base f.upper m first u

/-- `print_reserve_integral_define` for `bool` (integers/impl.h:1139-1149). -/
def printBool (f : Fmt) (m : Mem) (first : Nat) (t : Bool) : Mem × Nat :=
  let s := if f.showpos then [43] else []
  let m := store m first s
  let first := first + s.length
  let p := if f.showbase ∧ f.base ≠ 10 then basePrefix f.base f.upperShow else []
  let m := store m first p
  let first := first + p.length
  (store m first [if t then 49 else 48], first + 1)

/-- Prefix size as counted by the size functions (integers/impl.h:1292-1303). -/
def prefixSize (base : Nat) : Nat :=
  if base = 2 ∨ base = 3 ∨ base = 16 then 2
  else if base = 8 then 1
  else if base < 10 then 4
  else if 10 < base then 5
  else 0

/-- `print_reserve_scalar_size_impl` for a non-`bool` type (integers/impl.h:1282-1316): what callers allocate. -/
def reserveSize (bits : Nat) (signed : Bool) (base : Nat) (showbase showpos : Bool) : Nat :=
  (if showpos then 1 else 0) + (if showbase then prefixSize base else 0)
    + (if !showpos && signed then 1 else 0) + maxIntSize bits signed base

/-- `print_reserve_scalar_cal_precise_cache_size_impl` for a non-`bool` type (integers/impl.h:1326-1364);
the `full` case is nested in the `showbase` case. -/
def preciseCache (bits : Nat) (signed : Bool) (f : Fmt) (full : Bool) : Nat :=
  (if f.showpos then 1 else 0) +
  (if f.showbase then
    prefixSize f.base +
      (if full then (if !f.showpos && signed then 1 else 0) + maxIntSize bits signed f.base else 0)
   else 0)

/-- `print_integer_reserved_precise_size` for a non-`bool` type (integers/impl.h:1374-1416). -/
def preciseSize (bits : Nat) (signed : Bool) (f : Fmt) (t : Int) : Nat :=
  if f.full then
    if !f.showpos && signed then preciseCache bits signed f true + (if t < 0 then 1 else 0)
    else preciseCache bits signed f true
  else
    if signed then
      preciseCache bits signed f false + (if t < 0 then 1 else 0) + charsLen bits f.base (absBits bits t)
    else preciseCache bits signed f false + charsLen bits f.base (absBits bits t)

/-- `print_reserve_integral_define_precise` for a non-`bool` type (integers/impl.h:1197-1280); `n` is the size
announced by `preciseSize`.  The small-type cast is as in `genMain`. -/
def printIntPrecise (bits : Nat) (signed : Bool) (f : Fmt) (m : Mem) (start n : Nat) (t : Int) : Option Mem :=
  let u := absBits bits t
  let s := signChars signed f.showpos t
  let m := store m start s
  let first := start + s.length
  let p := if f.showbase ∧ f.base ≠ 10 then basePrefix f.base f.upperShow else []
  let m := store m first p
  let first := first + p.length
  if f.base = 10 then jeaMainLen bits m first u (n % 2 ^ 32)
  else
    let ed := start + n
    if !signed ∧ !f.showbase ∧ !f.showpos then genMain bits f.base f.upper m ed u n
    else genMain bits f.base f.upper m ed u (ed - first)

end Verif.IntPrint
