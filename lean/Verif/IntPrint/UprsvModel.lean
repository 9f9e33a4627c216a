import Verif.IntPrint.Model
import Mathlib.Algebra.Group.Nat.Defs
/-!
# Model of the second integer printer (`uprsv`)

Models `include/fast_io_core_impl/integers/uprsv/dec.h`, `hex.h` and `impl.h`.  `uprsv_main` is compiled with
the library but its only call (integers/impl.h:1088-1091) is switched off by `if constexpr(false)`, so no
printing function reaches it; the theorems about it say what switching it on would do.

Conventions of `Verif.IntPrint.Model`: `none` is a read outside the digits table; the `[[assume]]` attributes
are not modelled (the partial theorems show that the assumed facts hold, because each table read succeeds).
-/
namespace Verif.IntPrint
open Verif

/-- `typed_memcpy(iter,digitstb+idx,tocopybytes)`: two characters of the table starting at index `idx`
(uprsv/dec.h:41 and the other copies). -/
def copyAt (tb : List Nat) (m : Mem) (iter idx : Nat) : Option Mem := do
  let c0 ← tb[idx]?
  let c1 ← tb[idx + 1]?
  return store m iter [c0, c1]

/-- The leading one or two digits: `typed_memcpy(iter,digitstb+lessthan+(v<<1),..); iter+=1+(!lessthan)`
(uprsv/dec.h:40-42, 52-54, 68-70, 79-81; uprsv/hex.h:33-35, 41-43, 57-59, 71-73).  Both characters are written
even if only one is kept. -/
def uLead (base : Nat) (upper : Bool) (m : Mem) (iter v : Nat) : Option (Mem × Nat) := do
  let less := if v < base then 1 else 0
  let m ← copyAt (digitsTable base upper) m iter (less + 2 * v)
  return (m, iter + (2 - less))

/-- `low=umul_least_32(low,100,high); typed_memcpy(iter,digitstb+(high<<1),..)` at `iter+off`
(uprsv/dec.h:82-86, 90-94, 96-100, 115-131); the state is the memory and the 64-bit product whose low half is
`low`.  The last step of each run uses `umulh_least_32`, which drops the low half. -/
def uPair (off iter : Nat) (s : Mem × Nat) : Option (Mem × Nat) := do
  let t := 100 * (s.2 % 2 ^ 32)
  let m ← copyPair (digitsTable 10 false) s.1 (iter + off) (t / 2 ^ 32)
  return (m, t)

/-- `magic48` (uprsv/dec.h:29-30). -/
def magic48 : Nat := 281474977

/-- `magic32` (uprsv/dec.h:26-27). -/
def magic32 : Nat := 429497

/-- `magic24` (uprsv/dec.h:23-24). -/
def magic24 : Nat := 2 ^ 24 / 100 + 1

/-- `uprsv_handle8_impl<true>` (uprsv/dec.h:31-104, 135): the leading digits, `n < 10^8`. -/
def uFirst8 (m : Mem) (iter n : Nat) : Option (Mem × Nat) :=
  if n < 10000 then
    if n < 100 then uLead 10 false m iter n
    else do
      let f0 := n * magic24 % 2 ^ 32
      let f2 := (f0 % 2 ^ 24 * 100) % 2 ^ 32 / 2 ^ 24
      let f01 := f0 / 2 ^ 24
      let (m, iter) ← uLead 10 false m iter f01
      let m ← copyPair (digitsTable 10 false) m iter f2
      return (m, iter + 2)
  else if n < 1000000 then do
    let t := n * magic32
    let (m, iter) ← uLead 10 false m iter (t / 2 ^ 32)
    let s ← uPair 0 iter (m, t)
    let s ← uPair 2 iter s
    return (s.1, iter + 4)
  else do
    let t := magic48 * n % 2 ^ 64 / 2 ^ 16
    let (m, iter) ← uLead 10 false m iter (t / 2 ^ 32)
    let s ← uPair 0 iter (m, t)
    let iter := iter + 2
    let s ← uPair 0 iter s
    let s ← uPair 2 iter s
    return (s.1, iter + 4)

/-- `uprsv_handle8_impl<false>` (uprsv/dec.h:105-135): eight digits with leading zeros. -/
def uNext8 (m : Mem) (iter n : Nat) : Option (Mem × Nat) := do
  let t := magic48 * n % 2 ^ 64 / 2 ^ 16
  let m ← copyPair (digitsTable 10 false) m iter (t / 2 ^ 32)
  let s ← uPair 2 iter (m, t)
  let s ← uPair 4 iter s
  let s ← uPair 6 iter s
  return (s.1, iter + 8)

/-- `uprsv32_impl` (uprsv/dec.h:138-159). -/
def uDec32 (m : Mem) (iter n : Nat) : Option (Mem × Nat) := do
  let first8 := if n < 10 ^ 8 then n else n / 10 ^ 8
  let (m, iter) ← uFirst8 m iter first8
  if n < 10 ^ 8 then return (m, iter) else uNext8 m iter (n - first8 * 10 ^ 8)

/-- `uprsv64_impl` (uprsv/dec.h:161-200). -/
def uDec64 (m : Mem) (iter n : Nat) : Option (Mem × Nat) := do
  let first16 := if n < 10 ^ 8 then n else n / 10 ^ 8
  let first8 := (if first16 < 10 ^ 8 then first16 else first16 / 10 ^ 8) % 2 ^ 32
  let (m, iter) ← uFirst8 m iter first8
  if n < 10 ^ 8 then return (m, iter)
  else
    let (m, iter) ← if first16 < 10 ^ 8 then some (m, iter) else uNext8 m iter (first16 % 10 ^ 8)
    uNext8 m iter (n - first16 * 10 ^ 8)

/-- `uprsv128_18digits_impl` (uprsv/dec.h:204-232): eighteen digits with leading zeros. -/
def uNext18 (m : Mem) (iter n : Nat) : Option (Mem × Nat) := do
  let a12 := n / 10 ^ 8
  let a3 := n % 10 ^ 8
  let a1 := a12 / 10 ^ 8 % 2 ^ 32
  let a2 := a12 % 10 ^ 8
  let m ← copyPair (digitsTable 10 false) m iter a1
  let (m, iter) ← uNext8 m (iter + 2) a2
  uNext8 m iter a3

/-- `uprsv128_impl` (uprsv/dec.h:234-282). -/
def uDec128 (m : Mem) (iter n : Nat) : Option (Mem × Nat) :=
  if n / 2 ^ 64 = 0 then uDec64 m iter (n % 2 ^ 64)
  else if n < 10 ^ 36 then do
    let (m, iter) ← uDec64 m iter (n / 10 ^ 18 % 2 ^ 64)
    uNext18 m iter (n % 10 ^ 18)
  else do
    let (m, iter) ← uDec32 m iter (n / 10 ^ 36 % 2 ^ 32)
    let (m, iter) ← uNext18 m iter (n % 10 ^ 36 / 10 ^ 18)
    uNext18 m iter (n % 10 ^ 36 % 10 ^ 18)

/-- `uprsv_main<10,_>` by the width of the type (uprsv/impl.h:21-43). -/
def uDec (bits : Nat) (m : Mem) (iter n : Nat) : Option (Mem × Nat) :=
  if bits ≤ 32 then uDec32 m iter n else if bits ≤ 64 then uDec64 m iter n else uDec128 m iter n

/-- `uprsv_hex_handle8_impl<true>` (uprsv/hex.h:25-87, 101). -/
def uHexFirst (upper : Bool) (m : Mem) (iter n : Nat) : Option (Mem × Nat) :=
  let tb := digitsTable 16 upper
  if n < 0x10000 then
    if n < 0x100 then uLead 16 upper m iter n
    else do
      let f0 := n / 2 ^ 8
      let f2 := f0 % 2 ^ 8
      let (m, iter) ← uLead 16 upper m iter f0
      let m ← copyAt tb m iter f2
      return (m, iter + 2)
  else if n < 0x1000000 then do
    let f0 := n / 2 ^ 16
    let f2 := n / 2 ^ 8 % 2 ^ 8
    let f4 := n % 2 ^ 8
    let (m, iter) ← uLead 16 upper m iter f0
    let m ← copyPair tb m iter f2
    let m ← copyPair tb m (iter + 2) f4
    return (m, iter + 4)
  else do
    let f0 := n / 2 ^ 24
    let f2 := n / 2 ^ 16 % 2 ^ 8
    let f4 := n / 2 ^ 8 % 2 ^ 8
    let f6 := n % 2 ^ 8
    let (m, iter) ← uLead 16 upper m iter f0
    let m ← copyPair tb m iter f2
    let m ← copyPair tb m (iter + 2) f4
    let m ← copyPair tb m (iter + 4) f6
    return (m, iter + 6)

/-- `uprsv_hex_handle8_impl<false>` (uprsv/hex.h:88-101): eight digits with leading zeros. -/
def uHexNext (upper : Bool) (m : Mem) (iter n : Nat) : Option (Mem × Nat) := do
  let tb := digitsTable 16 upper
  let m ← copyPair tb m iter (n / 2 ^ 24)
  let m ← copyPair tb m (iter + 2) (n / 2 ^ 16 % 2 ^ 8)
  let m ← copyPair tb m (iter + 4) (n / 2 ^ 8 % 2 ^ 8)
  let m ← copyPair tb m (iter + 6) (n % 2 ^ 8)
  return (m, iter + 8)

/-- `uprsv_hex32_impl`, `uprsv_hex64_impl` (uprsv/hex.h:104-123). -/
def uHex64 (bits : Nat) (upper : Bool) (m : Mem) (iter n : Nat) : Option (Mem × Nat) :=
  if bits ≤ 32 then uHexFirst upper m iter n
  else do
    let high := n / 2 ^ 32
    let low := n % 2 ^ 32
    let (m, iter) ← uHexFirst upper m iter (if high ≠ 0 then high else low)
    if high ≠ 0 then uHexNext upper m iter low else return (m, iter)

/-- `uprsv_hex64_notfirst_impl` (uprsv/hex.h:127-135). -/
def uHexNext16 (upper : Bool) (m : Mem) (iter n : Nat) : Option (Mem × Nat) := do
  let (m, iter) ← uHexNext upper m iter (n / 2 ^ 32)
  uHexNext upper m iter (n % 2 ^ 32)

/-- `uprsv_hex128_impl` (uprsv/hex.h:137-149). -/
def uHex128 (upper : Bool) (m : Mem) (iter n : Nat) : Option (Mem × Nat) := do
  let high := n / 2 ^ 64
  let low := n % 2 ^ 64
  let (m, iter) ← uHex64 64 upper m iter (if high ≠ 0 then high else low)
  if high ≠ 0 then uHexNext16 upper m iter low else return (m, iter)

/-- `uprsv_main<16,_>` by the width of the type (uprsv/impl.h:45-63). -/
def uHex (bits : Nat) (upper : Bool) (m : Mem) (iter n : Nat) : Option (Mem × Nat) :=
  if bits ≤ 64 then uHex64 bits upper m iter n else uHex128 upper m iter n

end Verif.IntPrint
