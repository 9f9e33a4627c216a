import Verif.Core.Bytes
import Verif.IntPrint.Lemmas2
import Verif.IntPrint.Spec
/-!
# Model of `include/fast_io_freestanding_impl/serializations/lebe.h`

`native`/`le` say whether the host/the requested order is little endian. An unsigned 128-bit type is assumed
(`__SIZEOF_INT128__`); the floating point manipulators are `bit_cast`s to the unsigned type followed by the integer
functions and are covered as unsigned values.
-/
namespace Verif.Lebe
open Verif Verif.IntPrint

/-- The object representation of an `n`-byte unsigned integer on the host (`bit_cast`/`memcpy`, lebe.h:307-366,537-556). -/
def repr (native : Bool) (n u : Nat) : List Nat := if native then leBytes n u else beBytes n u

/-- The integer with the given object representation. -/
def ofRepr (native : Bool) (l : List Nat) : Nat := if native then ofLe l else ofBe l

/-- `lebe_put<en,sz>(t)` (lebe.h:124-144) for a type of `bits` bits: `none` is the `throw_parse_code(invalid)`, otherwise
the value of the `proxy_type` of `sz` bits. -/
def lebePut (sz bits : Nat) (t : Int) : Option Nat :=
  let u := (t % 2 ^ bits).toNat
  if sz < bits then
    let half := (1 * 2 ^ (sz - 1)) % 2 ^ bits
    let mx := ((half + (2 ^ bits - 1)) % 2 ^ bits + half) % 2 ^ bits
    if mx < u then none else some (u % 2 ^ sz)
  else some (u % 2 ^ sz)

/-- A store of `memcpy(iter,&u,1)` into a character of `cw` bits that held `old` (lebe.h:543-557): only the byte at the
lowest address of the character is overwritten. -/
def pokeByte (native : Bool) (cw old u : Nat) : Nat :=
  ofRepr native (u % 256 :: (repr native (cw / 8) old).drop 1)

/-- `print_reserve_define_integer_lebe_common_impl` (lebe.h:507-560) at run time: the characters left in the `sz/8`
places that held `old`. For more than one byte each byte is converted to a character (`non_overlapped_copy_n`); a single
byte is copied with `memcpy`. -/
def printLebe (native le : Bool) (sz cw u : Nat) (old : List Nat) : List Nat :=
  let n := sz / 8
  let u := if native ≠ le then byteSwap n u else u
  if 1 < n then repr native n u
  else (old.take 1).map fun o => pokeByte native cw o u

inductive Code | ok | invalid
deriving DecidableEq, Repr

/-- `scan_precise_reserve_define_integer_common_largechartype_impl` (lebe.h:280-331) and
`scan_precise_reserve_define_integer_common_impl` (lebe.h:333-382): the characters to the proxy integer, `none` when a
wide character is not a byte. -/
def readLebe (native le : Bool) (cw : Nat) (l : List Nat) : Option Nat :=
  if 8 < cw ∧ l.any (fun c => decide (255 < c)) then none
  else
    let t := ofRepr native l
    some (if native ≠ le then byteSwap l.length t else t)

/-- The integer of type (`bits`, `signed`) with the given bits. -/
def fromBits (bits : Nat) (signed : Bool) (w : Nat) : Int :=
  if signed ∧ 2 ^ (bits - 1) ≤ w then (w : Int) - 2 ^ bits else w

/-- `scan_precise_reserve_define_integer_impl` (lebe.h:384-428) on `n/8` characters. (For one-byte characters and
`bits < n` the function does not compile: it returns a value from a `void` function.) -/
def getLebe (native le : Bool) (n bits : Nat) (signed : Bool) (cw : Nat) (l : List Nat) : Code × Option Int :=
  match readLebe native le cw l with
  | none => (.invalid, none)
  | some temp =>
    if bits < n then
      if 2 ^ bits - 1 < temp then (.invalid, none)
      else (.ok, some (fromBits bits signed (temp % 2 ^ bits)))
    else (.ok, some (fromBits bits signed (temp % 2 ^ bits)))

end Verif.Lebe
