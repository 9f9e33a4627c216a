import Mathlib.Algebra.Polynomial.Div
import Mathlib.Data.ZMod.Basic
/-!
# What a (reflected) 32-bit CRC is

The CRC of a byte string is a remainder of polynomials over the field with two elements: the bits of the message (each
byte least significant bit first) are the coefficients of a polynomial, highest power first. The 32-bit register value `r`
stands for the polynomial of degree below 32 whose coefficient of `x^(31-j)` is bit `j` of `r`.
-/
namespace Verif.Hash.Crc
open Polynomial

/-- The polynomial of a register value. -/
noncomputable def regPoly (r : BitVec 32) : (ZMod 2)[X] :=
  ∑ j ∈ Finset.range 32, if r.getLsbD j then X ^ (31 - j) else 0

/-- The bits of a byte, least significant first. -/
def bitsOf (b : Nat) : List Bool := (List.range 8).map fun i => b.testBit i

/-- The bits of a message. -/
def msgBits (m : List Nat) : List Bool := m.flatMap bitsOf

/-- Coefficients, highest power first. -/
noncomputable def bitsPoly (l : List Bool) : (ZMod 2)[X] := l.foldl (fun p b => p * X + if b then 1 else 0) 0

/-- The generator whose lower 32 coefficients are given (reflected) by `poly`. -/
noncomputable def generator (poly : BitVec 32) : (ZMod 2)[X] := X ^ 32 + regPoly poly

/-- CRC-32 (IEEE 802.3): x^32+x^26+x^23+x^22+x^16+x^12+x^11+x^10+x^8+x^7+x^5+x^4+x^2+x+1. -/
noncomputable def ieee : (ZMod 2)[X] :=
  X ^ 32 + X ^ 26 + X ^ 23 + X ^ 22 + X ^ 16 + X ^ 12 + X ^ 11 + X ^ 10 + X ^ 8 + X ^ 7 + X ^ 5 + X ^ 4 + X ^ 2 + X + 1

/-- CRC-32C (Castagnoli): x^32+x^28+x^27+x^26+x^25+x^23+x^22+x^20+x^19+x^18+x^14+x^13+x^11+x^10+x^9+x^8+x^6+1. -/
noncomputable def castagnoli : (ZMod 2)[X] :=
  X ^ 32 + X ^ 28 + X ^ 27 + X ^ 26 + X ^ 25 + X ^ 23 + X ^ 22 + X ^ 20 + X ^ 19 + X ^ 18 + X ^ 14 + X ^ 13 + X ^ 11 +
    X ^ 10 + X ^ 9 + X ^ 8 + X ^ 6 + 1

/-- `v` is the CRC of `m` for the generator `g`: initial value and final complement all ones. -/
def IsCrc (g : (ZMod 2)[X]) (m : List Nat) (v : BitVec 32) : Prop :=
  regPoly (~~~ v) = (bitsPoly (msgBits m) * X ^ 32 + regPoly 0xffffffff#32 * X ^ (8 * m.length)) %ₘ g

end Verif.Hash.Crc
