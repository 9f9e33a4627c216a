import Verif.IntPrint.Spec
/-!
# LEB128, independently of the implementation

A number is a non-empty sequence of groups of seven bits, least significant group first; every group but the last is
marked by adding 128.  The signed reading takes the last group in two's complement.
-/
namespace Verif.Leb
open Verif

/-- The bytes of a group sequence. -/
def groupBytes : List Nat → List Nat
  | [] => []
  | [g] => [g]
  | g :: h :: t => (g + 128) :: groupBytes (h :: t)

/-- Unsigned value of a group sequence. -/
def unsignedValue : List Nat → Int
  | [] => 0
  | g :: t => g + 128 * unsignedValue t

/-- Signed value: the last group is a two's complement 7-bit number. -/
def signedValue : List Nat → Int
  | [] => 0
  | [g] => if g < 64 then g else (g : Int) - 128
  | g :: h :: t => g + 128 * signedValue (h :: t)

/-- A well-formed group sequence. -/
def Groups (gs : List Nat) : Prop := gs ≠ [] ∧ ∀ g ∈ gs, g < 128

/-- The value of a group sequence for a type. -/
def value (signed : Bool) (gs : List Nat) : Int := if signed then signedValue gs else unsignedValue gs

/-- How many groups a number of `bits` bits may take: `⌈bits/7⌉`. -/
def maxGroups (bits : Nat) : Nat := (bits + 6) / 7

end Verif.Leb
