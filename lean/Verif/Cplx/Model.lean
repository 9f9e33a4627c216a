import Verif.Float.RtModel
/-!
# Model of printing complex numbers

`include/fast_io_unit/complex.h`.  The two parts are bit patterns, as in `Verif.Float.Model`; that `std::real` and
`std::imag` deliver them is trusted.  Not modelled: the variants with a precision, which have no printing function.
-/
namespace Verif.Cplx
open Verif Verif.IntPrint Verif.Float

/-- `details::print_reserve_complex_impl` (complex.h:364-377), with the function that prints a part. -/
def printPair (comma : Bool) (part : Mem → Nat → Nat → Option (Mem × Nat)) (m : Mem) (iter re im : Nat) :
    Option (Mem × Nat) := do
  let m := store m iter [40]
  let (m, iter) ← part m (iter + 1) re
  let m := store m iter [if comma then 46 else 44]
  let (m, iter) ← part m (iter + 1) im
  let m := store m iter [41]
  return (m, iter + 1)

/-- `print_reserve_define` (complex.h:388-393) for the decimal formats (`floating/impl.h:85-107`). -/
def printComplex (t : Trait) (d : DB) (sizet64 : Bool) (fmt : Format) (f : Flags) : Mem → Nat → Nat → Nat → Option (Mem × Nat) :=
  printPair f.comma (printFlt t d sizet64 fmt f)

/-- The same for the hexadecimal format (`floating/impl.h:66-84`). -/
def printComplexHex (t : Trait) (f : Flags) : Mem → Nat → Nat → Nat → Option (Mem × Nat) :=
  printPair f.comma (printHex t f)

/-- `print_reserve_size` (complex.h:379-386): `v` is the size for a part. -/
def complexSize (v : Nat) : Nat := v * 2 + 3

/-- The flags of `general<uppercase>`, `fixed`, `scientific` and their variants with a comma (complex.h:113-345;
`dcmfloat_mani_flags_cache`, `integers/impl.h:186-187`).  There is no `decimal` for complex numbers. -/
def decFlags (upper comma : Bool) : Flags := { upper := upper, upperE := upper, comma := comma }

/-- The flags of `hexfloat<uppercase>` and `comma_hexfloat` (complex.h:8-111; `hexafloat_mani_flags_cache`,
`integers/impl.h:183-184`). -/
def hexFlags (upper comma : Bool) : Flags :=
  { showbase := true, upperShow := upper, upper := upper, upperE := upper, comma := comma }

/-- `print_alias_define` (complex.h:351-361): a complex number without manipulator is printed by `general<false>`. -/
def printPlain (t : Trait) (d : DB) (sizet64 : Bool) : Mem → Nat → Nat → Nat → Option (Mem × Nat) :=
  printComplex t d sizet64 .general (decFlags false false)

end Verif.Cplx
