import Verif.Core.Mem
/-!
# Model of the copying functions

`include/fast_io_core_impl/freestanding/algorithm.h`, `include/fast_io_core_impl/utils.h`. Elements of one memory
(`Verif.Core.Mem`); `constant` says that the call is evaluated at compile time, where the loops are used instead of the C
library functions. `none` is undefined behaviour. Element types of the same size are identified (the casts between
`std::byte` and one-byte integers keep the value).
-/
namespace Verif.Copy
open Verif

/-- `freestanding::copy_n` (algorithm.h:41-67): the loop from the front. -/
def copyNLoop : Mem → Nat → Nat → Nat → Mem × Nat
  | m, _, d, 0 => (m, d)
  | m, s, d, n + 1 => copyNLoop (store m d [m s]) (s + 1) (d + 1) n

/-- `freestanding::copy` (algorithm.h:69-91). Both branches of its `if constexpr` chain are for a `std::byte` on exactly
one side (`bytes`); there is no third branch. -/
def copyLoop (bytes : Bool) : Mem → Nat → Nat → Nat → Mem × Nat
  | m, _, d, 0 => (m, d)
  | m, s, d, n + 1 => copyLoop bytes (if bytes then store m d [m s] else m) (s + 1) (d + 1) n

/-- `freestanding::fill_n` (algorithm.h:102-110). -/
def fillLoop : Mem → Nat → Nat → Nat → Mem
  | m, _, 0, _ => m
  | m, p, n + 1, v => fillLoop (store m p [v]) (p + 1) n v

/-- `freestanding::copy_backward` (algorithm.h:112-118), with `last-first = n`. -/
def copyBackLoop : Mem → Nat → Nat → Nat → Mem × Nat
  | m, _, d, 0 => (m, d)
  | m, l, d, n + 1 => copyBackLoop (store m (d - 1) [m (l - 1)]) (l - 1) (d - 1) n

/-- `memmove` (C17 7.24.2.2). -/
def memmove (m : Mem) (dst src n : Nat) : Mem := store m dst (load m src n)

/-- `memcpy` (C17 7.24.2.1): undefined if the ranges overlap. -/
def memcpy (m : Mem) (dst src n : Nat) : Option Mem :=
  if src < dst + n ∧ dst < src + n then none else some (store m dst (load m src n))

/-- `memset`. -/
def memset (m : Mem) (p v n : Nat) : Mem := store m p (List.replicate n v)

/-- `non_overlapped_copy_n` (algorithm.h:283-319). -/
def nonOverlappedCopyN (constant : Bool) (m : Mem) (src n dst : Nat) : Option (Mem × Nat) :=
  if constant then some (copyNLoop m src dst n)
  else if n ≠ 0 then (memcpy m dst src n).map fun m => (m, dst + n)
  else some (m, dst + n)

/-- `non_overlapped_copy` (algorithm.h:321-358). -/
def nonOverlappedCopy (constant bytes : Bool) (m : Mem) (first last dst : Nat) : Option (Mem × Nat) :=
  if constant then some (copyLoop bytes m first dst (last - first))
  else
    let n := last - first
    if n ≠ 0 then (memcpy m dst first n).map fun m => (m, dst + n)
    else some (m, dst + n)

/-- `my_copy_n` (algorithm.h:360-394). -/
def myCopyN (constant : Bool) (m : Mem) (src n dst : Nat) : Mem × Nat :=
  if constant then copyNLoop m src dst n
  else (if n ≠ 0 then memmove m dst src n else m, dst + n)

/-- `my_copy` (algorithm.h:396-416) on contiguous ranges. -/
def myCopy (constant : Bool) (m : Mem) (first last dst : Nat) : Mem × Nat :=
  ((myCopyN constant m first (last - first) dst).1, dst + (last - first))

/-- `my_copy` (algorithm.h:412-415) on iterators that are not contiguous, here over an array all the same. -/
def myCopyOther (bytes : Bool) (m : Mem) (first last dst : Nat) : Mem × Nat := copyLoop bytes m first dst (last - first)

/-- `my_copy_backward` (algorithm.h:418-451). -/
def myCopyBackward (constant : Bool) (m : Mem) (first last dlast : Nat) : Mem × Nat :=
  if constant then copyBackLoop m last dlast (last - first)
  else
    let n := last - first
    (if n ≠ 0 then memmove m (dlast - n) first n else m, dlast - n)

/-- `my_fill_n` (utils.h:384-415); `byteSized`: one-byte elements in contiguous memory. -/
def myFillN (constant byteSized : Bool) (m : Mem) (p n v : Nat) : Mem × Nat :=
  if constant then (fillLoop m p n v, p + n)
  else if byteSized then (if n ≠ 0 then memset m p v n else m, p + n)
  else (fillLoop m p n v, p + n)

end Verif.Copy
