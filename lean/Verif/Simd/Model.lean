import Verif.Core.Bytes
/-!
# Model of the vector type: `include/fast_io_core_impl/simd/*.h`

`gcc_clang.h` (compilers with `__gnu__::__vector_size__`), `generic.h` and `generic_operations.h` (other compilers, that is MSVC),
`is_all_zeros.h`, `mask_countr.h`, `prrsv.h`.

The processor instructions are given by their description in the Intel manual; these descriptions are part of the trusted base.
A register is the list of its bytes (lowest address first) where bytes matter, and the list of its elements elsewhere. Floating
point elements and the NEON branches, except the one for `!=`, are not modelled. Signed overflow in `+`, `-`, `*` of `gcc_clang.h`
and in `*` of the generic code is undefined in C++ and wraps here.
-/
namespace Verif.Simd
open Verif

/-! ## Reversing the bytes of every element -/

/-- The arguments of `__builtin_shufflevector` in `swap_endian` (simd/gcc_clang.h:251-392), by vector size and element size. -/
def shuffleTable (bytes w : Nat) : List Nat :=
  match bytes, w with
  | 64, 8 =>
    [7, 6, 5, 4, 3, 2, 1, 0, 15, 14, 13, 12, 11, 10, 9, 8,
     23, 22, 21, 20, 19, 18, 17, 16, 31, 30, 29, 28, 27, 26, 25, 24,
     39, 38, 37, 36, 35, 34, 33, 32, 47, 46, 45, 44, 43, 42, 41, 40,
     55, 54, 53, 52, 51, 50, 49, 48, 63, 62, 61, 60, 59, 58, 57, 56]
  | 64, 4 =>
    [3, 2, 1, 0, 7, 6, 5, 4, 11, 10, 9, 8, 15, 14, 13, 12,
     19, 18, 17, 16, 23, 22, 21, 20, 27, 26, 25, 24, 31, 30, 29, 28,
     35, 34, 33, 32, 39, 38, 37, 36, 43, 42, 41, 40, 47, 46, 45, 44,
     51, 50, 49, 48, 55, 54, 53, 52, 59, 58, 57, 56, 63, 62, 61, 60]
  | 64, 2 =>
    [1, 0, 3, 2, 5, 4, 7, 6, 9, 8, 11, 10, 13, 12, 15, 14,
     17, 16, 19, 18, 21, 20, 23, 22, 25, 24, 27, 26, 29, 28, 31, 30,
     33, 32, 35, 34, 37, 36, 39, 38, 41, 40, 43, 42, 45, 44, 47, 46,
     49, 48, 51, 50, 53, 52, 55, 54, 57, 56, 59, 58, 61, 60, 63, 62]
  | 32, 8 =>
    [7, 6, 5, 4, 3, 2, 1, 0, 15, 14, 13, 12, 11, 10, 9, 8,
     23, 22, 21, 20, 19, 18, 17, 16, 31, 30, 29, 28, 27, 26, 25, 24]
  | 32, 4 =>
    [3, 2, 1, 0, 7, 6, 5, 4, 11, 10, 9, 8, 15, 14, 13, 12,
     19, 18, 17, 16, 23, 22, 21, 20, 27, 26, 25, 24, 31, 30, 29, 28]
  | 32, 2 =>
    [1, 0, 3, 2, 5, 4, 7, 6, 9, 8, 11, 10, 13, 12, 15, 14,
     17, 16, 19, 18, 21, 20, 23, 22, 25, 24, 27, 26, 29, 28, 31, 30]
  | 16, 8 =>
    [7, 6, 5, 4, 3, 2, 1, 0, 15, 14, 13, 12, 11, 10, 9, 8]
  | 16, 4 =>
    [3, 2, 1, 0, 7, 6, 5, 4, 11, 10, 9, 8, 15, 14, 13, 12]
  | 16, 2 =>
    [1, 0, 3, 2, 5, 4, 7, 6, 9, 8, 11, 10, 13, 12, 15, 14]
  | _, _ => []

/-- The masks given to `pshufb` in `swap_endian` (simd/gcc_clang.h:280-409), by vector size and element size. -/
def pshufbMask (bytes w : Nat) : List Nat :=
  match bytes, w with
  | 64, 8 =>
    [7, 6, 5, 4, 3, 2, 1, 0, 15, 14, 13, 12, 11, 10, 9, 8,
     23, 22, 21, 20, 19, 18, 17, 16, 31, 30, 29, 28, 27, 26, 25, 24,
     39, 38, 37, 36, 35, 34, 33, 32, 47, 46, 45, 44, 43, 42, 41, 40,
     55, 54, 53, 52, 51, 50, 49, 48, 63, 62, 61, 60, 59, 58, 57, 56]
  | 64, 4 =>
    [3, 2, 1, 0, 7, 6, 5, 4, 11, 10, 9, 8, 15, 14, 13, 12,
     19, 18, 17, 16, 23, 22, 21, 20, 27, 26, 25, 24, 31, 30, 29, 28,
     35, 34, 33, 32, 39, 38, 37, 36, 43, 42, 41, 40, 47, 46, 45, 44,
     51, 50, 49, 48, 55, 54, 53, 52, 59, 58, 57, 56, 63, 62, 61, 60]
  | 64, 2 =>
    [1, 0, 3, 2, 5, 4, 7, 6, 9, 8, 11, 10, 13, 12, 15, 14,
     17, 16, 19, 18, 21, 20, 23, 22, 25, 24, 27, 26, 29, 28, 31, 30,
     33, 32, 35, 34, 37, 36, 39, 38, 41, 40, 43, 42, 45, 44, 47, 46,
     49, 48, 51, 50, 53, 52, 55, 54, 57, 56, 59, 58, 61, 60, 63, 62]
  | 32, 8 =>
    [7, 6, 5, 4, 3, 2, 1, 0, 15, 14, 13, 12, 11, 10, 9, 8,
     23, 22, 21, 20, 19, 18, 17, 16, 31, 30, 29, 28, 27, 26, 25, 24]
  | 32, 4 =>
    [3, 2, 1, 0, 7, 6, 5, 4, 11, 10, 9, 8, 15, 14, 13, 12,
     19, 18, 17, 16, 23, 22, 21, 20, 27, 26, 25, 24, 31, 30, 29, 28]
  | 32, 2 =>
    [1, 0, 3, 2, 5, 4, 7, 6, 9, 8, 11, 10, 13, 12, 15, 14,
     17, 16, 19, 18, 21, 20, 23, 22, 25, 24, 27, 26, 29, 28, 31, 30]
  | 16, 8 =>
    [7, 6, 5, 4, 3, 2, 1, 0, 15, 14, 13, 12, 11, 10, 9, 8]
  | 16, 4 =>
    [3, 2, 1, 0, 7, 6, 5, 4, 11, 10, 9, 8, 15, 14, 13, 12]
  | 16, 2 =>
    [1, 0, 3, 2, 5, 4, 7, 6, 9, 8, 11, 10, 13, 12, 15, 14]
  | _, _ => []

/-- `__builtin_shufflevector(v,v,idx...)`: element `k` of the result is element `idx[k]` of `v ++ v`. -/
def shufflevector (v idx : List Nat) : List Nat := idx.map fun i => (v ++ v).getD i 0

/-- PSHUFB (Intel manual), on 16, 32 or 64 bytes: byte `k` of the result is zero if bit 7 of mask byte `k` is set, otherwise the
byte of the same 128-bit lane selected by the low four bits. -/
def pshufb (v mask : List Nat) : List Nat :=
  (List.range mask.length).map fun k =>
    let m := mask.getD k 0
    if 128 ≤ m then 0 else v.getD (k / 16 * 16 + m % 16) 0

/-- PUNPCKLBW / PUNPCKHBW: interleave the low / high eight bytes. -/
def punpcklbw (a b : List Nat) : List Nat := (List.range 8).flatMap fun i => [a.getD i 0, b.getD i 0]
@[inherit_doc punpcklbw]
def punpckhbw (a b : List Nat) : List Nat := (List.range 8).flatMap fun i => [a.getD (8 + i) 0, b.getD (8 + i) 0]

/-- PSHUFD: 32-bit element `i` is the element selected by bits `2i, 2i+1` of the immediate. -/
def pshufd (v : List Nat) (imm : Nat) : List Nat :=
  (List.range 4).flatMap fun i => (List.range 4).map fun j => v.getD (4 * (imm / 4 ^ i % 4) + j) 0
/-- PSHUFLW / PSHUFHW: the same for the 16-bit elements of the low / high half; the other half is copied. -/
def pshuflw (v : List Nat) (imm : Nat) : List Nat :=
  ((List.range 4).flatMap fun i => (List.range 2).map fun j => v.getD (2 * (imm / 4 ^ i % 4) + j) 0) ++ v.drop 8
@[inherit_doc pshuflw]
def pshufhw (v : List Nat) (imm : Nat) : List Nat :=
  v.take 8 ++ (List.range 4).flatMap fun i => (List.range 2).map fun j => v.getD (8 + 2 * (imm / 4 ^ i % 4) + j) 0

/-- Conversion of a signed 16-bit number to an unsigned byte with saturation. -/
def saturate (x : Nat) : Nat := if x < 2 ^ 15 then min x 255 else 0
/-- PACKUSWB: the eight 16-bit elements of `a`, then those of `b`, saturated. -/
def packuswb (a b : List Nat) : List Nat :=
  (List.range 8).map (fun i => saturate (a.getD (2 * i) 0 + 256 * a.getD (2 * i + 1) 0)) ++
  (List.range 8).map (fun i => saturate (b.getD (2 * i) 0 + 256 * b.getD (2 * i + 1) 0))

/-- A 16-bit element shifted right / left by eight, or-ed: PSRLW, PSLLW, POR. -/
def rot16 (v : List Nat) : List Nat :=
  (List.range 8).flatMap fun i =>
    let x := v.getD (2 * i) 0 + 256 * v.getD (2 * i + 1) 0
    let y := (x >>> 8) ||| (x <<< 8 % 2 ^ 16)
    [y % 256, y / 256]

/-- The SSE2 branch of `swap_endian` (simd/gcc_clang.h:408-440, simd/generic.h:187-224). -/
def swapSse2 (w : Nat) (v : List Nat) : List Nat :=
  let zero := List.replicate 16 0
  match w with
  | 8 =>
    let res0 := punpcklbw v zero
    let res1 := pshufd res0 78
    let res2 := pshuflw res1 27
    let res3 := pshufhw res2 27
    let res4 := punpckhbw v zero
    let res5 := pshufd res4 78
    let res6 := pshuflw res5 27
    let res7 := pshufhw res6 27
    packuswb res3 res7
  | 4 =>
    let res0 := punpcklbw v zero
    let res2 := pshuflw res0 27
    let res3 := pshufhw res2 27
    let res4 := punpckhbw v zero
    let res6 := pshuflw res4 27
    let res7 := pshufhw res6 27
    packuswb res3 res7
  | 2 => rot16 v
  | _ => v

/-- Which branch of `swap_endian` the preprocessor leaves (simd/gcc_clang.h:259,285,326,345,379,392,408): `nothing` if none of
the builtins is there, for instance GCC before version 12, which lacks `__builtin_shufflevector`, on a target other than x86. -/
inductive SwapVariant where
  | shufflevector | pshufb | sse2 | nothing
deriving DecidableEq

/-- `simd_vector::swap_endian` (simd/gcc_clang.h:239-448) on the bytes of the vector; `w` is `sizeof(T)`. The SSE2 branch exists
for 16 bytes only. -/
def swapEndian (var : SwapVariant) (w : Nat) (v : List Nat) : List Nat :=
  if w = 1 then v
  else match var with
    | .shufflevector => shufflevector v (shuffleTable v.length w)
    | .pshufb => pshufb v (pshufbMask v.length w)
    | .sse2 => if v.length = 16 then swapSse2 w v else v
    | .nothing => v

/-- `create_byte_swap_mask` (simd/generic_operations.h:652-675): the bytes 0, 1, 2, ... read as elements, each byte-swapped, and
read as bytes again (on a little-endian host: generic.h uses the mask on x86 only). -/
def byteSwapMask (w n : Nat) : List Nat :=
  (List.range n).flatMap fun i =>
    leBytes w (byteSwap w (ofLe ((List.range w).map fun j => i * w + j)))

/-- `simd_vector::swap_endian` of simd/generic.h:168-280: PSHUFB with the computed mask (x86 with SSE3 and up), the SSE2 branch,
or the loop over the elements with `byte_swap`. -/
inductive GenericSwap where
  | shuffle | sse2 | loop
deriving DecidableEq
@[inherit_doc GenericSwap]
def swapEndianGeneric (var : GenericSwap) (w : Nat) (v : List Nat) : List Nat :=
  if w = 1 then v
  else match var with
    | .shuffle => pshufb v (byteSwapMask w (v.length / w))
    | .sse2 => swapSse2 w v
    | .loop => (List.range (v.length / w)).flatMap fun i => leBytes w (byteSwap w (ofLe ((v.drop (i * w)).take w)))

/-! ## Operators, `gcc_clang.h` -/

abbrev Vec (n : Nat) := List (BitVec n)

/-- The operators that have a compound assignment. -/
inductive BinOp where
  | add | sub | mul | div | and | or | xor | shl | shr
deriving DecidableEq

/-- What the operators of the compiler's vector type do to one element. -/
def BinOp.lane {n : Nat} (signed : Bool) : BinOp → BitVec n → BitVec n → BitVec n
  | .add, x, y => x + y
  | .sub, x, y => x - y
  | .mul, x, y => x * y
  | .div, x, y => if signed then x.sdiv y else x.udiv y
  | .and, x, y => x &&& y
  | .or, x, y => x ||| y
  | .xor, x, y => x ^^^ y
  | .shl, x, y => x <<< y.toNat
  | .shr, x, y => if signed then x.sshiftRight y.toNat else x >>> y.toNat

/-- `operator+` ... `operator>>` (simd/gcc_clang.h:486-540). -/
def binary {n : Nat} (signed : Bool) (op : BinOp) (a b : Vec n) : Vec n := List.zipWith (op.lane signed) a b

/-- `operator+=` ... `operator>>=` (simd/gcc_clang.h:88-107,171-200): the operator applied to `value`. In `operator>>=` it is
`value<<=other.value` (line 198). -/
def assign {n : Nat} (signed : Bool) (op : BinOp) (a b : Vec n) : Vec n :=
  match op with
  | .shr => List.zipWith (BinOp.lane signed .shl) a b
  | op => List.zipWith (op.lane signed) a b

/-! ## Operators, `generic_operations.h`, integers on x86 -/

/-- `cpu_flags` (simd/cpu_flags.h); `x86` is the architecture test. -/
structure Flags where
  x86 : Bool := true
  sse2 : Bool := false
  avx : Bool := false
  avx2 : Bool := false
  avx512f : Bool := false
  avx512bw : Bool := false
  avx512vl : Bool := false

/-- `sizeof(simd_vector<T,N>)`. -/
def bytes {n : Nat} (a : Vec n) : Nat := a.length * (n / 8)

/-- The result of a vector comparison in one element. -/
def lmask {n : Nat} (b : Bool) : BitVec n := if b then BitVec.allOnes n else 0

/-- `_mm_cmpgt_epi*` (PCMPGT: signed comparison); `_mm_cmplt_epi*(a,b)` is `_mm_cmpgt_epi*(b,a)`. -/
def cmpgtEpi {n : Nat} (a b : Vec n) : Vec n := List.zipWith (fun x y => lmask (BitVec.slt y x)) a b
@[inherit_doc cmpgtEpi]
def cmpltEpi {n : Nat} (a b : Vec n) : Vec n := cmpgtEpi b a
/-- `_mm_cmpeq_epi*` (PCMPEQ). -/
def cmpeqEpi {n : Nat} (a b : Vec n) : Vec n := List.zipWith (fun x y => lmask (x == y)) a b
/-- `_mm*_movm_epi*(_mm*_cmp**_ep[iu]*_mask(a,b))` (VPCMP/VPCMPU, VPMOVM2*). -/
def movmCmp {n : Nat} (p : BitVec n → BitVec n → Bool) (a b : Vec n) : Vec n := (List.zipWith p a b).map lmask

/-- `_mm_xor_si128` with the least signed number in every element. -/
def flipSign {n : Nat} (a : Vec n) : Vec n := a.map fun x => x ^^^ BitVec.twoPow n (n - 1)

/-- `_mm256_castsi256_si128`, `_mm256_extractf128_si256(,1)`, an operation on both halves, `_mm256_insertf128_si256`. -/
def onHalves {n : Nat} (f : Vec n → Vec n → Vec n) (a b : Vec n) : Vec n :=
  let k := a.length / 2
  f (a.take k) (b.take k) ++ f (a.drop k) (b.drop k)

/-- `generic_simd_comparision_common_impl` (simd/generic_operations.h:88-103). -/
def portableCmp {n : Nat} (p : BitVec n → BitVec n → Bool) (a b : Vec n) : Vec n := List.zipWith (fun x y => lmask (p x y)) a b

/-- `<`, `<=` on one element. -/
def lt {n : Nat} (signed : Bool) (x y : BitVec n) : Bool := if signed then x.slt y else x.ult y
@[inherit_doc lt]
def le {n : Nat} (signed : Bool) (x y : BitVec n) : Bool := if signed then x.sle y else x.ule y

/-- `operator<` (simd/generic_operations.h:2283-2575,2702-2705). -/
def vlt {n : Nat} (f : Flags) (signed : Bool) (a b : Vec n) : Vec n :=
  if f.x86 then
    if bytes a = 16 ∧ f.sse2 then
      if f.avx512vl ∧ f.avx512bw then movmCmp (lt signed) a b
      else if n ≤ 32 then
        if signed then cmpltEpi a b else cmpltEpi (flipSign a) (flipSign b)
      else portableCmp (lt signed) a b
    else if bytes a = 32 ∧ f.avx2 then
      if f.avx512vl ∧ f.avx512bw then movmCmp (lt signed) a b
      else if n ≤ 32 then
        if signed then onHalves cmpltEpi a b else onHalves cmpltEpi (flipSign a) (flipSign b)
      else portableCmp (lt signed) a b
    else if bytes a = 64 ∧ f.avx512bw then movmCmp (lt signed) a b
    else portableCmp (lt signed) a b
  else portableCmp (lt signed) a b

/-- `operator>` (simd/generic_operations.h:2707-2999,3126-3129). -/
def vgt {n : Nat} (f : Flags) (signed : Bool) (a b : Vec n) : Vec n :=
  if f.x86 then
    if bytes a = 16 ∧ f.sse2 then
      if f.avx512vl ∧ f.avx512bw then movmCmp (fun x y => lt signed y x) a b
      else if n ≤ 32 then
        if signed then cmpgtEpi a b else cmpgtEpi (flipSign a) (flipSign b)
      else portableCmp (fun x y => lt signed y x) a b
    else if bytes a = 32 ∧ f.avx2 then
      if f.avx512vl ∧ f.avx512bw then movmCmp (fun x y => lt signed y x) a b
      else if n ≤ 32 then
        if signed then onHalves cmpgtEpi a b else onHalves cmpgtEpi (flipSign a) (flipSign b)
      else portableCmp (fun x y => lt signed y x) a b
    else if bytes a = 64 ∧ f.avx512bw then movmCmp (fun x y => lt signed y x) a b
    else portableCmp (fun x y => lt signed y x) a b
  else portableCmp (fun x y => lt signed y x) a b

/-- `operator<=` (simd/generic_operations.h:3131-3340,3466-3469): without AVX-512, for 16 bytes, `return b>a` (line 3192). -/
def vle {n : Nat} (f : Flags) (signed : Bool) (a b : Vec n) : Vec n :=
  if f.x86 then
    if bytes a = 16 ∧ f.sse2 then
      if f.avx512vl ∧ f.avx512bw then movmCmp (le signed) a b
      else if n ≤ 32 then vgt f signed b a
      else portableCmp (le signed) a b
    else if bytes a = 32 ∧ f.avx2 then
      if f.avx512vl ∧ f.avx512bw then movmCmp (le signed) a b
      else portableCmp (le signed) a b
    else if bytes a = 64 ∧ f.avx512bw then movmCmp (le signed) a b
    else portableCmp (le signed) a b
  else portableCmp (le signed) a b

/-- `operator>=` (simd/generic_operations.h:3472-3685,3811-3814): without AVX-512, `return b<a` (lines 3533, 3602). -/
def vge {n : Nat} (f : Flags) (signed : Bool) (a b : Vec n) : Vec n :=
  if f.x86 then
    if bytes a = 16 ∧ f.sse2 then
      if f.avx512vl ∧ f.avx512bw then movmCmp (fun x y => le signed y x) a b
      else if n ≤ 32 then vlt f signed b a
      else portableCmp (fun x y => le signed y x) a b
    else if bytes a = 32 ∧ f.avx2 then
      if f.avx512vl ∧ f.avx512bw then movmCmp (fun x y => le signed y x) a b
      else if n ≤ 32 then vlt f signed b a
      else portableCmp (fun x y => le signed y x) a b
    else if bytes a = 64 ∧ f.avx512bw then movmCmp (fun x y => le signed y x) a b
    else portableCmp (fun x y => le signed y x) a b
  else portableCmp (fun x y => le signed y x) a b

/-- `operator==` (simd/generic_operations.h:3817-3891,4021-4024). -/
def veq {n : Nat} (f : Flags) (a b : Vec n) : Vec n :=
  if f.x86 then
    if bytes a = 16 ∧ f.sse2 then cmpeqEpi a b
    else if bytes a = 32 ∧ f.avx2 then cmpeqEpi a b
    else if bytes a = 64 ∧ f.avx512f then movmCmp (· == ·) a b
    else portableCmp (· == ·) a b
  else portableCmp (· == ·) a b

/-- `operator!=` (simd/generic_operations.h:4026-4110,4236-4241), on x86 and without vector instructions. -/
def vne {n : Nat} (f : Flags) (a b : Vec n) : Vec n :=
  if ((bytes a = 16 ∧ f.sse2) ∨ (bytes a = 32 ∧ f.avx2)) ∧ ¬ (f.avx512f ∧ f.avx512bw ∧ f.avx512vl) then
    veq f (List.replicate a.length 0) (veq f a b)
  else if f.x86 ∧ f.avx512f ∧ f.avx512bw ∧ f.avx512vl ∧ (bytes a = 16 ∧ f.sse2 ∨ bytes a = 32 ∧ f.avx2 ∨ bytes a = 64) then
    movmCmp (· != ·) a b
  else portableCmp (· != ·) a b

/-- `operator!=` on ARM (simd/generic_operations.h:4111-4234): `vtst`, which tests `a & b`. -/
def vneNeon {n : Nat} (a b : Vec n) : Vec n := List.zipWith (fun x y => lmask (x &&& y != 0)) a b

/-- `wrap_add_common`, `wrap_minus_common` (simd/generic_operations.h:111-250,366-379,381-520,636-650): `_mm*_add_epi*` or the
loop. -/
def vadd {n : Nat} (a b : Vec n) : Vec n := List.zipWith (· + ·) a b
@[inherit_doc vadd]
def vsub {n : Nat} (a b : Vec n) : Vec n := List.zipWith (· - ·) a b

/-- `_mm*_mul_epi32`, `_mm*_mul_epu32` (PMULDQ, PMULUDQ): the products, with 64 bits, of the elements with even number. -/
def mulEven {n : Nat} (signed : Bool) : Vec n → Vec n → Vec n
  | x :: _ :: a, y :: _ :: b =>
    let p : BitVec (2 * n) := if signed then x.signExtend (2 * n) * y.signExtend (2 * n) else x.zeroExtend (2 * n) * y.zeroExtend (2 * n)
    p.truncate n :: (p >>> n).truncate n :: mulEven signed a b
  | _, _ => []

/-- `operator*` (simd/generic_operations.h:710-840,993-996). -/
def vmul {n : Nat} (f : Flags) (signed : Bool) (a b : Vec n) : Vec n :=
  if f.x86 ∧ n = 32 ∧ (bytes a = 16 ∧ f.sse2 ∨ bytes a = 32 ∧ f.avx2 ∨ bytes a = 64 ∧ f.avx512bw) then mulEven signed a b
  else List.zipWith (· * ·) a b

/-- `operator/` (simd/generic_operations.h:999-1150,1217-1220): `_mm*_div_epi*`, which divide signed numbers. -/
def vdiv {n : Nat} (f : Flags) (signed : Bool) (a b : Vec n) : Vec n :=
  if f.x86 ∧ (bytes a = 16 ∧ f.sse2 ∨ bytes a = 32 ∧ f.avx2 ∨ bytes a = 64 ∧ f.avx512bw) then List.zipWith BitVec.sdiv a b
  else List.zipWith (BinOp.lane signed .div) a b

/-- The branch for shifts by a number: `_mm*_slli_epi*` exist for 16, 32 and 64 bits. -/
def shiftBranch {n : Nat} (f : Flags) (a : Vec n) : Prop :=
  f.x86 ∧ 16 ≤ n ∧ n ≤ 64 ∧ (bytes a = 16 ∧ f.sse2 ∨ bytes a = 32 ∧ (f.avx2 ∨ f.avx) ∨ bytes a = 64 ∧ f.avx512bw)
instance {n : Nat} (f : Flags) (a : Vec n) : Decidable (shiftBranch f a) := by unfold shiftBranch; infer_instance

/-- `operator<<(simd_vector,unsigned)` (simd/generic_operations.h:1871-1965,2071-2075). -/
def vshl {n : Nat} (f : Flags) (a : Vec n) (k : Nat) : Vec n :=
  if shiftBranch f a then a.map fun (x : BitVec n) => if n ≤ k then 0 else x <<< k
  else a.map fun (x : BitVec n) => x <<< k

/-- `operator>>(simd_vector,unsigned)` (simd/generic_operations.h:2077-2171,2277-2281): `_mm*_srli_epi*`, the shift that brings in
zeros, or the shift of the element type. -/
def vshr {n : Nat} (f : Flags) (signed : Bool) (a : Vec n) (k : Nat) : Vec n :=
  if shiftBranch f a then a.map fun (x : BitVec n) => if n ≤ k then 0 else x >>> k
  else a.map fun (x : BitVec n) => if signed then x.sshiftRight k else x >>> k

/-! ## Tests of whole vectors -/

/-- PMOVMSKB, `wasm_bitmask_i8x16`: bit `i` is the top bit of byte `i`. -/
def pmovmskb : List Nat → Nat
  | [] => 0
  | b :: v => (if 128 ≤ b then 1 else 0) + 2 * pmovmskb v

/-- `__builtin_ia32_ptestmb512(a,a,-1)`, `_mm512_test_epi8_mask(a,a)` (VPTESTMB): bit `i` is set if byte `i` of `a & a` is not zero. -/
def vptestmb : List Nat → Nat
  | [] => 0
  | b :: v => (if b &&& b ≠ 0 then 1 else 0) + 2 * vptestmb v

/-- The elements of `w` bytes. -/
def elements (w : Nat) (v : List Nat) : List Nat := (List.range (v.length / w)).map fun i => ofLe ((v.drop (i * w)).take w)

/-- `is_all_zeros_recursive_impl` (simd/is_all_zeros.h:51-71). -/
def isAllZerosRec : List Nat → Bool
  | [] => true
  | [x] => x == 0
  | [x, y] => x == 0 && y == 0
  | x :: l => x == 0 && isAllZerosRec l

/-- The branches of `is_all_zeros_impl` (simd/is_all_zeros.h:73-197). -/
inductive ZeroVariant where
  | ptest | movmskb | maxU32 | ptestm | words
deriving DecidableEq

/-- `is_all_zeros` (simd/is_all_zeros.h:73-211) on the bytes of the vector: PTEST (16 bytes with SSE4.1, 32 with AVX2), the top bits
of the bytes (SSE2, wasm), the largest 32-bit element (ARM64), VPTESTMB (64 bytes, AVX512BW, lines 169-190) and the loop over the
64-bit elements. -/
def isAllZeros (var : ZeroVariant) (v : List Nat) : Bool :=
  match var with
  | .ptest => v.all fun b => (b &&& b) == 0
  | .movmskb => pmovmskb v == 0
  | .maxU32 => (elements 4 v).foldl max 0 == 0
  | .ptestm => vptestmb v != 0
  | .words => isAllZerosRec (elements 8 v)

/-- `std::countr_zero`, `std::countr_one` of an unsigned number with `bits` bits. -/
def countr (zero : Bool) : Nat → Nat → Nat
  | 0, _ => 0
  | bits + 1, x => if (x % 2 == 0) = zero then countr zero bits (x / 2) + 1 else 0

/-- `std::bit_width`. -/
def bitWidth (x : Nat) : Nat := if x = 0 then 0 else Nat.log2 x + 1

/-- `vector_mask_countr_recursive_impl` (simd/mask_countr.h:9-58). -/
def countrRec (zero : Bool) : Nat → List Nat → Nat
  | _, [] => 0
  | pos, [e] => 64 * pos + countr zero 64 e
  | pos, e :: l => if e = (if zero then 0 else 2 ^ 64 - 1) then countrRec zero (pos + 1) l else 64 * pos + countr zero 64 e

/-- The branches of `vector_mask_countr_common_impl` (simd/mask_countr.h:60-200): `portable` (lines 60-71), `movmskb` (lines
90-183), and `empty`: 16 bytes on ARM, where lines 99-128 leave no code. -/
inductive CountVariant where
  | portable | movmskb | empty
deriving DecidableEq

/-- `vector_mask_countr_zero`, `vector_mask_countr_one` (simd/mask_countr.h:60-221) on the bytes of a vector of `w`-byte elements. -/
def maskCountr (var : CountVariant) (zero : Bool) (w : Nat) (v : List Nat) : Nat :=
  match var with
  | .portable => countrRec zero 0 (elements 8 v) >>> bitWidth (w * 8)
  | .movmskb =>
    let d := countr zero v.length (pmovmskb v)
    if w = 1 then d else d >>> (bitWidth (w * 8) - 3)
  | .empty => 0

/-- The bytes of a vector of elements (little-endian). -/
def toBytes {n : Nat} (v : Vec n) : List Nat := v.flatMap fun x => leBytes (n / 8) x.toNat

/-! ## Printing -/

/-- `print_reserve_df_mm_impl` (simd/prrsv.h:8-27), for an element printer. -/
def printVector {α : Type} (pr : α → List Nat) : List α → List Nat
  | [] => []
  | x :: l => 40 :: (pr x ++ (l.flatMap fun y => 44 :: pr y) ++ [41])

/-- `print_reserve_size` of a vector (simd/prrsv.h:31-37). -/
def printVectorSize (p n : Nat) : Nat := (1 + p) * n + 1

end Verif.Simd
