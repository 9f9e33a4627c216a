import Verif.Hash.Sha2Model
/-!
# Model of the vector SHA-2 code: `sha256_simd16.h`, `sha512_simd16.h`, `sha512_simd32.h`, `sha512_simd32_shuffle.h`
(under `include/fast_io_crypto/hash/`)

A `simd_vector<T,N>` is the list of its `N` lanes; `>>`, `<<`, `^` and `wrap_add_assign` act lane by lane. The calls made for
one block are kept as tables, one row per call, in the order written; the tables were generated from the source text.
Registers `a`..`h` are numbers 0..7. The local arrays `w`, `wt`, `wt0`, `wt1`, uninitialised in the source, start as zeros.
-/
namespace Verif.Hash.Simd
open Verif Verif.Hash Verif.Hash.Sha2

/-- `simd_vector<std::uint_least32_t,4>`, `simd_vector<std::uint_least64_t,2>`, `simd_vector<std::uint_least64_t,4>`
(simd/gcc_clang.h:35-40). -/
abbrev Vec (w : Nat) := List (BitVec w)

/-- `operator>>` with a scalar (simd/generic_operations.h). -/
def vshr {w : Nat} (v : Vec w) (k : Nat) : Vec w := v.map fun (x : BitVec w) => x >>> k
/-- `operator<<` with a scalar. -/
def vshl {w : Nat} (v : Vec w) (k : Nat) : Vec w := v.map fun (x : BitVec w) => x <<< k
/-- `operator^`. -/
def vxor {w : Nat} (a b : Vec w) : Vec w := List.zipWith (· ^^^ ·) a b
/-- `wrap_add_assign` (simd/gcc_clang.h:119-141). -/
def vadd {w : Nat} (a b : Vec w) : Vec w := List.zipWith (· + ·) a b
/-- `load` from an array of words (simd/gcc_clang.h:56-59). -/
def vload {w : Nat} (n : Nat) (a : List (BitVec w)) (off : Nat) : Vec w := (List.range n).map fun i => a.getD (off + i) 0
/-- `store` to an array of words (simd/gcc_clang.h:63-66). -/
def vstore {w : Nat} (a : List (BitVec w)) (off : Nat) (v : Vec w) : List (BitVec w) :=
  (List.range v.length).foldl (fun a i => a.set (off + i) (v.getD i 0)) a

/-- The call `byte_swap_message(simd,blocks_start,w,wt,r)` storing at `wt_buf + off`; `compute_message(simd,w,wt,r)` storing
at `wt_buf + off`; `scalar_round(wt_buf[idx],args,bpc)`; and the call of `sha512_simd32_compute_message_4rounds` of
`sha512_simd32_shuffle.h`, which also does four rounds from `wt_rd` with the eight registers `args`; `half` is
`simd2{__builtin_shufflevector(simd.value,simd.value,2,3)}`. -/
inductive Op where
  | load (buf off r : Nat)
  | comp (buf off r : Nat)
  | rnd (buf idx : Nat) (args : List Nat)
  | mix (rd buf r : Nat) (args : List Nat)
  | half
deriving DecidableEq

/-- The local variables of a vector `runtime_routine`: `a`..`h`, `bpc`, `simd` (`simd2` from `simd32`), `w[]`, and the arrays
`wt` / `wt0`,`wt1`. -/
structure VSt (w : Nat) where
  regs : List (BitVec w)
  bpc : BitVec w
  simd : Vec w
  wt : List (List (BitVec w))
  wd : List (BitVec w)

/-- Writing a vector at an offset of one of the `wt` arrays. -/
def wtStore {w : Nat} (wt : List (List (BitVec w))) (buf off : Nat) (v : Vec w) : List (List (BitVec w)) :=
  wt.set buf (vstore (wt.getD buf []) off v)

/-- The vector of the table `K` at a position: `s0.load(K256+round)`. -/
def kvec (w n : Nat) (K : List Nat) (r : Nat) : Vec w := (List.range n).map fun i => BitVec.ofNat w (K.getD (r + i) 0)

/-- `byte_swap_message` (sha256_simd16.h:6-21, sha512_simd16.h:8-23, sha512_simd32.h:6-21): `load` from the block and, on a
little-endian host, `swap_endian`, which reverses the bytes of every lane. -/
def byteSwapMessage {w : Nat} (native : Bool) (n : Nat) (K : List Nat) (block : List Nat) (buf off r : Nat) (s : VSt w) : VSt w :=
  let s1 : Vec w := (List.range n).map fun i => loadWord native true w block (r + i)
  let s0 := kvec w n K r
  { s with simd := s1, wd := vstore s.wd r s1, wt := wtStore s.wt buf off (vadd s0 s1) }

/-- `sha256_simd16_compute_message_4rounds` (sha256_simd16.h:26-75), the branches taken. -/
def compute256 (K : List Nat) (buf off r : Nat) (s : VSt 32) : VSt 32 :=
  let s1 := s.simd
  let s10 : Vec 32 := [s1.getD 2 0, s1.getD 3 0, 0, 0]
  let s0 := vload 4 s.wd (r - 15)
  let s10 := vxor (vxor (vxor (vxor (vshr s10 17) (vshl s10 15)) (vshr s10 19)) (vshl s10 13)) (vshr s10 10)
  let s0 := vxor (vxor (vxor (vxor (vshr s0 7) (vshl s0 25)) (vshr s0 18)) (vshl s0 14)) (vshr s0 3)
  let s10 := vadd s10 s0
  let s0 := vload 4 s.wd (r - 16)
  let s10 := vadd s10 s0
  let s0 := vload 4 s.wd (r - 7)
  let s10 := vadd s10 s0
  let s1 : Vec 32 := [0, 0, s10.getD 0 0, s10.getD 1 0]
  let s1 := vxor (vshr (vxor (vshr (vxor (vshr s1 2) s1) 7) s1) 10) (vshl (vxor (vshl s1 2) s1) 13)
  let s1 := vadd s1 s10
  let s0 := vadd (kvec 32 4 K r) s1
  { s with simd := s1, wd := vstore s.wd r s1, wt := wtStore s.wt buf off s0 }

/-- The other expressions for the two functions left in the source (sha256_simd16.h:43-53,65-69), chosen when the constants in
`if constexpr` are changed. -/
def s1Alt256 (v : Vec 32) : List (Vec 32) :=
  [vxor (vxor (vxor (vxor (vshr v 17) (vshl v 15)) (vshr v 19)) (vshl v 13)) (vshr v 10),
   vxor (vshr (vxor (vshr (vxor (vshr v 2) v) 7) v) 10) (vshl (vxor (vshl v 2) v) 13),
   vxor (vxor (vadd (vshr v 17) (vshl v 15)) (vadd (vshr v 19) (vshl v 13))) (vshr v 10)]
@[inherit_doc s1Alt256]
def s0Alt256 (v : Vec 32) : List (Vec 32) :=
  [vxor (vxor (vxor (vxor (vshr v 7) (vshl v 25)) (vshr v 18)) (vshl v 14)) (vshr v 3),
   vxor (vshr (vxor (vshr (vxor (vshr v 11) v) 4) v) 3) (vshl (vxor (vshl v 11) v) 14),
   vxor (vxor (vadd (vshr v 7) (vshl v 25)) (vadd (vshr v 18) (vshl v 14))) (vshr v 3)]

/-- `sha512_simd16_compute_message_2rounds` (sha512_simd16.h:30-60), the branch taken. -/
def compute512x16 (K : List Nat) (buf off r : Nat) (s : VSt 64) : VSt 64 :=
  let s1 := s.simd
  let s0 := vload 2 s.wd (r - 15)
  let s1 := vxor (vshr (vxor (vshr (vxor (vshr s1 42) s1) 13) s1) 6) (vshl (vxor (vshl s1 42) s1) 3)
  let s0 := vxor (vshr (vxor (vshr (vxor (vshr s0 1) s0) 6) s0) 1) (vshl (vxor (vshl s0 7) s0) 56)
  let s1 := vadd s1 s0
  let s0 := vload 2 s.wd (r - 16)
  let s1 := vadd s1 s0
  let s0 := vload 2 s.wd (r - 7)
  let s1 := vadd s1 s0
  let s0 := vadd (kvec 64 2 K r) s1
  { s with simd := s1, wd := vstore s.wd r s1, wt := wtStore s.wt buf off s0 }

/-- The other expressions for the two functions (sha512_simd16.h:36-50, sha512_simd32.h:38-44). -/
def s1Alt512 (v : Vec 64) : List (Vec 64) :=
  [vxor (vshr (vxor (vshr (vxor (vshr v 42) v) 13) v) 6) (vshl (vxor (vshl v 42) v) 3),
   vxor (vxor (vxor (vxor (vshr v 19) (vshl v 45)) (vshr v 61)) (vshl v 3)) (vshr v 6),
   vxor (vxor (vadd (vshr v 19) (vshl v 45)) (vadd (vshr v 61) (vshl v 3))) (vshr v 6)]
@[inherit_doc s1Alt512]
def s0Alt512 (v : Vec 64) : List (Vec 64) :=
  [vxor (vshr (vxor (vshr (vxor (vshr v 1) v) 6) v) 1) (vshl (vxor (vshl v 7) v) 56),
   vxor (vxor (vxor (vxor (vshr v 1) (vshl v 63)) (vshr v 8)) (vshl v 56)) (vshr v 7),
   vxor (vxor (vadd (vshr v 1) (vshl v 63)) (vadd (vshr v 8) (vshl v 56))) (vshr v 7)]

/-- `__builtin_shufflevector(a,b,idx...)` (all lanes in `a ++ b`). -/
def shuffle {w : Nat} (a b : Vec w) (idx : List Nat) : Vec w := idx.map fun i => (a ++ b).getD i 0

/-- `sha512_simd32_compute_message_4rounds` of sha512_simd32.h:26-71. `s.simd` is the two-lane `simd2`. -/
def compute512x32 (K : List Nat) (buf off r : Nat) (s : VSt 64) : VSt 64 :=
  let s1 := s.simd
  let s0 := vload 4 s.wd (r - 15)
  let s1 := vxor (vshr (vxor (vshr (vxor (vshr s1 42) s1) 13) s1) 6) (vshl (vxor (vshl s1 42) s1) 3)
  let s0 := vxor (vshr (vxor (vshr (vxor (vshr s0 1) s0) 6) s0) 1) (vshl (vxor (vshl s0 7) s0) 56)
  let s2 := vload 4 s.wd (r - 16)
  let s2 := vadd s2 s0
  let s0 := vload 4 s.wd (r - 7)
  let s2 := vadd s2 s0
  let s2low := shuffle s2 s2 [0, 1]
  let s2low := vadd s2low s1
  let s1 := shuffle s2 s2 [2, 3]
  let s3 := s2low
  let s3 := vxor (vshr (vxor (vshr (vxor (vshr s3 42) s3) 13) s3) 6) (vshl (vxor (vshl s3 42) s3) 3)
  let s1 := vadd s1 s3
  let s2 := shuffle s2low s1 [0, 1, 2, 3]
  let s0 := vadd (kvec 64 4 K r) s2
  { s with simd := s1, wd := vstore s.wd r s2, wt := wtStore s.wt buf off s0 }

/-- `sha512_simd32_compute_message_4rounds` of sha512_simd32_shuffle.h:26-336, the branch taken (lines 196-334), statement by
statement (each `bpc=apb` is written twice in the source and once here). `wt` is the array read and `wt1` (number `buf`) the array written; `args` are the registers bound to the
parameters `a`..`h`. -/
def mix512 (K : List Nat) (rd buf r : Nat) (args : List Nat) (s : VSt 64) : VSt 64 :=
  let reg (i : Nat) : BitVec 64 := s.regs.getD (args.getD i 0) 0
  let a := reg 0; let b := reg 1; let c := reg 2; let d := reg 3
  let e := reg 4; let f := reg 5; let g := reg 6; let h := reg 7
  let bpc := s.bpc
  let s1 := s.simd
  let wt (i : Nat) : BitVec 64 := (s.wt.getD rd []).getD i 0
  let s0 := vload 4 s.wd (r - 15)
  let T1k := h
  let T1k := T1k + wt 0
  let s1temp := vshr s1 19
  let temp := e.rotateRight 14
  let temp1 := e.rotateRight 18
  let s1temp2 := vshl s1 45
  let temp := temp ^^^ temp1
  let temp1 := e.rotateRight 41
  let s1temp := vxor s1temp s1temp2
  let temp := temp ^^^ temp1
  let T1k := T1k + temp
  let s1temp2 := vshr s1 61
  let temp := f ^^^ g
  let temp := temp &&& e
  let s1temp := vxor s1temp s1temp2
  let temp := temp ^^^ g
  let T1k := T1k + temp
  let s1temp2 := vshl s1 3
  let temp := a.rotateRight 28
  let temp1 := a.rotateRight 34
  let s1temp := vxor s1temp s1temp2
  let temp := temp ^^^ temp1
  let temp1 := a.rotateRight 39
  let s1temp2 := vshr s1 6
  let h := temp ^^^ temp1
  let apb := a ^^^ b
  let s1 := vxor s1temp s1temp2
  let temp := apb &&& bpc
  let bpc := apb
  let s0temp := vshr s0 1
  let temp := temp ^^^ b
  let h := h + temp
  let s0temp2 := vshl s0 63
  let d := d + T1k
  let s0temp := vxor s0temp s0temp2
  let h := h + T1k
  let T1k := g
  let s0temp2 := vshr s0 8
  let T1k := T1k + wt 1
  let temp := d.rotateRight 14
  let s0temp := vxor s0temp s0temp2
  let temp1 := d.rotateRight 18
  let temp := temp ^^^ temp1
  let s0temp2 := vshl s0 56
  let temp1 := d.rotateRight 41
  let temp := temp ^^^ temp1
  let s0temp := vxor s0temp s0temp2
  let T1k := T1k + temp
  let temp := e ^^^ f
  let s0temp2 := vshr s0 7
  let temp := temp &&& d
  let temp := temp ^^^ f
  let s0 := vxor s0temp s0temp2
  let T1k := T1k + temp
  let temp := h.rotateRight 28
  let s2 := vload 4 s.wd (r - 16)
  let temp1 := h.rotateRight 34
  let temp := temp ^^^ temp1
  let s2 := vadd s2 s0
  let temp1 := h.rotateRight 39
  let g := temp ^^^ temp1
  let s0 := vload 4 s.wd (r - 7)
  let apb := h ^^^ a
  let temp := apb &&& bpc
  let s2 := vadd s2 s0
  let bpc := apb
  let temp := temp ^^^ a
  let s2low := shuffle s2 s2 [0, 1]
  let g := g + temp
  let s2low := vadd s2low s1
  let c := c + T1k
  let g := g + T1k
  let s1 := shuffle s2 s2 [2, 3]
  let T1k := f
  let T1k := T1k + wt 2
  let s1temp := vshr s2low 19
  let temp := c.rotateRight 14
  let temp1 := c.rotateRight 18
  let s1temp2 := vshl s2low 45
  let temp := temp ^^^ temp1
  let temp1 := c.rotateRight 41
  let s1temp := vxor s1temp s1temp2
  let temp := temp ^^^ temp1
  let T1k := T1k + temp
  let s1temp2 := vshr s2low 61
  let temp := d ^^^ e
  let temp := temp &&& c
  let s1temp := vxor s1temp s1temp2
  let temp := temp ^^^ e
  let T1k := T1k + temp
  let s1temp2 := vshl s2low 3
  let temp := g.rotateRight 28
  let temp1 := g.rotateRight 34
  let s1temp := vxor s1temp s1temp2
  let temp := temp ^^^ temp1
  let temp1 := g.rotateRight 39
  let s1temp2 := vshr s2low 6
  let f := temp ^^^ temp1
  let apb := g ^^^ h
  let s3 := vxor s1temp s1temp2
  let temp := apb &&& bpc
  let bpc := apb
  let s1 := vadd s1 s3
  let temp := temp ^^^ h
  let f := f + temp
  let s2 := shuffle s2low s1 [0, 1, 2, 3]
  let b := b + T1k
  let w := vstore s.wd r s2
  let f := f + T1k
  let T1k := e
  let s0 := kvec 64 4 K r
  let T1k := T1k + wt 3
  let temp := b.rotateRight 14
  let s0 := vadd s0 s2
  let temp1 := b.rotateRight 18
  let temp := temp ^^^ temp1
  let wts := wtStore s.wt buf 0 s0
  let temp1 := b.rotateRight 41
  let temp := temp ^^^ temp1
  let T1k := T1k + temp
  let temp := c ^^^ d
  let temp := temp &&& b
  let temp := temp ^^^ d
  let T1k := T1k + temp
  let temp := f.rotateRight 28
  let temp1 := f.rotateRight 34
  let temp := temp ^^^ temp1
  let temp1 := f.rotateRight 39
  let e := temp ^^^ temp1
  let apb := f ^^^ g
  let temp := apb &&& bpc
  let bpc := apb
  let temp := temp ^^^ g
  let e := e + temp
  let a := a + T1k
  let e := e + T1k
  { regs := ([a, b, c, d, e, f, g, h].zipIdx).foldl (fun l p => l.set (args.getD p.2 0) p.1) s.regs
    bpc := bpc, simd := s1, wd := w, wt := wts }

/-- The calls before the loop (sha256_simd16.h:99-115). -/
def s256x16Pre : List Op := [
  .load 0 0 0,
  .rnd 0 0 [0, 1, 3, 4, 5, 6, 7],
  .rnd 0 1 [7, 0, 2, 3, 4, 5, 6],
  .load 0 4 4,
  .rnd 0 2 [6, 7, 1, 2, 3, 4, 5],
  .rnd 0 3 [5, 6, 0, 1, 2, 3, 4],
  .rnd 0 4 [4, 5, 7, 0, 1, 2, 3],
  .rnd 0 5 [3, 4, 6, 7, 0, 1, 2],
  .load 0 8 8,
  .rnd 0 6 [2, 3, 5, 6, 7, 0, 1],
  .rnd 0 7 [1, 2, 4, 5, 6, 7, 0],
  .rnd 0 8 [0, 1, 3, 4, 5, 6, 7],
  .rnd 0 9 [7, 0, 2, 3, 4, 5, 6],
  .load 0 12 12,
  .rnd 0 10 [6, 7, 1, 2, 3, 4, 5],
  .rnd 0 11 [5, 6, 0, 1, 2, 3, 4]]

/-- The calls of the loop body (sha256_simd16.h:118-139). -/
def s256x16Body (i : Nat) : List Op := [
  .rnd 0 i [4, 5, 7, 0, 1, 2, 3],
  .rnd 0 (i + 1) [3, 4, 6, 7, 0, 1, 2],
  .comp 0 (i + 4) (i + 4),
  .rnd 0 (i + 2) [2, 3, 5, 6, 7, 0, 1],
  .rnd 0 (i + 3) [1, 2, 4, 5, 6, 7, 0],
  .rnd 0 (i + 4) [0, 1, 3, 4, 5, 6, 7],
  .rnd 0 (i + 5) [7, 0, 2, 3, 4, 5, 6],
  .comp 0 (i + 8) (i + 8),
  .rnd 0 (i + 6) [6, 7, 1, 2, 3, 4, 5],
  .rnd 0 (i + 7) [5, 6, 0, 1, 2, 3, 4],
  .rnd 0 (i + 8) [4, 5, 7, 0, 1, 2, 3],
  .rnd 0 (i + 9) [3, 4, 6, 7, 0, 1, 2],
  .comp 0 (i + 12) (i + 12),
  .rnd 0 (i + 10) [2, 3, 5, 6, 7, 0, 1],
  .rnd 0 (i + 11) [1, 2, 4, 5, 6, 7, 0],
  .rnd 0 (i + 12) [0, 1, 3, 4, 5, 6, 7],
  .rnd 0 (i + 13) [7, 0, 2, 3, 4, 5, 6],
  .comp 0 (i + 16) (i + 16),
  .rnd 0 (i + 14) [6, 7, 1, 2, 3, 4, 5],
  .rnd 0 (i + 15) [5, 6, 0, 1, 2, 3, 4]]

/-- The calls after the loop (sha256_simd16.h:141-145). -/
def s256x16Post : List Op := [
  .rnd 0 60 [4, 5, 7, 0, 1, 2, 3],
  .rnd 0 61 [3, 4, 6, 7, 0, 1, 2],
  .rnd 0 62 [2, 3, 5, 6, 7, 0, 1],
  .rnd 0 63 [1, 2, 4, 5, 6, 7, 0]]

/-- The calls before the loop (sha512_simd16.h:88-117). -/
def s512x16Pre : List Op := [
  .load 0 0 0,
  .load 1 0 2,
  .rnd 0 0 [0, 1, 3, 4, 5, 6, 7],
  .rnd 0 1 [7, 0, 2, 3, 4, 5, 6],
  .load 0 0 4,
  .rnd 1 0 [6, 7, 1, 2, 3, 4, 5],
  .rnd 1 1 [5, 6, 0, 1, 2, 3, 4],
  .load 1 0 6,
  .rnd 0 0 [4, 5, 7, 0, 1, 2, 3],
  .rnd 0 1 [3, 4, 6, 7, 0, 1, 2],
  .load 0 0 8,
  .rnd 1 0 [2, 3, 5, 6, 7, 0, 1],
  .rnd 1 1 [1, 2, 4, 5, 6, 7, 0],
  .load 1 0 10,
  .rnd 0 0 [0, 1, 3, 4, 5, 6, 7],
  .rnd 0 1 [7, 0, 2, 3, 4, 5, 6],
  .load 0 0 12,
  .rnd 1 0 [6, 7, 1, 2, 3, 4, 5],
  .rnd 1 1 [5, 6, 0, 1, 2, 3, 4],
  .load 1 0 14,
  .rnd 0 0 [4, 5, 7, 0, 1, 2, 3],
  .rnd 0 1 [3, 4, 6, 7, 0, 1, 2]]

/-- The calls of the loop body (sha512_simd16.h:120-150). -/
def s512x16Body (i : Nat) : List Op := [
  .comp 0 0 (i + 2),
  .rnd 1 0 [2, 3, 5, 6, 7, 0, 1],
  .rnd 1 1 [1, 2, 4, 5, 6, 7, 0],
  .comp 1 0 (i + 4),
  .rnd 0 0 [0, 1, 3, 4, 5, 6, 7],
  .rnd 0 1 [7, 0, 2, 3, 4, 5, 6],
  .comp 0 0 (i + 6),
  .rnd 1 0 [6, 7, 1, 2, 3, 4, 5],
  .rnd 1 1 [5, 6, 0, 1, 2, 3, 4],
  .comp 1 0 (i + 8),
  .rnd 0 0 [4, 5, 7, 0, 1, 2, 3],
  .rnd 0 1 [3, 4, 6, 7, 0, 1, 2],
  .comp 0 0 (i + 10),
  .rnd 1 0 [2, 3, 5, 6, 7, 0, 1],
  .rnd 1 1 [1, 2, 4, 5, 6, 7, 0],
  .comp 1 0 (i + 12),
  .rnd 0 0 [0, 1, 3, 4, 5, 6, 7],
  .rnd 0 1 [7, 0, 2, 3, 4, 5, 6],
  .comp 0 0 (i + 14),
  .rnd 1 0 [6, 7, 1, 2, 3, 4, 5],
  .rnd 1 1 [5, 6, 0, 1, 2, 3, 4],
  .comp 1 0 (i + 16),
  .rnd 0 0 [4, 5, 7, 0, 1, 2, 3],
  .rnd 0 1 [3, 4, 6, 7, 0, 1, 2]]

/-- The calls after the loop (sha512_simd16.h:152-153). -/
def s512x16Post : List Op := [
  .rnd 1 0 [2, 3, 5, 6, 7, 0, 1],
  .rnd 1 1 [1, 2, 4, 5, 6, 7, 0]]

/-- The calls before the loop (sha512_simd32.h:97-114). -/
def s512x32Pre : List Op := [
  .load 0 0 0,
  .load 1 0 4,
  .rnd 0 0 [0, 1, 3, 4, 5, 6, 7],
  .rnd 0 1 [7, 0, 2, 3, 4, 5, 6],
  .rnd 0 2 [6, 7, 1, 2, 3, 4, 5],
  .rnd 0 3 [5, 6, 0, 1, 2, 3, 4],
  .load 0 0 8,
  .rnd 1 0 [4, 5, 7, 0, 1, 2, 3],
  .rnd 1 1 [3, 4, 6, 7, 0, 1, 2],
  .rnd 1 2 [2, 3, 5, 6, 7, 0, 1],
  .rnd 1 3 [1, 2, 4, 5, 6, 7, 0],
  .load 1 0 12,
  .rnd 0 0 [0, 1, 3, 4, 5, 6, 7],
  .rnd 0 1 [7, 0, 2, 3, 4, 5, 6],
  .rnd 0 2 [6, 7, 1, 2, 3, 4, 5],
  .rnd 0 3 [5, 6, 0, 1, 2, 3, 4],
  .half]

/-- The calls of the loop body (sha512_simd32.h:117-138). -/
def s512x32Body (i : Nat) : List Op := [
  .comp 0 0 (i + 4),
  .rnd 1 0 [4, 5, 7, 0, 1, 2, 3],
  .rnd 1 1 [3, 4, 6, 7, 0, 1, 2],
  .rnd 1 2 [2, 3, 5, 6, 7, 0, 1],
  .rnd 1 3 [1, 2, 4, 5, 6, 7, 0],
  .comp 1 0 (i + 8),
  .rnd 0 0 [0, 1, 3, 4, 5, 6, 7],
  .rnd 0 1 [7, 0, 2, 3, 4, 5, 6],
  .rnd 0 2 [6, 7, 1, 2, 3, 4, 5],
  .rnd 0 3 [5, 6, 0, 1, 2, 3, 4],
  .comp 0 0 (i + 12),
  .rnd 1 0 [4, 5, 7, 0, 1, 2, 3],
  .rnd 1 1 [3, 4, 6, 7, 0, 1, 2],
  .rnd 1 2 [2, 3, 5, 6, 7, 0, 1],
  .rnd 1 3 [1, 2, 4, 5, 6, 7, 0],
  .comp 1 0 (i + 16),
  .rnd 0 0 [0, 1, 3, 4, 5, 6, 7],
  .rnd 0 1 [7, 0, 2, 3, 4, 5, 6],
  .rnd 0 2 [6, 7, 1, 2, 3, 4, 5],
  .rnd 0 3 [5, 6, 0, 1, 2, 3, 4]]

/-- The calls after the loop (sha512_simd32.h:140-144). -/
def s512x32Post : List Op := [
  .rnd 1 0 [4, 5, 7, 0, 1, 2, 3],
  .rnd 1 1 [3, 4, 6, 7, 0, 1, 2],
  .rnd 1 2 [2, 3, 5, 6, 7, 0, 1],
  .rnd 1 3 [1, 2, 4, 5, 6, 7, 0]]

/-- The calls before the loop (sha512_simd32_shuffle.h:367-384); the last row is the definition of `simd2`. -/
def s512xsPre : List Op := [
  .load 0 0 0,
  .load 1 0 4,
  .rnd 0 0 [0, 1, 3, 4, 5, 6, 7],
  .rnd 0 1 [7, 0, 2, 3, 4, 5, 6],
  .rnd 0 2 [6, 7, 1, 2, 3, 4, 5],
  .rnd 0 3 [5, 6, 0, 1, 2, 3, 4],
  .load 0 0 8,
  .rnd 1 0 [4, 5, 7, 0, 1, 2, 3],
  .rnd 1 1 [3, 4, 6, 7, 0, 1, 2],
  .rnd 1 2 [2, 3, 5, 6, 7, 0, 1],
  .rnd 1 3 [1, 2, 4, 5, 6, 7, 0],
  .load 1 0 12,
  .rnd 0 0 [0, 1, 3, 4, 5, 6, 7],
  .rnd 0 1 [7, 0, 2, 3, 4, 5, 6],
  .rnd 0 2 [6, 7, 1, 2, 3, 4, 5],
  .rnd 0 3 [5, 6, 0, 1, 2, 3, 4],
  .half]

/-- The calls of the loop body (sha512_simd32_shuffle.h:387-394). -/
def s512xsBody (i : Nat) : List Op := [
  .mix 1 0 i [4, 5, 6, 7, 0, 1, 2, 3],
  .mix 0 1 (i + 4) [0, 1, 2, 3, 4, 5, 6, 7],
  .mix 1 0 (i + 8) [4, 5, 6, 7, 0, 1, 2, 3],
  .mix 0 1 (i + 12) [0, 1, 2, 3, 4, 5, 6, 7]]

/-- The calls after the loop (sha512_simd32_shuffle.h:397-400). -/
def s512xsPost : List Op := [
  .rnd 1 0 [4, 5, 7, 0, 1, 2, 3],
  .rnd 1 1 [3, 4, 6, 7, 0, 1, 2],
  .rnd 1 2 [2, 3, 5, 6, 7, 0, 1],
  .rnd 1 3 [1, 2, 4, 5, 6, 7, 0]]

/-- One call, for a variant with `n` lanes and its `compute_message`. The scalar rounds are those of the scalar code. -/
def step {w : Nat} (native : Bool) (A : Alg w) (n : Nat) (K : List Nat) (compute : Nat → Nat → Nat → VSt w → VSt w)
    (mix : Nat → Nat → Nat → List Nat → VSt w → VSt w) (block : List Nat) (s : VSt w) : Op → VSt w
  | .load buf off r => byteSwapMessage native n K block buf off r s
  | .comp buf off r => compute buf off r s
  | .rnd buf idx args =>
    let t := scalarRound A ((s.wt.getD buf []).getD idx 0) args ⟨s.regs, s.bpc, []⟩
    { s with regs := t.regs, bpc := t.bpc }
  | .mix rd buf r args => mix rd buf r args s
  | .half => { s with simd := shuffle s.simd s.simd [2, 3] }

/-- `for(i{start};i!=start+16*count;i+=16)`: the calls made, in order. -/
def loopOps (body : Nat → List Op) (start count : Nat) : List Op :=
  (List.range count).flatMap fun k => body (start + 16 * k)

/-- All the calls made for one block by the four routines, with the loops `for(i{12};i!=60;i+=16)` (sha256_simd16.h:116),
`for(i{14};i!=78;i+=16)` (sha512_simd16.h:120), `for(i{12};i!=76;i+=16)` (sha512_simd32.h:118) and
`for(i{16};i!=80;i+=16)` (sha512_simd32_shuffle.h:385). -/
def ops256x16 : List Op := s256x16Pre ++ loopOps s256x16Body 12 3 ++ s256x16Post
@[inherit_doc ops256x16]
def ops512x16 : List Op := s512x16Pre ++ loopOps s512x16Body 14 4 ++ s512x16Post
@[inherit_doc ops256x16]
def ops512x32 : List Op := s512x32Pre ++ loopOps s512x32Body 12 4 ++ s512x32Post
@[inherit_doc ops256x16]
def ops512xs : List Op := s512xsPre ++ loopOps s512xsBody 16 4 ++ s512xsPost

/-- The body of the block loop: `bpc=b^c`, the calls, and the feed-forward `a=(*state+=a)...`
(sha256_simd16.h:97-153, sha512_simd16.h:87-162, sha512_simd32.h:98-153, sha512_simd32_shuffle.h:365-409). Between blocks the
registers equal the state, so every block starts from the state. -/
def simdBlock {w : Nat} (native : Bool) (A : Alg w) (n rounds : Nat) (wt : List (List (BitVec w))) (K : List Nat)
    (compute : Nat → Nat → Nat → VSt w → VSt w) (mix : Nat → Nat → Nat → List Nat → VSt w → VSt w) (ops : List Op)
    (state : List (BitVec w)) (block : List Nat) : List (BitVec w) :=
  let s : VSt w := { regs := state, bpc := state.getD 1 0 ^^^ state.getD 2 0, simd := List.replicate n 0,
                     wd := List.replicate rounds 0, wt := wt }
  let s := ops.foldl (step native A n K compute mix block) s
  List.zipWith (· + ·) state s.regs

/-- `sha256_runtime_routine` (sha256_simd16.h:82-154). -/
def block256x16 (native : Bool) : List (BitVec 32) → List Nat → List (BitVec 32) :=
  simdBlock native alg256 4 64 [List.replicate 64 0] K256 (compute256 K256) (fun _ _ _ _ s => s) ops256x16
/-- `sha512_runtime_routine` (sha512_simd16.h:68-163). -/
def block512x16 (native : Bool) : List (BitVec 64) → List Nat → List (BitVec 64) :=
  simdBlock native alg512 2 80 [List.replicate 2 0, List.replicate 2 0] K512 (compute512x16 K512) (fun _ _ _ _ s => s) ops512x16
/-- `sha512_runtime_routine` (sha512_simd32.h:78-154). -/
def block512x32 (native : Bool) : List (BitVec 64) → List Nat → List (BitVec 64) :=
  simdBlock native alg512 4 80 [List.replicate 4 0, List.replicate 4 0] K512 (compute512x32 K512) (fun _ _ _ _ s => s) ops512x32
/-- `sha512_runtime_routine` (sha512_simd32_shuffle.h:343-410). -/
def block512xs (native : Bool) : List (BitVec 64) → List Nat → List (BitVec 64) :=
  simdBlock native alg512 4 80 [List.replicate 4 0, List.replicate 4 0] K512 (compute512x32 K512) (mix512 K512) ops512xs

/-- `class sha256` (sha256.h:176-205) with the routine of `sha256_simd16.h`. -/
def sha256SimdP (native : Bool) : Params (List (BitVec 32)) := { bs := 64, cs := 8, big := true, comp := block256x16 native }
/-- `class sha512` (sha512.h:210-239) with one of the vector routines. -/
def sha512SimdP (block : List (BitVec 64) → List Nat → List (BitVec 64)) : Params (List (BitVec 64)) :=
  { bs := 128, cs := 16, big := true, comp := block }

end Verif.Hash.Simd
