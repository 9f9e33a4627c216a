import Verif.Hash.CtxModel
/-!
# Model of the scalar SHA-2 code: `sha256.h`, `sha256_scalar.h`, `sha512.h`, `sha512_scalar.h`
(under `include/fast_io_crypto/hash/`)

Words are `BitVec 32`/`BitVec 64`. The straight-line round calls of the run-time routines are kept as tables, one row per
call, with the arguments written in the source; registers `a`..`h` are numbers 0..7. The tables were generated from the
source text. The local array `x`, uninitialised in the source, starts as zeros (it is written before it is read).
-/
namespace Verif.Hash.Sha2
open Verif Verif.Hash

/-- `Sigma0`, `Sigma1`, `sigma0`, `sigma1`, `Ch` and the number of rounds; instantiated by `alg256` and `alg512`. -/
structure Alg (w : Nat) where
  S0 : BitVec w → BitVec w
  S1 : BitVec w → BitVec w
  s0 : BitVec w → BitVec w
  s1 : BitVec w → BitVec w
  ch : BitVec w → BitVec w → BitVec w → BitVec w

/-- `Sigma0`, `Sigma1`, `sigma0`, `sigma1`, `Ch` (sha256.h:29-48). -/
def alg256 : Alg 32 where
  S0 x := x.rotateRight 2 ^^^ x.rotateRight 13 ^^^ x.rotateRight 22
  S1 x := x.rotateRight 6 ^^^ x.rotateRight 11 ^^^ x.rotateRight 25
  s0 x := x.rotateRight 7 ^^^ x.rotateRight 18 ^^^ (x >>> 3)
  s1 x := x.rotateRight 17 ^^^ x.rotateRight 19 ^^^ (x >>> 10)
  ch x y z := ((y ^^^ z) &&& x) ^^^ z

/-- `Sigma0`, `Sigma1`, `sigma0`, `sigma1`, `Ch` (sha512.h:56-85). -/
def alg512 : Alg 64 where
  S0 x := x.rotateRight 28 ^^^ x.rotateRight 34 ^^^ x.rotateRight 39
  S1 x := x.rotateRight 14 ^^^ x.rotateRight 18 ^^^ x.rotateRight 41
  s0 x := x.rotateRight 1 ^^^ x.rotateRight 8 ^^^ (x >>> 7)
  s1 x := x.rotateRight 19 ^^^ x.rotateRight 61 ^^^ (x >>> 6)
  ch x y z := (x &&& (y ^^^ z)) ^^^ z

/-- `Maj` (sha256.h:49-52, sha512.h:87-90). -/
def maj {w : Nat} (x y z : BitVec w) : BitVec w := (x &&& y) ^^^ (x &&& z) ^^^ (y &&& z)

/-- A call `sha256_round(x[xi]=big_endian(W[wi]),args,bpc,k)`. -/
structure Line0 where
  xi : Nat
  wi : Nat
  args : List Nat
  k : Nat
deriving DecidableEq

/-- A call `sha256_round((x[xi]+=sigma0(x[x0])+sigma1(x[x1])+x[x9]),args,bpc,k5[ki])`. -/
structure Line where
  xi : Nat
  x0 : Nat
  x1 : Nat
  x9 : Nat
  args : List Nat
  ki : Nat
deriving DecidableEq

/-- `K256` (sha256.h:9-27). -/
def K256 : List Nat := [
  0x428A2F98, 0x71374491, 0xB5C0FBCF, 0xE9B5DBA5,
  0x3956C25B, 0x59F111F1, 0x923F82A4, 0xAB1C5ED5,
  0xD807AA98, 0x12835B01, 0x243185BE, 0x550C7DC3,
  0x72BE5D74, 0x80DEB1FE, 0x9BDC06A7, 0xC19BF174,
  0xE49B69C1, 0xEFBE4786, 0x0FC19DC6, 0x240CA1CC,
  0x2DE92C6F, 0x4A7484AA, 0x5CB0A9DC, 0x76F988DA,
  0x983E5152, 0xA831C66D, 0xB00327C8, 0xBF597FC7,
  0xC6E00BF3, 0xD5A79147, 0x06CA6351, 0x14292967,
  0x27B70A85, 0x2E1B2138, 0x4D2C6DFC, 0x53380D13,
  0x650A7354, 0x766A0ABB, 0x81C2C92E, 0x92722C85,
  0xA2BFE8A1, 0xA81A664B, 0xC24B8B70, 0xC76C51A3,
  0xD192E819, 0xD6990624, 0xF40E3585, 0x106AA070,
  0x19A4C116, 0x1E376C08, 0x2748774C, 0x34B0BCB5,
  0x391C0CB3, 0x4ED8AA4A, 0x5B9CCA4F, 0x682E6FF3,
  0x748F82EE, 0x78A5636F, 0x84C87814, 0x8CC70208,
  0x90BEFFFA, 0xA4506CEB, 0xBEF9A3F7, 0xC67178F2]

/-- The first sixteen round calls (sha256_scalar.h:55-70): ring index, message word, register arguments, constant. -/
def sha256Lines0 : List Line0 := [
  ⟨0, 0, [0, 1, 3, 4, 5, 6, 7], 0x428A2F98⟩,
  ⟨1, 1, [7, 0, 2, 3, 4, 5, 6], 0x71374491⟩,
  ⟨2, 2, [6, 7, 1, 2, 3, 4, 5], 0xB5C0FBCF⟩,
  ⟨3, 3, [5, 6, 0, 1, 2, 3, 4], 0xE9B5DBA5⟩,
  ⟨4, 4, [4, 5, 7, 0, 1, 2, 3], 0x3956C25B⟩,
  ⟨5, 5, [3, 4, 6, 7, 0, 1, 2], 0x59F111F1⟩,
  ⟨6, 6, [2, 3, 5, 6, 7, 0, 1], 0x923F82A4⟩,
  ⟨7, 7, [1, 2, 4, 5, 6, 7, 0], 0xAB1C5ED5⟩,
  ⟨8, 8, [0, 1, 3, 4, 5, 6, 7], 0xD807AA98⟩,
  ⟨9, 9, [7, 0, 2, 3, 4, 5, 6], 0x12835B01⟩,
  ⟨10, 10, [6, 7, 1, 2, 3, 4, 5], 0x243185BE⟩,
  ⟨11, 11, [5, 6, 0, 1, 2, 3, 4], 0x550C7DC3⟩,
  ⟨12, 12, [4, 5, 7, 0, 1, 2, 3], 0x72BE5D74⟩,
  ⟨13, 13, [3, 4, 6, 7, 0, 1, 2], 0x80DEB1FE⟩,
  ⟨14, 14, [2, 3, 5, 6, 7, 0, 1], 0x9BDC06A7⟩,
  ⟨15, 15, [1, 2, 4, 5, 6, 7, 0], 0xC19BF174⟩]

/-- The sixteen round calls of the loop body (sha256_scalar.h:73-88): ring indices in the order written, register arguments,
index into `k5`. -/
def sha256Lines : List Line := [
  ⟨0, 1, 14, 9, [0, 1, 3, 4, 5, 6, 7], 0⟩,
  ⟨1, 2, 15, 10, [7, 0, 2, 3, 4, 5, 6], 1⟩,
  ⟨2, 3, 0, 11, [6, 7, 1, 2, 3, 4, 5], 2⟩,
  ⟨3, 4, 1, 12, [5, 6, 0, 1, 2, 3, 4], 3⟩,
  ⟨4, 5, 2, 13, [4, 5, 7, 0, 1, 2, 3], 4⟩,
  ⟨5, 6, 3, 14, [3, 4, 6, 7, 0, 1, 2], 5⟩,
  ⟨6, 7, 4, 15, [2, 3, 5, 6, 7, 0, 1], 6⟩,
  ⟨7, 8, 5, 0, [1, 2, 4, 5, 6, 7, 0], 7⟩,
  ⟨8, 9, 6, 1, [0, 1, 3, 4, 5, 6, 7], 8⟩,
  ⟨9, 10, 7, 2, [7, 0, 2, 3, 4, 5, 6], 9⟩,
  ⟨10, 11, 8, 3, [6, 7, 1, 2, 3, 4, 5], 10⟩,
  ⟨11, 12, 9, 4, [5, 6, 0, 1, 2, 3, 4], 11⟩,
  ⟨12, 13, 10, 5, [4, 5, 7, 0, 1, 2, 3], 12⟩,
  ⟨13, 14, 11, 6, [3, 4, 6, 7, 0, 1, 2], 13⟩,
  ⟨14, 15, 12, 7, [2, 3, 5, 6, 7, 0, 1], 14⟩,
  ⟨15, 0, 13, 8, [1, 2, 4, 5, 6, 7, 0], 15⟩]


/-- `K512` (sha512.h:9-51). -/
def K512 : List Nat := [
  0x428a2f98d728ae22, 0x7137449123ef65cd, 0xb5c0fbcfec4d3b2f, 0xe9b5dba58189dbbc,
  0x3956c25bf348b538, 0x59f111f1b605d019, 0x923f82a4af194f9b, 0xab1c5ed5da6d8118,
  0xd807aa98a3030242, 0x12835b0145706fbe, 0x243185be4ee4b28c, 0x550c7dc3d5ffb4e2,
  0x72be5d74f27b896f, 0x80deb1fe3b1696b1, 0x9bdc06a725c71235, 0xc19bf174cf692694,
  0xe49b69c19ef14ad2, 0xefbe4786384f25e3, 0x0fc19dc68b8cd5b5, 0x240ca1cc77ac9c65,
  0x2de92c6f592b0275, 0x4a7484aa6ea6e483, 0x5cb0a9dcbd41fbd4, 0x76f988da831153b5,
  0x983e5152ee66dfab, 0xa831c66d2db43210, 0xb00327c898fb213f, 0xbf597fc7beef0ee4,
  0xc6e00bf33da88fc2, 0xd5a79147930aa725, 0x06ca6351e003826f, 0x142929670a0e6e70,
  0x27b70a8546d22ffc, 0x2e1b21385c26c926, 0x4d2c6dfc5ac42aed, 0x53380d139d95b3df,
  0x650a73548baf63de, 0x766a0abb3c77b2a8, 0x81c2c92e47edaee6, 0x92722c851482353b,
  0xa2bfe8a14cf10364, 0xa81a664bbc423001, 0xc24b8b70d0f89791, 0xc76c51a30654be30,
  0xd192e819d6ef5218, 0xd69906245565a910, 0xf40e35855771202a, 0x106aa07032bbd1b8,
  0x19a4c116b8d2d0c8, 0x1e376c085141ab53, 0x2748774cdf8eeb99, 0x34b0bcb5e19b48a8,
  0x391c0cb3c5c95a63, 0x4ed8aa4ae3418acb, 0x5b9cca4f7763e373, 0x682e6ff3d6b2b8a3,
  0x748f82ee5defb2fc, 0x78a5636f43172f60, 0x84c87814a1f0ab72, 0x8cc702081a6439ec,
  0x90befffa23631e28, 0xa4506cebde82bde9, 0xbef9a3f7b2c67915, 0xc67178f2e372532b,
  0xca273eceea26619c, 0xd186b8c721c0c207, 0xeada7dd6cde0eb1e, 0xf57d4f7fee6ed178,
  0x06f067aa72176fba, 0x0a637dc5a2c898a6, 0x113f9804bef90dae, 0x1b710b35131c471b,
  0x28db77f523047d84, 0x32caab7b40c72493, 0x3c9ebe0a15c9bebc, 0x431d67c49c100d4c,
  0x4cc5d4becb3e42b6, 0x597f299cfc657e2a, 0x5fcb6fab3ad6faec, 0x6c44198c4a475817]

/-- The first sixteen round calls (sha512_scalar.h:55-70): ring index, message word, register arguments, constant. -/
def sha512Lines0 : List Line0 := [
  ⟨0, 0, [0, 1, 3, 4, 5, 6, 7], 0x428a2f98d728ae22⟩,
  ⟨1, 1, [7, 0, 2, 3, 4, 5, 6], 0x7137449123ef65cd⟩,
  ⟨2, 2, [6, 7, 1, 2, 3, 4, 5], 0xb5c0fbcfec4d3b2f⟩,
  ⟨3, 3, [5, 6, 0, 1, 2, 3, 4], 0xe9b5dba58189dbbc⟩,
  ⟨4, 4, [4, 5, 7, 0, 1, 2, 3], 0x3956c25bf348b538⟩,
  ⟨5, 5, [3, 4, 6, 7, 0, 1, 2], 0x59f111f1b605d019⟩,
  ⟨6, 6, [2, 3, 5, 6, 7, 0, 1], 0x923f82a4af194f9b⟩,
  ⟨7, 7, [1, 2, 4, 5, 6, 7, 0], 0xab1c5ed5da6d8118⟩,
  ⟨8, 8, [0, 1, 3, 4, 5, 6, 7], 0xd807aa98a3030242⟩,
  ⟨9, 9, [7, 0, 2, 3, 4, 5, 6], 0x12835b0145706fbe⟩,
  ⟨10, 10, [6, 7, 1, 2, 3, 4, 5], 0x243185be4ee4b28c⟩,
  ⟨11, 11, [5, 6, 0, 1, 2, 3, 4], 0x550c7dc3d5ffb4e2⟩,
  ⟨12, 12, [4, 5, 7, 0, 1, 2, 3], 0x72be5d74f27b896f⟩,
  ⟨13, 13, [3, 4, 6, 7, 0, 1, 2], 0x80deb1fe3b1696b1⟩,
  ⟨14, 14, [2, 3, 5, 6, 7, 0, 1], 0x9bdc06a725c71235⟩,
  ⟨15, 15, [1, 2, 4, 5, 6, 7, 0], 0xc19bf174cf692694⟩]

/-- The sixteen round calls of the loop body (sha512_scalar.h:73-88): ring indices in the order written, register arguments,
index into `k5`. -/
def sha512Lines : List Line := [
  ⟨0, 1, 14, 9, [0, 1, 3, 4, 5, 6, 7], 0⟩,
  ⟨1, 2, 15, 10, [7, 0, 2, 3, 4, 5, 6], 1⟩,
  ⟨2, 3, 0, 11, [6, 7, 1, 2, 3, 4, 5], 2⟩,
  ⟨3, 4, 1, 12, [5, 6, 0, 1, 2, 3, 4], 3⟩,
  ⟨4, 5, 2, 13, [4, 5, 7, 0, 1, 2, 3], 4⟩,
  ⟨5, 6, 3, 14, [3, 4, 6, 7, 0, 1, 2], 5⟩,
  ⟨6, 7, 4, 15, [2, 3, 5, 6, 7, 0, 1], 6⟩,
  ⟨7, 8, 5, 0, [1, 2, 4, 5, 6, 7, 0], 7⟩,
  ⟨8, 9, 6, 1, [0, 1, 3, 4, 5, 6, 7], 8⟩,
  ⟨9, 10, 7, 2, [7, 0, 2, 3, 4, 5, 6], 9⟩,
  ⟨10, 11, 8, 3, [6, 7, 1, 2, 3, 4, 5], 10⟩,
  ⟨11, 12, 9, 4, [5, 6, 0, 1, 2, 3, 4], 11⟩,
  ⟨12, 13, 10, 5, [4, 5, 7, 0, 1, 2, 3], 12⟩,
  ⟨13, 14, 11, 6, [3, 4, 6, 7, 0, 1, 2], 13⟩,
  ⟨14, 15, 12, 7, [2, 3, 5, 6, 7, 0, 1], 14⟩,
  ⟨15, 0, 13, 8, [1, 2, 4, 5, 6, 7, 0], 15⟩]


/-- The local variables of `sha256_runtime_routine`/`sha512_runtime_routine`: `a`..`h`, `bpc`, `x[16]`. -/
structure St (w : Nat) where
  regs : List (BitVec w)
  bpc : BitVec w
  x : List (BitVec w)

/-- `sha256_scalar_round` (sha256.h:59-69) / `sha512_scalar_round` (sha512.h:97-107) on the registers named by `args`
(in the order `a,b,d,e,f,g,h` of the parameters). -/
def scalarRound {w : Nat} (A : Alg w) (T1k : BitVec w) (args : List Nat) (s : St w) : St w :=
  let r (i : Nat) : BitVec w := s.regs.getD (args.getD i 0) 0
  let a := r 0; let b := r 1; let d := r 2; let e := r 3; let f := r 4; let g := r 5; let h := r 6
  let T1k := T1k + (h + A.S1 e + A.ch e f g)
  let h := A.S0 a
  let apb := a ^^^ b
  let h := h + ((apb &&& s.bpc) ^^^ b)
  let d := d + T1k
  let h := h + T1k
  { s with regs := (s.regs.set (args.getD 2 0) d).set (args.getD 6 0) h, bpc := apb }

/-- The `i`-th host word of a block: `W[i]` through the aliasing pointer (sha256_scalar.h:53, sha512_scalar.h:53),
followed by `big_endian` (`big = true`) or `little_endian` (`big = false`), which swap on a host of the other order. -/
def loadWord (native big : Bool) (w : Nat) (block : List Nat) (i : Nat) : BitVec w :=
  let v := Lebe.ofRepr native ((block.drop (i * (w / 8))).take (w / 8))
  BitVec.ofNat w (if native = big then byteSwap (w / 8) v else v)

/-- One of the first sixteen round calls. -/
def line0 {w : Nat} (A : Alg w) (W : Nat → BitVec w) (s : St w) (l : Line0) : St w :=
  let s := { s with x := s.x.set l.xi (W l.wi) }
  scalarRound A (W l.wi + BitVec.ofNat w l.k) l.args s

/-- One of the round calls of the loop body; `k5` is the table at the current position. -/
def line {w : Nat} (A : Alg w) (k5 : List Nat) (s : St w) (l : Line) : St w :=
  let x (i : Nat) : BitVec w := s.x.getD i 0
  let v := x l.xi + (A.s0 (x l.x0) + A.s1 (x l.x1) + x l.x9)
  let s := { s with x := s.x.set l.xi v }
  scalarRound A (v + BitVec.ofNat w (k5.getD l.ki 0)) l.args s

/-- `for(k5=k5_start;k5!=k5_last;k5+=16)` (sha256_scalar.h:71-89, sha512_scalar.h:71-89); the first argument bounds the
number of iterations. -/
def k5Loop {w : Nat} (A : Alg w) (lines : List Line) : Nat → List Nat → St w → St w
  | 0, _, s => s
  | _, [], s => s
  | n + 1, k5, s => k5Loop A lines n (k5.drop 16) (lines.foldl (line A k5) s)

/-- One iteration of the block loop of `sha256_runtime_routine` (sha256_scalar.h:51-98) /
`sha512_runtime_routine` (sha512_scalar.h:51-98). `K.drop 16` is `create_k256scalar()` (sha256_scalar.h:3-13). -/
def runtimeBlock {w : Nat} (native : Bool) (A : Alg w) (K : List Nat) (lines0 : List Line0) (lines : List Line)
    (state : List (BitVec w)) (block : List Nat) : List (BitVec w) :=
  let s : St w := { regs := state, bpc := state.getD 1 0 ^^^ state.getD 2 0, x := List.replicate 16 0 }
  let s := lines0.foldl (line0 A (loadWord native true w block)) s
  let s := k5Loop A lines (K.drop 16).length (K.drop 16) s
  List.zipWith (· + ·) state s.regs

/-- The local variables of `sha256_do_constexpr_function`/`sha512_do_constexpr_function`. -/
structure CSt (w : Nat) where
  a : BitVec w
  b : BitVec w
  c : BitVec w
  d : BitVec w
  e : BitVec w
  f : BitVec w
  g : BitVec w
  h : BitVec w
  X : List (BitVec w)

/-- The body of the loop `for(;i<16;++i)` (sha256.h:88-121, sha512.h:116-153). -/
def constBody0 {w : Nat} (A : Alg w) (K : List Nat) (data : Nat → BitVec w) (s : CSt w) (i : Nat) : CSt w :=
  let T1 := s.h
  let T1 := T1 + A.S1 s.e
  let T1 := T1 + A.ch s.e s.f s.g
  let T1 := T1 + BitVec.ofNat w (K.getD i 0)
  let T1 := T1 + data i
  let T2 := A.S0 s.a
  let T2 := T2 + maj s.a s.b s.c
  { a := T1 + T2, b := s.a, c := s.b, d := s.c, e := s.d + T1, f := s.e, g := s.f, h := s.g, X := s.X.set i (data i) }

/-- The body of the loop `for(;i<64;++i)` (sha256.h:123-141; sha512.h:155-174 with 80). -/
def constBody {w : Nat} (A : Alg w) (K : List Nat) (s : CSt w) (i : Nat) : CSt w :=
  let s0 := A.s0 (s.X.getD ((i + 1) &&& 0xf) 0)
  let s1 := A.s1 (s.X.getD ((i + 14) &&& 0xf) 0)
  let v := s.X.getD (i &&& 0xf) 0 + (s0 + s1 + s.X.getD ((i + 9) &&& 0xf) 0)
  let T1 := v + (s.h + A.S1 s.e + A.ch s.e s.f s.g + BitVec.ofNat w (K.getD i 0))
  let T2 := A.S0 s.a + maj s.a s.b s.c
  { a := T1 + T2, b := s.a, c := s.b, d := s.c, e := s.d + T1, f := s.e, g := s.f, h := s.g,
    X := s.X.set (i &&& 0xf) v }

/-- The shifted-and-combined big-endian word read during constant evaluation (sha256.h:93). -/
def constWord (w : Nat) (block : List Nat) (i : Nat) : BitVec w :=
  ((block.drop (i * (w / 8))).take (w / 8)).foldl (fun v b => (v <<< 8) ||| BitVec.ofNat w b) 0

/-- One iteration of the block loop of `sha256_do_constexpr_function` (sha256.h:80-152) /
`sha512_do_constexpr_function` (sha512.h:109-185), for a given way of reading words. -/
def constBlock {w : Nat} (A : Alg w) (K : List Nat) (data : Nat → BitVec w) (state : List (BitVec w)) : List (BitVec w) :=
  let r (i : Nat) : BitVec w := state.getD i 0
  let s : CSt w := { a := r 0, b := r 1, c := r 2, d := r 3, e := r 4, f := r 5, g := r 6, h := r 7, X := List.replicate 16 0 }
  let s := (List.range 16).foldl (constBody0 A K data) s
  let s := (List.range' 16 (K.length - 16)).foldl (constBody A K) s
  [r 0 + s.a, r 1 + s.b, r 2 + s.c, r 3 + s.d, r 4 + s.e, r 5 + s.f, r 6 + s.g, r 7 + s.h]

/-- The `initialize_value`s (sha256.h:209,219, sha512.h:244,254,264,274). -/
def iv224 : List (BitVec 32) := [0xc1059ed8, 0x367cd507, 0x3070dd17, 0xf70e5939, 0xffc00b31, 0x68581511, 0x64f98fa7, 0xbefa4fa4]
@[inherit_doc iv224]
def iv256 : List (BitVec 32) := [0x6a09e667, 0xbb67ae85, 0x3c6ef372, 0xa54ff53a,0x510e527f, 0x9b05688c, 0x1f83d9ab, 0x5be0cd19]
@[inherit_doc iv224]
def iv512 : List (BitVec 64) := [0x6a09e667f3bcc908, 0xbb67ae8584caa73b,0x3c6ef372fe94f82b, 0xa54ff53a5f1d36f1,0x510e527fade682d1, 0x9b05688c2b3e6c1f,0x1f83d9abfb41bd6b, 0x5be0cd19137e2179]
@[inherit_doc iv224]
def iv512_224 : List (BitVec 64) := [0x8c3d37c819544da2,0x73e1996689dcd4d6,0x1dfab7ae32ff9c82,0x679dd514582f9fcf,0x0f6d2b697bd44da8,0x77e36f7304c48942,0x3f9d85a86a1d36c8,0x1112e6ad91d692a1]
@[inherit_doc iv224]
def iv512_256 : List (BitVec 64) := [0x22312194fc2bf72c,0x9f555fa3c84c64c2,0x2393b86b6f53b151,0x963877195940eabd,0x96283ee2a88effe3,0xbe5e1e2553863992,0x2b0199fc2c85b8aa,0x0eb72ddc81c52ca2]
@[inherit_doc iv224]
def iv384 : List (BitVec 64) := [0xcbbb9d5dc1059ed8,0x629a292a367cd507,0x9159015a3070dd17,0x152fecd8f70e5939,0x67332667ffc00b31,0x8eb44a8768581511,0xdb0c2e0d64f98fa7,0x47b5481dbefa4fa4]

/-- `class sha256` (sha256.h:176-205) with the scalar routine, in a context with a 64-bit counter (sha256.h:229-233). -/
def sha256P (native : Bool) : Params (List (BitVec 32)) :=
  { bs := 64, cs := 8, big := true, comp := runtimeBlock native alg256 K256 sha256Lines0 sha256Lines }

/-- `class sha512` (sha512.h:210-239) with the scalar routine, in a context with a 128-bit counter (sha512.h:285-288). -/
def sha512P (native : Bool) : Params (List (BitVec 64)) :=
  { bs := 128, cs := 16, big := true, comp := runtimeBlock native alg512 K512 sha512Lines0 sha512Lines }

/-- The same classes during constant evaluation. -/
def sha256ConstP : Params (List (BitVec 32)) :=
  { bs := 64, cs := 8, big := true, comp := fun s b => constBlock alg256 K256 (constWord 32 b) s }
@[inherit_doc sha256ConstP]
def sha512ConstP : Params (List (BitVec 64)) :=
  { bs := 128, cs := 16, big := true, comp := fun s b => constBlock alg512 K512 (constWord 64 b) s }

/-- Using a context from construction to `digest_to_byte_ptr` at run time. -/
def digest {w : Nat} (native : Bool) (P : Params (List (BitVec w))) (iv : List (BitVec w)) (size : Nat) (buf : List Nat)
    (chunks : List (List Nat)) : Option (List Nat) :=
  (run native P iv buf chunks).map fun s => digestBytes native (w / 8) size P.big (s.map BitVec.toNat)

end Verif.Hash.Sha2
