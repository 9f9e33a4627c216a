import Verif.Hash.SimdModel
/-!
# Model of the SHA-256 code for the x86 SHA extensions: `sha256_x86_sha_extensions.h`, `sha256_x86_sha_extensions_msvc.h`
(under `include/fast_io_crypto/hash/`)

The instructions are given by their description in the Intel Software Developer's Manual (volume 2: SHA256RNDS2, SHA256MSG1,
SHA256MSG2, PALIGNR, PSHUFD, PBLENDW, PSHUFB); these descriptions are part of the trusted base. A 128-bit vector is the list of
its four 32-bit lanes, lowest first. The statements executed for one block are kept as tables generated from the source text.
These routines exist only on x86, so the host is little-endian.
-/
namespace Verif.Hash.Ni
open Verif Verif.Hash Verif.Hash.Simd

abbrev X := BitVec 32

/-- The functions named in the description of the instructions. -/
def bigS0 (x : X) : X := x.rotateRight 2 ^^^ x.rotateRight 13 ^^^ x.rotateRight 22
@[inherit_doc bigS0]
def bigS1 (x : X) : X := x.rotateRight 6 ^^^ x.rotateRight 11 ^^^ x.rotateRight 25
@[inherit_doc bigS0]
def smallS0 (x : X) : X := x.rotateRight 7 ^^^ x.rotateRight 18 ^^^ (x >>> 3)
@[inherit_doc bigS0]
def smallS1 (x : X) : X := x.rotateRight 17 ^^^ x.rotateRight 19 ^^^ (x >>> 10)
@[inherit_doc bigS0]
def chI (e f g : X) : X := (e &&& f) ^^^ (~~~ e &&& g)
@[inherit_doc bigS0]
def majI (a b c : X) : X := (a &&& b) ^^^ (a &&& c) ^^^ (b &&& c)

/-- One of the two rounds of SHA256RNDS2 on `(A,B,C,D,E,F,G,H)`. -/
def niRound (wk : X) : X × X × X × X × X × X × X × X → X × X × X × X × X × X × X × X
  | (a, b, c, d, e, f, g, h) =>
    (chI e f g + bigS1 e + wk + h + majI a b c + bigS0 a, a, b, c, chI e f g + bigS1 e + wk + h + d, e, f, g)

/-- SHA256RNDS2 `dst, src2, <wk>`: `dst` holds `C,D,G,H` (highest first), `src2` holds `A,B,E,F`; the result is `A,B,E,F`. -/
def sha256rnds2 (dst src2 wk : Vec 32) : Vec 32 :=
  let c := dst.getD 3 0; let d := dst.getD 2 0; let g := dst.getD 1 0; let h := dst.getD 0 0
  let a := src2.getD 3 0; let b := src2.getD 2 0; let e := src2.getD 1 0; let f := src2.getD 0 0
  match niRound (wk.getD 1 0) (niRound (wk.getD 0 0) (a, b, c, d, e, f, g, h)) with
  | (a, b, _, _, e, f, _, _) => [f, e, b, a]

/-- SHA256MSG1 `dst, src`. -/
def sha256msg1 (dst src : Vec 32) : Vec 32 :=
  let w0 := dst.getD 0 0; let w1 := dst.getD 1 0; let w2 := dst.getD 2 0; let w3 := dst.getD 3 0; let w4 := src.getD 0 0
  [w0 + smallS0 w1, w1 + smallS0 w2, w2 + smallS0 w3, w3 + smallS0 w4]

/-- SHA256MSG2 `dst, src`. -/
def sha256msg2 (dst src : Vec 32) : Vec 32 :=
  let w14 := src.getD 2 0; let w15 := src.getD 3 0
  let w16 := dst.getD 0 0 + smallS1 w14
  let w17 := dst.getD 1 0 + smallS1 w15
  let w18 := dst.getD 2 0 + smallS1 w16
  let w19 := dst.getD 3 0 + smallS1 w17
  [w16, w17, w18, w19]

/-- PSHUFD: lane `i` of the result is the lane of the source selected by bits `2i, 2i+1` of the immediate. -/
def pshufd (v : Vec 32) (imm : Nat) : Vec 32 := (List.range 4).map fun i => v.getD (imm / 4 ^ i % 4) 0

/-- PALIGNR by a multiple of four bytes: the concatenation `hi:lo` shifted right. -/
def palignr (hi lo : Vec 32) (bytes : Nat) : Vec 32 := ((lo ++ hi).drop (bytes / 4)).take 4

/-- PBLENDW: 16-bit element `i` comes from `b` if bit `i` of the immediate is set; here for immediates whose bits agree in
pairs, so that whole lanes are selected. -/
def pblendw (a b : Vec 32) (imm : Nat) : Vec 32 := (List.range 4).map fun i => if imm.testBit (2 * i) then b.getD i 0 else a.getD i 0

/-- Loading 16 bytes (MOVDQU). -/
def loadu (block : List Nat) (off : Nat) : Vec 32 :=
  (List.range 4).map fun i => BitVec.ofNat 32 (ofLe ((block.drop (off + 4 * i)).take 4))

/-- `swap_endian` (simd/gcc_clang.h:239-) / PSHUFB with `0x0c0d0e0f08090a0b0405060700010203`: the bytes of every lane
reversed. -/
def bswapLanes (v : Vec 32) : Vec 32 := v.map fun x => BitVec.ofNat 32 (byteSwap 4 x.toNat)

/-- The vector variables. -/
inductive Reg where
  | st0 | st1 | msg | m0 | m1 | m2 | m3
deriving DecidableEq

/-- The statements: `d.load(block+off)`; `d=bswap(s)`; `msg=wrap_add(s,constant)`; `d=sha256rnds2(d,s,msg)`;
`msg=pshufd(msg,0x0E)`; `d=sha256msg1(d,s)`; `d=sha256msg2(d,s)`; `d+=palignr(hi,lo,4 bytes)` (the immediate `compiler_magic` is
4 for clang, which counts bytes, and 32 for gcc, which counts bits: lines 20-26). -/
inductive NOp where
  | load (d : Reg) (off : Nat)
  | swapTo (d s : Reg)
  | addk (s : Reg) (k : List Int)
  | rnds2 (d s : Reg)
  | pshufd
  | sigma1 (d s : Reg)
  | sigma2 (d s : Reg)
  | addalign (d hi lo : Reg)
deriving DecidableEq

/-- The values of the vector variables. -/
abbrev Env := Reg → Vec 32
/-- Assignment. -/
def Env.set (e : Env) (r : Reg) (v : Vec 32) : Env := fun x => if x = r then v else e x

/-- One statement. -/
def nstep (block : List Nat) (e : Env) : NOp → Env
  | .load d off => e.set d (loadu block off)
  | .swapTo d s => e.set d (bswapLanes (e s))
  | .addk s k => e.set .msg (vadd (e s) (k.map fun z => BitVec.ofInt 32 z))
  | .rnds2 d s => e.set d (sha256rnds2 (e d) (e s) (e .msg))
  | .pshufd => e.set .msg (pshufd (e .msg) 0x0E)
  | .sigma1 d s => e.set d (sha256msg1 (e d) (e s))
  | .sigma2 d s => e.set d (sha256msg2 (e d) (e s))
  | .addalign d hi lo => e.set d (vadd (e d) (palignr (e hi) (e lo) 4))

/-- The statements for one block (sha256_x86_sha_extensions.h:29-232); `x.swap_endian()` is `swapTo x x`. -/
def niOps : List NOp := [
  .load .m0 0,
  .swapTo .m0 .m0,
  .addk .m0 [1116352408, 1899447441, -1245643825, -373957723],
  .rnds2 .st1 .st0,
  .pshufd,
  .rnds2 .st0 .st1,
  .load .m1 16,
  .swapTo .m1 .m1,
  .addk .m1 [961987163, 1508970993, -1841331548, -1424204075],
  .rnds2 .st1 .st0,
  .pshufd,
  .rnds2 .st0 .st1,
  .sigma1 .m0 .m1,
  .load .m2 32,
  .swapTo .m2 .m2,
  .addk .m2 [-670586216, 310598401, 607225278, 1426881987],
  .rnds2 .st1 .st0,
  .pshufd,
  .rnds2 .st0 .st1,
  .sigma1 .m1 .m2,
  .load .m3 48,
  .swapTo .m3 .m3,
  .addk .m3 [1925078388, -2132889090, -1680079193, -1046744716],
  .rnds2 .st1 .st0,
  .addalign .m0 .m3 .m2,
  .sigma2 .m0 .m3,
  .pshufd,
  .rnds2 .st0 .st1,
  .sigma1 .m2 .m3,
  .addk .m0 [-459576895, -272742522, 264347078, 604807628],
  .rnds2 .st1 .st0,
  .addalign .m1 .m0 .m3,
  .sigma2 .m1 .m0,
  .pshufd,
  .rnds2 .st0 .st1,
  .sigma1 .m3 .m0,
  .addk .m1 [770255983, 1249150122, 1555081692, 1996064986],
  .rnds2 .st1 .st0,
  .addalign .m2 .m1 .m0,
  .sigma2 .m2 .m1,
  .pshufd,
  .rnds2 .st0 .st1,
  .sigma1 .m0 .m1,
  .addk .m2 [-1740746414, -1473132947, -1341970488, -1084653625],
  .rnds2 .st1 .st0,
  .addalign .m3 .m2 .m1,
  .sigma2 .m3 .m2,
  .pshufd,
  .rnds2 .st0 .st1,
  .sigma1 .m1 .m2,
  .addk .m3 [-958395405, -710438585, 113926993, 338241895],
  .rnds2 .st1 .st0,
  .addalign .m0 .m3 .m2,
  .sigma2 .m0 .m3,
  .pshufd,
  .rnds2 .st0 .st1,
  .sigma1 .m2 .m3,
  .addk .m0 [666307205, 773529912, 1294757372, 1396182291],
  .rnds2 .st1 .st0,
  .addalign .m1 .m0 .m3,
  .sigma2 .m1 .m0,
  .pshufd,
  .rnds2 .st0 .st1,
  .sigma1 .m3 .m0,
  .addk .m1 [1695183700, 1986661051, -2117940946, -1838011259],
  .rnds2 .st1 .st0,
  .addalign .m2 .m1 .m0,
  .sigma2 .m2 .m1,
  .pshufd,
  .rnds2 .st0 .st1,
  .sigma1 .m0 .m1,
  .addk .m2 [-1564481375, -1474664885, -1035236496, -949202525],
  .rnds2 .st1 .st0,
  .addalign .m3 .m2 .m1,
  .sigma2 .m3 .m2,
  .pshufd,
  .rnds2 .st0 .st1,
  .sigma1 .m1 .m2,
  .addk .m3 [-778901479, -694614492, -200395387, 275423344],
  .rnds2 .st1 .st0,
  .addalign .m0 .m3 .m2,
  .sigma2 .m0 .m3,
  .pshufd,
  .rnds2 .st0 .st1,
  .sigma1 .m2 .m3,
  .addk .m0 [430227734, 506948616, 659060556, 883997877],
  .rnds2 .st1 .st0,
  .addalign .m1 .m0 .m3,
  .sigma2 .m1 .m0,
  .pshufd,
  .rnds2 .st0 .st1,
  .sigma1 .m3 .m0,
  .addk .m1 [958139571, 1322822218, 1537002063, 1747873779],
  .rnds2 .st1 .st0,
  .addalign .m2 .m1 .m0,
  .sigma2 .m2 .m1,
  .pshufd,
  .rnds2 .st0 .st1,
  .addk .m2 [1955562222, 2024104815, -2067236844, -1933114872],
  .rnds2 .st1 .st0,
  .addalign .m3 .m2 .m1,
  .sigma2 .m3 .m2,
  .pshufd,
  .rnds2 .st0 .st1,
  .addk .m3 [-1866530822, -1538233109, -1090935817, -965641998],
  .rnds2 .st1 .st0,
  .pshufd,
  .rnds2 .st0 .st1]

/-- The statements for one block (sha256_x86_sha_extensions_msvc.h:29-180); the constants are given as lanes (lowest first) of
`_mm_set_epi64x(hi,lo)`. -/
def niOpsMsvc : List NOp := [
  .load .msg 0,
  .swapTo .m0 .msg,
  .addk .m0 [0x428a2f98, 0x71374491, 0xb5c0fbcf, 0xe9b5dba5],
  .rnds2 .st1 .st0,
  .pshufd,
  .rnds2 .st0 .st1,
  .load .m1 16,
  .swapTo .m1 .m1,
  .addk .m1 [0x3956c25b, 0x59f111f1, 0x923f82a4, 0xab1c5ed5],
  .rnds2 .st1 .st0,
  .pshufd,
  .rnds2 .st0 .st1,
  .sigma1 .m0 .m1,
  .load .m2 32,
  .swapTo .m2 .m2,
  .addk .m2 [0xd807aa98, 0x12835b01, 0x243185be, 0x550c7dc3],
  .rnds2 .st1 .st0,
  .pshufd,
  .rnds2 .st0 .st1,
  .sigma1 .m1 .m2,
  .load .m3 48,
  .swapTo .m3 .m3,
  .addk .m3 [0x72be5d74, 0x80deb1fe, 0x9bdc06a7, 0xc19bf174],
  .rnds2 .st1 .st0,
  .addalign .m0 .m3 .m2,
  .sigma2 .m0 .m3,
  .pshufd,
  .rnds2 .st0 .st1,
  .sigma1 .m2 .m3,
  .addk .m0 [0xe49b69c1, 0xefbe4786, 0x0fc19dc6, 0x240ca1cc],
  .rnds2 .st1 .st0,
  .addalign .m1 .m0 .m3,
  .sigma2 .m1 .m0,
  .pshufd,
  .rnds2 .st0 .st1,
  .sigma1 .m3 .m0,
  .addk .m1 [0x2de92c6f, 0x4a7484aa, 0x5cb0a9dc, 0x76f988da],
  .rnds2 .st1 .st0,
  .addalign .m2 .m1 .m0,
  .sigma2 .m2 .m1,
  .pshufd,
  .rnds2 .st0 .st1,
  .sigma1 .m0 .m1,
  .addk .m2 [0x983e5152, 0xa831c66d, 0xb00327c8, 0xbf597fc7],
  .rnds2 .st1 .st0,
  .addalign .m3 .m2 .m1,
  .sigma2 .m3 .m2,
  .pshufd,
  .rnds2 .st0 .st1,
  .sigma1 .m1 .m2,
  .addk .m3 [0xc6e00bf3, 0xd5a79147, 0x06ca6351, 0x14292967],
  .rnds2 .st1 .st0,
  .addalign .m0 .m3 .m2,
  .sigma2 .m0 .m3,
  .pshufd,
  .rnds2 .st0 .st1,
  .sigma1 .m2 .m3,
  .addk .m0 [0x27b70a85, 0x2e1b2138, 0x4d2c6dfc, 0x53380d13],
  .rnds2 .st1 .st0,
  .addalign .m1 .m0 .m3,
  .sigma2 .m1 .m0,
  .pshufd,
  .rnds2 .st0 .st1,
  .sigma1 .m3 .m0,
  .addk .m1 [0x650a7354, 0x766a0abb, 0x81c2c92e, 0x92722c85],
  .rnds2 .st1 .st0,
  .addalign .m2 .m1 .m0,
  .sigma2 .m2 .m1,
  .pshufd,
  .rnds2 .st0 .st1,
  .sigma1 .m0 .m1,
  .addk .m2 [0xa2bfe8a1, 0xa81a664b, 0xc24b8b70, 0xc76c51a3],
  .rnds2 .st1 .st0,
  .addalign .m3 .m2 .m1,
  .sigma2 .m3 .m2,
  .pshufd,
  .rnds2 .st0 .st1,
  .sigma1 .m1 .m2,
  .addk .m3 [0xd192e819, 0xd6990624, 0xf40e3585, 0x106aa070],
  .rnds2 .st1 .st0,
  .addalign .m0 .m3 .m2,
  .sigma2 .m0 .m3,
  .pshufd,
  .rnds2 .st0 .st1,
  .sigma1 .m2 .m3,
  .addk .m0 [0x19a4c116, 0x1e376c08, 0x2748774c, 0x34b0bcb5],
  .rnds2 .st1 .st0,
  .addalign .m1 .m0 .m3,
  .sigma2 .m1 .m0,
  .pshufd,
  .rnds2 .st0 .st1,
  .sigma1 .m3 .m0,
  .addk .m1 [0x391c0cb3, 0x4ed8aa4a, 0x5b9cca4f, 0x682e6ff3],
  .rnds2 .st1 .st0,
  .addalign .m2 .m1 .m0,
  .sigma2 .m2 .m1,
  .pshufd,
  .rnds2 .st0 .st1,
  .addk .m2 [0x748f82ee, 0x78a5636f, 0x84c87814, 0x8cc70208],
  .rnds2 .st1 .st0,
  .addalign .m3 .m2 .m1,
  .sigma2 .m3 .m2,
  .pshufd,
  .rnds2 .st0 .st1,
  .addk .m3 [0x90befffa, 0xa4506ceb, 0xbef9a3f7, 0xc67178f2],
  .rnds2 .st1 .st0,
  .pshufd,
  .rnds2 .st0 .st1]

/-- The variables at the start of a block (`msg`.. uninitialised in the source, zero here). -/
def env0 (s : Vec 32 × Vec 32) : Env := fun r => match r with
  | .st0 => s.1
  | .st1 => s.2
  | _ => [0, 0, 0, 0]

/-- One block on `(state0, state1)`, with the feed-forward (sha256_x86_sha_extensions.h:235-239, _msvc.h:24-27,182-184). -/
def niBlock (ops : List NOp) (s : Vec 32 × Vec 32) (block : List Nat) : Vec 32 × Vec 32 :=
  let e := ops.foldl (nstep block) (env0 s)
  (vadd s.1 (e .st0), vadd s.2 (e .st1))

/-- `sha256_runtime_routine` (sha256_x86_sha_extensions.h:9-249) on a range of blocks. -/
def niRun (state : List X) (blocks : List (List Nat)) : List X :=
  let g (i : Nat) : X := state.getD i 0
  let s := blocks.foldl (niBlock niOps) ([g 5, g 4, g 1, g 0], [g 7, g 6, g 3, g 2])
  [s.1.getD 3 0, s.1.getD 2 0, s.2.getD 3 0, s.2.getD 2 0, s.1.getD 1 0, s.1.getD 0 0, s.2.getD 1 0, s.2.getD 0 0]

/-- `sha256_runtime_routine` (sha256_x86_sha_extensions_msvc.h:6-193) on a range of blocks. -/
def niRunMsvc (state : List X) (blocks : List (List Nat)) : List X :=
  let tmp := (List.range 4).map fun i => state.getD i 0
  let state1 := (List.range 4).map fun i => state.getD (4 + i) 0
  let tmp := pshufd tmp 0xB1
  let state1 := pshufd state1 0x1B
  let state0 := palignr tmp state1 8
  let state1 := pblendw state1 tmp 0xF0
  let s := blocks.foldl (niBlock niOpsMsvc) (state0, state1)
  let tmp := pshufd s.1 0x1B
  let state1 := pshufd s.2 0xB1
  let state0 := pblendw tmp state1 0xF0
  let state1 := palignr state1 tmp 8
  state0 ++ state1

/-- `class sha256` (sha256.h:176-205) with one of the two routines, called for every block (`niRun_eq` shows that a call for a
range of blocks is the same). -/
def sha256NiP (run : List X → List (List Nat) → List X) : Params (List X) :=
  { bs := 64, cs := 8, big := true, comp := fun s b => run s [b] }

end Verif.Hash.Ni
