import Verif.Crypto.Spec
/-!
# Model of `include/fast_io_crypto/{padding,streamcipher/chacha,cipher}`

`std::size_t` has 64 bits. An access outside an array is `none`. Vector registers are lists of lanes.
-/
namespace Verif.Crypto

/-! ## Padding -/

/-- `details::my_copy(inp.begin(),inp.end(),text.data())` into an array. -/
def copyInto (text inp : List Nat) : Option (List Nat) :=
  if text.length < inp.length then none else some (inp ++ text.drop inp.length)

/-- `for(i=block_size-1;i>=lo;--i) text[i]=pad;` (pkcs7_padding.h:15-16). `text[i]` is evaluated with `i` in
`std::size_t`: after `i==0` the counter wraps to `2^64-1`, which is the index of no
element of an array of fewer than `2^64` bytes. -/
def padLoop (lo pad : Nat) : Nat → List Nat → Option (List Nat)
  | i, text =>
    if lo ≤ i then
      if i < text.length then
        match i with
        | 0 => if lo ≤ 2 ^ 64 - 1 then none else some (text.set 0 pad)
        | i + 1 => padLoop lo pad i (text.set (i + 1) pad)
      else none
    else some text

/-- `pkcs7_padding<block_size>::operator()(inp,remaining_length)` (pkcs7_padding.h:7-19). -/
def pkcs7 (bs : Nat) (inp : List Nat) (rem : Nat) : Option (List Nat) := do
  let pad := rem &&& 0xFF
  let text ← copyInto (List.replicate bs 0) inp
  padLoop ((bs + 2 ^ 64 - rem) % 2 ^ 64) pad ((bs + 2 ^ 64 - 1) % 2 ^ 64) text

/-- `zero_padding<block_size>::operator()(inp,remaining_length)` (zero_padding.h:7-16); `remaining_length` is unused. -/
def zeroPad (bs : Nat) (inp : List Nat) : Option (List Nat) := copyInto (List.replicate bs 0) inp

/-! ## ChaCha, scalar -/

/-- `chachaqr(x[i],x[j],x[k],x[l])` (scalar.h:11-31) on the array. -/
def chachaqr (i j k l : Nat) (x : List (BitVec 32)) : List (BitVec 32) :=
  let a := x.getD i 0; let b := x.getD j 0; let c := x.getD k 0; let d := x.getD l 0
  let a := a + b
  let d := d ^^^ a
  let d := d.rotateLeft 16
  let c := c + d
  let b := b ^^^ c
  let b := b.rotateLeft 12
  let a := a + b
  let d := d ^^^ a
  let d := d.rotateLeft 8
  let c := c + d
  let b := b ^^^ c
  let b := b.rotateLeft 7
  (((x.set i a).set j b).set k c).set l d

/-- The body of the round loop (scalar.h:65-77). -/
def scalarRound (x : List (BitVec 32)) : List (BitVec 32) :=
  let x := chachaqr 0 4 8 12 x
  let x := chachaqr 1 5 9 13 x
  let x := chachaqr 2 6 10 14 x
  let x := chachaqr 3 7 11 15 x
  let x := chachaqr 0 5 10 15 x
  let x := chachaqr 1 6 11 12 x
  let x := chachaqr 2 7 8 13 x
  chachaqr 3 4 9 14 x

/-- `fast_io::byte_swap` on 32 bits (used at scalar.h:84). -/
def byteSwap (v : BitVec 32) : BitVec 32 :=
  ((v &&& 0xff) <<< 24) ||| ((v &&& 0xff00) <<< 8) ||| ((v >>> 8) &&& 0xff00) ||| (v >>> 24)

/-- The bytes of a word in memory on a little-endian (`le = true`) or big-endian host. -/
def repr (le : Bool) (v : BitVec 32) : List Nat :=
  let b (i : Nat) := (v >>> (8 * i)).toNat % 256
  if le then [b 0, b 1, b 2, b 3] else [b 3, b 2, b 1, b 0]

/-- `memcpy(out+pos,bytes,bytes.length)`. -/
def writeBytes (out : List Nat) (pos : Nat) (bytes : List Nat) : List Nat :=
  out.take pos ++ bytes ++ out.drop (pos + bytes.length)

/-- The output loop from index `i`, with `n` words left (scalar.h:79-104). -/
def outLoop (le : Bool) (indata x : List (BitVec 32)) : Nat → Nat → List Nat → List Nat
  | 0, _, out => out
  | n + 1, i, out =>
    let res := x.getD i 0 + indata.getD i 0
    let res := if le then res else byteSwap res
    outLoop le indata x n (i + 1) (writeBytes out (i * 4) (repr le res))

/-- `chacha_main_routine` (scalar.h:40-106) on a host of either byte order; `out` are the 64 bytes at `outdata` before. -/
def chachaMain (le : Bool) (out : List Nat) (indata : List (BitVec 32)) : List Nat :=
  let x := Nat.repeat scalarRound (20 / 2) indata
  outLoop le indata x 16 0 out

/-! ## ChaCha, four lanes -/

/-- `__builtin_shufflevector(v,v,i,j,k,l)`. -/
def shuf (v : List (BitVec 32)) (i j k l : Nat) : List (BitVec 32) := [v.getD i 0, v.getD j 0, v.getD k 0, v.getD l 0]
/-- Lanewise addition, exclusive or, and the rotation `(d<<n)+(d>>m)`. -/
def vadd (v u : List (BitVec 32)) := List.zipWith (· + ·) v u
@[inherit_doc vadd] def vxor (v u : List (BitVec 32)) := List.zipWith (· ^^^ ·) v u
@[inherit_doc vadd] def vrot (n m : Nat) (v : List (BitVec 32)) : List (BitVec 32) :=
  v.map fun (d : BitVec 32) => (d <<< n) + (d >>> m)

/-- The four vectors `a,b,c,d`. -/
structure V4 where
  a : List (BitVec 32)
  b : List (BitVec 32)
  c : List (BitVec 32)
  d : List (BitVec 32)

/-- `chacha_simd16_qr4_round_impl<0>` (simd16.h:34-48). -/
def qr4 (s : V4) : V4 :=
  let a := vadd s.a s.b
  let d := vxor s.d a
  let d := vrot 16 16 d
  let c := vadd s.c d
  let b := vxor s.b c
  let b := vrot 12 20 b
  let a := vadd a b
  let d := vxor d a
  let d := vrot 8 24 d
  let c := vadd c d
  let b := vxor b c
  let b := vrot 7 25 b
  ⟨a, b, c, d⟩

/-- `chacha_simd16_qr4_round_impl<1>` (simd16.h:24-30). -/
def qr4even (s : V4) : V4 :=
  let s := { s with b := shuf s.b 3 0 1 2, c := shuf s.c 2 3 0 1, d := shuf s.d 1 2 3 0 }
  let s := qr4 s
  { s with b := shuf s.b 1 2 3 0, c := shuf s.c 2 3 0 1, d := shuf s.d 3 0 1 2 }

/-- The body of the round loop (simd16.h:68-74). -/
def simdRound (s : V4) : V4 := qr4even (qr4 (qr4even (qr4 s)))

/-- `x.store(outdata+pos)`: the four lanes in memory order. -/
def storeVec (le : Bool) (out : List Nat) (pos : Nat) (v : List (BitVec 32)) : List Nat :=
  writeBytes out pos (v.flatMap (repr le))

/-- `chacha_runtime_routine` (simd16.h:56-95). -/
def chachaSimd (le : Bool) (out : List Nat) (indata : List (BitVec 32)) : List Nat :=
  let ld (p : Nat) := (indata.drop p).take 4
  let s := Nat.repeat simdRound (20 / 4) ⟨ld 0, ld 4, ld 8, ld 12⟩
  let a := vadd s.a (ld 0)
  let b := vadd s.b (ld 4)
  let c := vadd s.c (ld 8)
  let d := vadd s.d (ld 12)
  let sw (v : List (BitVec 32)) := if le then v else v.map byteSwap
  let out := storeVec le out 0 (sw a)
  let out := storeVec le out (4 * 4) (sw b)
  let out := storeVec le out (8 * 4) (sw c)
  storeVec le out (12 * 4) (sw d)

/-! ## AES key schedule -/

open Spec (Byte sbox)

/-- `_mm_xor_si128`. -/
def xor128 (v u : List Byte) : List Byte := List.zipWith (· ^^^ ·) v u
/-- `_mm_slli_si128(v,n)`: towards higher byte addresses, zeros enter. -/
def slli (v : List Byte) (n : Nat) : List Byte := (List.replicate n 0 ++ v).take 16
/-- `_mm_srli_si128(v,n)`. -/
def srli (v : List Byte) (n : Nat) : List Byte := v.drop n ++ List.replicate n 0
/-- Dword `i` of a vector. -/
def dw (v : List Byte) (i : Nat) : List Byte := (v.drop (4 * i)).take 4
/-- `_mm_shuffle_epi32(v,imm)`. -/
def shuffle32 (v : List Byte) (imm : Nat) : List Byte :=
  dw v (imm % 4) ++ dw v (imm / 4 % 4) ++ dw v (imm / 16 % 4) ++ dw v (imm / 64 % 4)
/-- `_mm_shuffle_pd(v,u,imm)`. -/
def shufflePd (v u : List Byte) (imm : Nat) : List Byte :=
  (v.drop (8 * (imm % 2))).take 8 ++ (u.drop (8 * (imm / 2 % 2))).take 8
/-- `_mm_aeskeygenassist_si128(v,imm)` (Intel SDM): with `X1`, `X3` the dwords 1 and 3 of `v`,
`[SubWord(X1), RotWord(SubWord(X1)) xor RCON, SubWord(X3), RotWord(SubWord(X3)) xor RCON]`, `RCON` the byte `imm`
in the low byte of a dword. -/
def keygenassist (v : List Byte) (imm : Nat) : List Byte :=
  let half (x : List Byte) : List Byte :=
    let s := x.map sbox
    s ++ List.zipWith (· ^^^ ·) (s.drop 1 ++ s.take 1) [BitVec.ofNat 8 imm, 0, 0, 0]
  half (dw v 1) ++ half (dw v 3)

/-- `aes_128_key_exp_common` (aes.h:12-17). -/
def keyExpCommon (key : List Byte) : List Byte :=
  let key := xor128 key (slli key 4)
  let key := xor128 key (slli key 4)
  xor128 key (slli key 4)
/-- `aes_128_key_exp`, `aes_128_key_expansion` (aes.h:19-27). -/
def key128 (k : List Byte) (rcon : Nat) : List Byte :=
  let keygened := shuffle32 (keygenassist k rcon) 0xff
  xor128 (keyExpCommon k) keygened
/-- `aes_192_key_exp_2` (aes.h:29-33). -/
def key192b (key key2 : List Byte) : List Byte :=
  xor128 (shuffle32 key 0xff) (xor128 key2 (slli key2 4))
/-- `aes_192_key_exp` (aes.h:34-36). -/
def key192 (key key2 : List Byte) (I : Nat) : List Byte :=
  xor128 (keyExpCommon key) (shuffle32 (keygenassist key2 I) 0x55)
/-- `aes_256_key_exp` (aes.h:38-40). -/
def key256 (key key2 : List Byte) (I : Nat) : List Byte :=
  xor128 (keyExpCommon key) (shuffle32 (keygenassist key2 I) 0xff)
/-- `aes_256_key_exp_2` (aes.h:42-44). -/
def key256b (key key2 : List Byte) : List Byte :=
  xor128 (keyExpCommon key) (shuffle32 (keygenassist key2 0x00) 0xff)

/-- `_mm_loadu_si128(key+p)`. -/
def load128 (key : List Byte) (p : Nat) : List Byte := (key.drop p).take 16

/-- `key_schedule_size` (aes.h:54). -/
def scheduleSize (keysize : Nat) : Nat := if keysize = 16 then 10 else if keysize = 24 then 12 else 15

/-- `key_schedule[i] = v`; outside the array there is no defined result. -/
def put (ks : List (List Byte)) (i : Nat) (v : List Byte) : Option (List (List Byte)) :=
  if i < ks.length then some (ks.set i v) else none
/-- Reading `key_schedule[i]`. -/
def rd (ks : List (List Byte)) (i : Nat) : List Byte := ks.getD i []

/-- The branch `keysize==16` of the constructor (aes.h:62-72). `ks` is the uninitialised member array. -/
def aes128 (ks : List (List Byte)) (key : List Byte) : Option (List (List Byte)) := do
  let ks ← put ks 0 (load128 key 0)
  let ks ← put ks 1 (key128 (rd ks 0) 0x01)
  let ks ← put ks 2 (key128 (rd ks 1) 0x02)
  let ks ← put ks 3 (key128 (rd ks 2) 0x04)
  let ks ← put ks 4 (key128 (rd ks 3) 0x08)
  let ks ← put ks 5 (key128 (rd ks 4) 0x10)
  let ks ← put ks 6 (key128 (rd ks 5) 0x20)
  let ks ← put ks 7 (key128 (rd ks 6) 0x40)
  let ks ← put ks 8 (key128 (rd ks 7) 0x80)
  let ks ← put ks 9 (key128 (rd ks 8) 0x1B)
  put ks 10 (key128 (rd ks 9) 0x36)

/-- The branch `keysize==24`, first part (aes.h:76-81); the second and third component of the state are `temp[0]` and
`temp[1]`. The straight-line code is cut into five pieces. -/
def aes192A (ks : List (List Byte)) (key : List Byte) : Option (List (List Byte) × List Byte × List Byte) := do
  let ks ← put ks 0 (load128 key 0)
  let ks ← put ks 1 (load128 key 8)
  let ks ← put ks 1 (srli (rd ks 1) 8)
  let t0 := key192 (rd ks 0) (rd ks 1) 0x01
  let t1 := key192b t0 (rd ks 1)
  return (ks, t0, t1)

/-- aes.h:82-87. -/
def aes192B : List (List Byte) × List Byte × List Byte → Option (List (List Byte) × List Byte × List Byte)
  | (ks, t0, t1) => do
    let ks ← put ks 1 (shufflePd (rd ks 1) t0 0)
    let ks ← put ks 2 (shufflePd t0 t1 1)
    let ks ← put ks 3 (key192 t0 t1 0x02)
    let ks ← put ks 4 (key192b (rd ks 3) t1)
    let t0 := key192 (rd ks 3) (rd ks 4) 0x04
    let t1 := key192b t0 (rd ks 4)
    return (ks, t0, t1)

/-- aes.h:88-93. -/
def aes192C : List (List Byte) × List Byte × List Byte → Option (List (List Byte) × List Byte × List Byte)
  | (ks, t0, t1) => do
    let ks ← put ks 4 (shufflePd (rd ks 4) t0 0)
    let ks ← put ks 5 (shufflePd t0 t1 1)
    let ks ← put ks 6 (key192 t0 t1 0x08)
    let ks ← put ks 7 (key192b (rd ks 6) t1)
    let t0 := key192 (rd ks 6) (rd ks 7) 0x10
    let t1 := key192b t0 (rd ks 7)
    return (ks, t0, t1)

/-- aes.h:94-99. -/
def aes192D : List (List Byte) × List Byte × List Byte → Option (List (List Byte) × List Byte × List Byte)
  | (ks, t0, t1) => do
    let ks ← put ks 7 (shufflePd (rd ks 7) t0 0)
    let ks ← put ks 8 (shufflePd t0 t1 1)
    let ks ← put ks 9 (key192 t0 t1 0x20)
    let ks ← put ks 10 (key192b (rd ks 9) t1)
    let t0 := key192 (rd ks 9) (rd ks 10) 0x40
    let t1 := key192b t0 (rd ks 10)
    return (ks, t0, t1)

/-- aes.h:100-102. -/
def aes192E : List (List Byte) × List Byte × List Byte → Option (List (List Byte))
  | (ks, t0, t1) => do
    let ks ← put ks 10 (shufflePd (rd ks 10) t0 0)
    let ks ← put ks 11 (shufflePd t0 t1 1)
    put ks 12 (key192 t0 t1 0x80)

/-- The branch `keysize==24` (aes.h:76-102). -/
def aes192 (ks : List (List Byte)) (key : List Byte) : Option (List (List Byte)) := do
  let s ← aes192A ks key
  let s ← aes192B s
  let s ← aes192C s
  let s ← aes192D s
  aes192E s

/-- The branch `keysize==32` (aes.h:107-121). -/
def aes256 (ks : List (List Byte)) (key : List Byte) : Option (List (List Byte)) := do
  let ks ← put ks 0 (load128 key 0)
  let ks ← put ks 1 (load128 key 16)
  let ks ← put ks 2 (key256 (rd ks 0) (rd ks 1) 0x01)
  let ks ← put ks 3 (key256b (rd ks 1) (rd ks 2))
  let ks ← put ks 4 (key256 (rd ks 2) (rd ks 3) 0x02)
  let ks ← put ks 5 (key256b (rd ks 3) (rd ks 4))
  let ks ← put ks 6 (key256 (rd ks 4) (rd ks 5) 0x04)
  let ks ← put ks 7 (key256b (rd ks 5) (rd ks 6))
  let ks ← put ks 8 (key256 (rd ks 6) (rd ks 7) 0x08)
  let ks ← put ks 9 (key256b (rd ks 7) (rd ks 8))
  let ks ← put ks 10 (key256 (rd ks 8) (rd ks 9) 0x10)
  let ks ← put ks 11 (key256b (rd ks 9) (rd ks 10))
  let ks ← put ks 12 (key256 (rd ks 10) (rd ks 11) 0x20)
  let ks ← put ks 13 (key256b (rd ks 11) (rd ks 12))
  put ks 14 (key256 (rd ks 12) (rd ks 13) 0x40)

/-- The constructor of `aes<keysize>` (aes.h:56-123); `junk` is the initial content of the member array. -/
def aesCtor (keysize : Nat) (junk : List Byte) (key : List Byte) : Option (List (List Byte)) :=
  let ks := List.replicate (scheduleSize keysize) junk
  if keysize = 16 then aes128 ks key else if keysize = 24 then aes192 ks key else aes256 ks key

end Verif.Crypto
