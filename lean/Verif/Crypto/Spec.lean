/-!
# Published specifications: PKCS#7 padding, ChaCha20, AES key expansion

Written from RFC 5652 §6.3, RFC 8439 §2.1-2.3 and FIPS 197, independently of the library.
-/
namespace Verif.Crypto.Spec

/-! ## RFC 5652 §6.3 -/

/-- "The input shall be padded at the trailing end with `k-(lth mod k)` octets all having value `k-(lth mod k)`". -/
def pkcs7 (k : Nat) (msg : List Nat) : List Nat :=
  msg ++ List.replicate (k - msg.length % k) (k - msg.length % k)

/-! ## RFC 8439 -/

/-- The state is a vector of sixteen 32-bit words (§2.2). -/
abbrev State := Fin 16 → BitVec 32

/-- `x <<<= n` (§2.1): roll to the left. -/
def roll (x : BitVec 32) (n : Nat) : BitVec 32 := (x <<< n) ||| (x >>> (32 - n))

/-- The quarter round on four numbers (§2.1), as one line of assignments per step of the RFC. -/
def quarter (a b c d : BitVec 32) : BitVec 32 × BitVec 32 × BitVec 32 × BitVec 32 :=
  let a := a + b; let d := d ^^^ a; let d := roll d 16
  let c := c + d; let b := b ^^^ c; let b := roll b 12
  let a := a + b; let d := d ^^^ a; let d := roll d 8
  let c := c + d; let b := b ^^^ c; let b := roll b 7
  (a, b, c, d)

/-- `QUARTERROUND(x, y, z, w)` (§2.2): the quarter round on the words with these indices. -/
def QUARTERROUND (i j k l : Fin 16) (s : State) : State :=
  let q := quarter (s i) (s j) (s k) (s l)
  fun m => if m = i then q.1 else if m = j then q.2.1 else if m = k then q.2.2.1 else if m = l then q.2.2.2 else s m

/-- `inner_block` (§2.3.1): four column rounds and four diagonal rounds. -/
def innerBlock (s : State) : State :=
  let s := QUARTERROUND 0 4 8 12 s
  let s := QUARTERROUND 1 5 9 13 s
  let s := QUARTERROUND 2 6 10 14 s
  let s := QUARTERROUND 3 7 11 15 s
  let s := QUARTERROUND 0 5 10 15 s
  let s := QUARTERROUND 1 6 11 12 s
  let s := QUARTERROUND 2 7 8 13 s
  QUARTERROUND 3 4 9 14 s

/-- Ten times `inner_block`, then the input is added (§2.3.1). -/
def blockWords (s : State) : State := fun m => (Nat.repeat innerBlock 10 s) m + s m

/-- The four octets of a word, the least significant first. -/
def leBytes (w : BitVec 32) : List Nat :=
  [w.toNat % 256, w.toNat / 2 ^ 8 % 256, w.toNat / 2 ^ 16 % 256, w.toNat / 2 ^ 24]

/-- `serialize` (§2.3.1): the words in order, each in little-endian order. -/
def serialize (s : State) : List Nat := (List.finRange 16).flatMap fun m => leBytes (s m)

/-- The ChaCha20 block function on an initial state. -/
def chacha20Block (s : State) : List Nat := serialize (blockWords s)

/-- The example of §2.3.2: key `00:01:…:1f`, nonce `00:00:00:09:00:00:00:4a:00:00:00:00`, counter 1. -/
def rfcExample : State := fun m =>
  [0x61707865, 0x3320646e, 0x79622d32, 0x6b206574, 0x03020100, 0x07060504, 0x0b0a0908, 0x0f0e0d0c,
   0x13121110, 0x17161514, 0x1b1a1918, 0x1f1e1d1c, 0x00000001, 0x09000000, 0x4a000000, 0x00000000].getD m.val 0

/-- The serialised block printed in §2.3.2. -/
def rfcExampleBlock : List Nat := [
  0x10, 0xf1, 0xe7, 0xe4, 0xd1, 0x3b, 0x59, 0x15, 0x50, 0x0f, 0xdd, 0x1f, 0xa3, 0x20, 0x71, 0xc4,
  0xc7, 0xd1, 0xf4, 0xc7, 0x33, 0xc0, 0x68, 0x03, 0x04, 0x22, 0xaa, 0x9a, 0xc3, 0xd4, 0x6c, 0x4e,
  0xd2, 0x82, 0x64, 0x46, 0x07, 0x9f, 0xaa, 0x09, 0x14, 0xc2, 0xd7, 0x05, 0xd9, 0x8b, 0x02, 0xa2,
  0xb5, 0x12, 0x9c, 0xd1, 0xde, 0x16, 0x4e, 0xb9, 0xcb, 0xd0, 0x83, 0xe8, 0xa2, 0x50, 0x3c, 0x4e]

/-! ## FIPS 197 -/

abbrev Byte := BitVec 8

/-- Multiplication by `x` modulo `x^8+x^4+x^3+x+1` (FIPS 197 §4.2.1); polynomials over `GF(2)` are numbers. -/
def xtime (b : Nat) : Nat := if b < 128 then 2 * b else (2 * b) ^^^ 0x11b

/-- Multiplication in `GF(2^8)` (§4.2), by the first `n` coefficients of `b`. -/
def gmulN : Nat → Nat → Nat → Nat
  | 0, _, _ => 0
  | n + 1, a, b => (if b % 2 = 1 then a else 0) ^^^ gmulN n (xtime a) (b / 2)
/-- Multiplication in `GF(2^8)` (§4.2). -/
def gmul (a b : Nat) : Nat := gmulN 8 a b

/-- The multiplicative inverse, `a^254 = a^2·a^4·a^8·a^16·a^32·a^64·a^128` (and `0` for `0`); `ginv_inverse` in
`AesLemmas` checks that it is the inverse. -/
def ginv (a : Nat) : Nat :=
  let a2 := gmul a a
  let a4 := gmul a2 a2
  let a8 := gmul a4 a4
  let a16 := gmul a8 a8
  let a32 := gmul a16 a16
  let a64 := gmul a32 a32
  let a128 := gmul a64 a64
  gmul (gmul (gmul a2 a4) (gmul a8 a16)) (gmul (gmul a32 a64) a128)

/-- `SubBytes` on one byte (§5.1.1): the inverse `b`, then `b_i ⊕ b_{i+4} ⊕ b_{i+5} ⊕ b_{i+6} ⊕ b_{i+7} ⊕ c_i` (indices
modulo 8) with `c = {63}`. -/
def sbox (a : Byte) : Byte :=
  let b := ginv a.toNat
  let rot (k : Nat) : Nat := (b / 2 ^ k) ^^^ (b * 2 ^ (8 - k)) % 256
  BitVec.ofNat 8 (b ^^^ rot 4 ^^^ rot 5 ^^^ rot 6 ^^^ rot 7 ^^^ 0x63)

/-- A word: four bytes `[a0,a1,a2,a3]`. -/
structure Word where
  a0 : Byte
  a1 : Byte
  a2 : Byte
  a3 : Byte
deriving DecidableEq

def Word.xor (v w : Word) : Word := ⟨v.a0 ^^^ w.a0, v.a1 ^^^ w.a1, v.a2 ^^^ w.a2, v.a3 ^^^ w.a3⟩
/-- `SubWord()` (§5.2). -/
def SubWord (w : Word) : Word := ⟨sbox w.a0, sbox w.a1, sbox w.a2, sbox w.a3⟩
/-- `RotWord()` (§5.2). -/
def RotWord (w : Word) : Word := ⟨w.a1, w.a2, w.a3, w.a0⟩
/-- `Rcon[i] = [x^{i-1},{00},{00},{00}]` (§5.2). -/
def Rcon (i : Nat) : Word := ⟨BitVec.ofNat 8 (Nat.repeat xtime (i - 1) 1), 0, 0, 0⟩

/-- Word `i` of the key. -/
def keyWord (key : List Byte) (i : Nat) : Word :=
  ⟨key.getD (4 * i) 0, key.getD (4 * i + 1) 0, key.getD (4 * i + 2) 0, key.getD (4 * i + 3) 0⟩

/-- Word `w[i]` of the key expansion (§5.2, Figure 11). -/
def w (Nk : Nat) (key : List Byte) (i : Nat) : Word :=
  if Nk = 0 ∨ i < Nk then keyWord key i
  else
    let temp := w Nk key (i - 1)
    let temp := if i % Nk = 0 then (SubWord (RotWord temp)).xor (Rcon (i / Nk))
      else if 6 < Nk ∧ i % Nk = 4 then SubWord temp else temp
    (w Nk key (i - Nk)).xor temp
termination_by i
decreasing_by all_goals omega

/-- Round key `r`: words `4r` to `4r+3` as sixteen bytes. -/
def roundKey (Nk : Nat) (key : List Byte) (r : Nat) : List Byte :=
  (List.range 4).flatMap fun j => let v := w Nk key (4 * r + j); [v.a0, v.a1, v.a2, v.a3]

end Verif.Crypto.Spec
