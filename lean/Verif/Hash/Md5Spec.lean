import Verif.Hash.Fips
/-!
# RFC 1321: MD5
-/
namespace Verif.Hash.Rfc1321
open Verif Verif.Hash

def F (x y z : BitVec 32) : BitVec 32 := (x &&& y) ||| (~~~ x &&& z)
def G (x y z : BitVec 32) : BitVec 32 := (x &&& z) ||| (y &&& ~~~ z)
def H (x y z : BitVec 32) : BitVec 32 := x ^^^ y ^^^ z
def I (x y z : BitVec 32) : BitVec 32 := y ^^^ (x ||| ~~~ z)

/-- The four registers. -/
structure V where
  a : BitVec 32
  b : BitVec 32
  c : BitVec 32
  d : BitVec 32
deriving DecidableEq

/-- The 64-element table `T` of §3.4: `T[i]` is the integer part of `2^32 * abs(sin(i))` (`Verif.Hash.Sine.T_sine`). -/
def T : List Nat := [
  0xd76aa478, 0xe8c7b756, 0x242070db, 0xc1bdceee, 0xf57c0faf, 0x4787c62a, 0xa8304613, 0xfd469501,
  0x698098d8, 0x8b44f7af, 0xffff5bb1, 0x895cd7be, 0x6b901122, 0xfd987193, 0xa679438e, 0x49b40821,
  0xf61e2562, 0xc040b340, 0x265e5a51, 0xe9b6c7aa, 0xd62f105d, 0x02441453, 0xd8a1e681, 0xe7d3fbc8,
  0x21e1cde6, 0xc33707d6, 0xf4d50d87, 0x455a14ed, 0xa9e3e905, 0xfcefa3f8, 0x676f02d9, 0x8d2a4c8a,
  0xfffa3942, 0x8771f681, 0x6d9d6122, 0xfde5380c, 0xa4beea44, 0x4bdecfa9, 0xf6bb4b60, 0xbebfbc70,
  0x289b7ec6, 0xeaa127fa, 0xd4ef3085, 0x04881d05, 0xd9d4d039, 0xe6db99e5, 0x1fa27cf8, 0xc4ac5665,
  0xf4292244, 0x432aff97, 0xab9423a7, 0xfc93a039, 0x655b59c3, 0x8f0ccc92, 0xffeff47d, 0x85845dd1,
  0x6fa87e4f, 0xfe2ce6e0, 0xa3014314, 0x4e0811a1, 0xf7537e82, 0xbd3af235, 0x2ad7d2bb, 0xeb86d391]

/-- The round function of operation `t` (0..63). -/
def fn (t : Nat) : BitVec 32 → BitVec 32 → BitVec 32 → BitVec 32 :=
  if t < 16 then F else if t < 32 then G else if t < 48 then H else I

/-- The word index `k` of `[abcd k s i]`. -/
def kIdx (t : Nat) : Nat :=
  if t < 16 then t else if t < 32 then (5 * t + 1) % 16 else if t < 48 then (3 * t + 5) % 16 else 7 * t % 16

/-- The shift `s` of `[abcd k s i]`. -/
def shift (t : Nat) : Nat :=
  (if t < 16 then [7, 12, 17, 22] else if t < 32 then [5, 9, 14, 20] else if t < 48 then [4, 11, 16, 23]
   else [6, 10, 15, 21]).getD (t % 4) 0

/-- One operation `a = b + ((a + f(b,c,d) + X[k] + T[i]) <<< s)`; the registers then take the roles `d,a,b,c`. -/
def step (X : Nat → BitVec 32) (t : Nat) (v : V) : V :=
  { a := v.d
    b := v.b + Fips.ROTL (shift t) (v.a + fn t v.b v.c v.d + X (kIdx t) + BitVec.ofNat 32 (T.getD t 0))
    c := v.b
    d := v.c }

def steps (X : Nat → BitVec 32) (v : V) : Nat → V
  | 0 => v
  | t + 1 => step X t (steps X v t)

/-- Low-order byte first (§2). -/
def word (block : List Nat) (i : Nat) : BitVec 32 := BitVec.ofNat 32 (ofLe ((block.drop (i * 4)).take 4))

def compress (v : V) (block : List Nat) : V :=
  let r := steps (word block) v 64
  { a := v.a + r.a, b := v.b + r.b, c := v.c + r.c, d := v.d + r.d }

/-- §3.3: the bytes 01 23 45 67, 89 ab cd ef, fe dc ba 98, 76 54 32 10, low-order first. -/
def iv : V := ⟨0x67452301#32, 0xefcdab89#32, 0x98badcfe#32, 0x10325476#32⟩

def V.toList (v : V) : List (BitVec 32) := [v.a, v.b, v.c, v.d]

/-- The message digest (§3.5): A, B, C, D, low-order byte first. -/
def MD5 (m : List Nat) : List Nat :=
  (hashState 64 8 false compress iv m).toList.flatMap fun x => leBytes 4 x.toNat

end Verif.Hash.Rfc1321
