import Verif.Hash.CtxSpec
/-!
# FIPS 180-4: SHA-224, SHA-256, SHA-384, SHA-512, SHA-512/224, SHA-512/256

Written from the standard, independently of the library. The round constants and initial values are given by their
mathematical definition (fractional parts of roots of primes, FIPS 180-4 §4.2.2, §4.2.3, §5.3), not by tables.
-/
namespace Verif.Hash.Fips
open Verif Verif.Hash

/-- Circular right shift (§3.2). -/
def ROTR {w : Nat} (n : Nat) (x : BitVec w) : BitVec w := (x >>> n) ||| (x <<< (w - n))
/-- Circular left shift (§3.2). -/
def ROTL {w : Nat} (n : Nat) (x : BitVec w) : BitVec w := (x <<< n) ||| (x >>> (w - n))
/-- Right shift (§3.2). -/
def SHR {w : Nat} (n : Nat) (x : BitVec w) : BitVec w := x >>> n
/-- (4.2), (4.8) -/
def Ch {w : Nat} (x y z : BitVec w) : BitVec w := (x &&& y) ^^^ (~~~ x &&& z)
/-- (4.3), (4.9) -/
def Maj {w : Nat} (x y z : BitVec w) : BitVec w := (x &&& y) ^^^ (x &&& z) ^^^ (y &&& z)

/-- The parameters that distinguish the 32-bit and the 64-bit algorithms. -/
structure Sha2 (w : Nat) where
  S0 : BitVec w → BitVec w
  S1 : BitVec w → BitVec w
  s0 : BitVec w → BitVec w
  s1 : BitVec w → BitVec w
  K : List Nat
  rounds : Nat

def isPrime (p : Nat) : Bool := decide (2 ≤ p) && (List.range p).all fun d => decide (d < 2) || decide (p % d ≠ 0)
/-- The first `n` primes, for `n ≤ 80` (`primes_complete`: they are all the primes below 410). -/
def primes (n : Nat) : List Nat := ((List.range 410).filter isPrime).take n

/-- The largest `r < 2^n` with `r^k ≤ v`, found bit by bit. -/
def floorRoot (k v : Nat) : Nat → Nat → Nat
  | 0, r => r
  | n + 1, r => floorRoot k v n (if (r + 2 ^ n) ^ k ≤ v then r + 2 ^ n else r)

/-- The first `w` bits of the fractional part of the `k`-th root of `p` (for `p < 2^9`). -/
def rootBits (k w p : Nat) : Nat := floorRoot k (p * 2 ^ (k * w)) (w + 5) 0 % 2 ^ w

/-- SHA-224/256 (§4.1.2, §4.2.2): `K` are the first 32 bits of the fractional parts of the cube roots of the first 64
primes. -/
def sha256 : Sha2 32 where
  S0 x := ROTR 2 x ^^^ ROTR 13 x ^^^ ROTR 22 x
  S1 x := ROTR 6 x ^^^ ROTR 11 x ^^^ ROTR 25 x
  s0 x := ROTR 7 x ^^^ ROTR 18 x ^^^ SHR 3 x
  s1 x := ROTR 17 x ^^^ ROTR 19 x ^^^ SHR 10 x
  K := (primes 64).map (rootBits 3 32)
  rounds := 64

/-- SHA-384/512 (§4.1.3, §4.2.3): `K` are the first 64 bits of the fractional parts of the cube roots of the first 80
primes. -/
def sha512 : Sha2 64 where
  S0 x := ROTR 28 x ^^^ ROTR 34 x ^^^ ROTR 39 x
  S1 x := ROTR 14 x ^^^ ROTR 18 x ^^^ ROTR 41 x
  s0 x := ROTR 1 x ^^^ ROTR 8 x ^^^ SHR 7 x
  s1 x := ROTR 19 x ^^^ ROTR 61 x ^^^ SHR 6 x
  K := (primes 80).map (rootBits 3 64)
  rounds := 80

/-- The eight working variables. -/
structure V (w : Nat) where
  a : BitVec w
  b : BitVec w
  c : BitVec w
  d : BitVec w
  e : BitVec w
  f : BitVec w
  g : BitVec w
  h : BitVec w
deriving DecidableEq

/-- The message schedule (§6.2.2 step 1, §6.4.2 step 1) of the block with words `M`. -/
def W {w : Nat} (A : Sha2 w) (M : Nat → BitVec w) (t : Nat) : BitVec w :=
  if t < 16 then M t
  else A.s1 (W A M (t - 2)) + W A M (t - 7) + A.s0 (W A M (t - 15)) + W A M (t - 16)
termination_by t
decreasing_by all_goals omega

/-- One round (step 3). -/
def round {w : Nat} (A : Sha2 w) (k wt : BitVec w) (v : V w) : V w :=
  let T1 := v.h + A.S1 v.e + Ch v.e v.f v.g + k + wt
  let T2 := A.S0 v.a + Maj v.a v.b v.c
  { a := T1 + T2, b := v.a, c := v.b, d := v.c, e := v.d + T1, f := v.e, g := v.f, h := v.g }

/-- The working variables after `t` rounds. -/
def rounds {w : Nat} (A : Sha2 w) (M : Nat → BitVec w) (H : V w) : Nat → V w
  | 0 => H
  | t + 1 => round A (BitVec.ofNat w (A.K.getD t 0)) (W A M t) (rounds A M H t)

/-- The `i`-th big-endian word of a block. -/
def word (w : Nat) (block : List Nat) (i : Nat) : BitVec w := BitVec.ofNat w (ofBe ((block.drop (i * (w / 8))).take (w / 8)))

/-- Steps 1-4: the next hash value. -/
def compress {w : Nat} (A : Sha2 w) (H : V w) (block : List Nat) : V w :=
  let v := rounds A (word w block) H A.rounds
  { a := v.a + H.a, b := v.b + H.b, c := v.c + H.c, d := v.d + H.d, e := v.e + H.e, f := v.f + H.f, g := v.g + H.g,
    h := v.h + H.h }

def V.toList {w : Nat} (v : V w) : List (BitVec w) := [v.a, v.b, v.c, v.d, v.e, v.f, v.g, v.h]

/-- The hash value as a byte string. -/
def V.bytes {w : Nat} (v : V w) : List Nat := v.toList.flatMap fun x => beBytes (w / 8) x.toNat

def V.ofNats (w : Nat) (l : List Nat) : V w :=
  ⟨BitVec.ofNat w (l.getD 0 0), BitVec.ofNat w (l.getD 1 0), BitVec.ofNat w (l.getD 2 0), BitVec.ofNat w (l.getD 3 0),
   BitVec.ofNat w (l.getD 4 0), BitVec.ofNat w (l.getD 5 0), BitVec.ofNat w (l.getD 6 0), BitVec.ofNat w (l.getD 7 0)⟩

/-- §5.3.3: square roots of the first eight primes. -/
def ivSha256 : V 32 := V.ofNats 32 ((primes 8).map (rootBits 2 32))
/-- §5.3.5 -/
def ivSha512 : V 64 := V.ofNats 64 ((primes 8).map (rootBits 2 64))
/-- §5.3.4: square roots of the ninth through sixteenth primes. -/
def ivSha384 : V 64 := V.ofNats 64 (((primes 16).drop 8).map (rootBits 2 64))
/-- §5.3.2: the second 32 bits of the fractional parts of the square roots of the ninth through sixteenth primes. -/
def ivSha224 : V 32 := V.ofNats 32 (((primes 16).drop 8).map fun p => rootBits 2 64 p % 2 ^ 32)

/-- The SHA-512 hash value of a message from an initial value (§6.4). -/
def state512 (iv : V 64) (m : List Nat) : V 64 := hashState 128 16 true (compress sha512) iv m

/-- §5.3.6: the initial value of SHA-512/t is the SHA-512 digest of the name, computed from `H(0) xor a5a5...`. -/
def iv512t (name : String) : V 64 :=
  state512 ⟨ivSha512.a ^^^ 0xa5a5a5a5a5a5a5a5#64, ivSha512.b ^^^ 0xa5a5a5a5a5a5a5a5#64, ivSha512.c ^^^ 0xa5a5a5a5a5a5a5a5#64,
    ivSha512.d ^^^ 0xa5a5a5a5a5a5a5a5#64, ivSha512.e ^^^ 0xa5a5a5a5a5a5a5a5#64, ivSha512.f ^^^ 0xa5a5a5a5a5a5a5a5#64,
    ivSha512.g ^^^ 0xa5a5a5a5a5a5a5a5#64, ivSha512.h ^^^ 0xa5a5a5a5a5a5a5a5#64⟩ (name.toList.map Char.toNat)

/-- §6.2: SHA-256 of a byte string. -/
def SHA256 (m : List Nat) : List Nat := (hashState 64 8 true (compress sha256) ivSha256 m).bytes
/-- §6.3: SHA-224, the leftmost 224 bits. -/
def SHA224 (m : List Nat) : List Nat := (hashState 64 8 true (compress sha256) ivSha224 m).bytes.take 28
/-- §6.4: SHA-512. -/
def SHA512 (m : List Nat) : List Nat := (state512 ivSha512 m).bytes
/-- §6.5: SHA-384. -/
def SHA384 (m : List Nat) : List Nat := (state512 ivSha384 m).bytes.take 48
/-- §6.6: SHA-512/224. -/
def SHA512_224 (m : List Nat) : List Nat := (state512 (iv512t "SHA-512/224") m).bytes.take 28
/-- §6.7: SHA-512/256. -/
def SHA512_256 (m : List Nat) : List Nat := (state512 (iv512t "SHA-512/256") m).bytes.take 32

/-- `floorRoot` is the floor of the root. -/
theorem floorRoot_spec (k v : Nat) (hk : 0 < k) : ∀ n r, r ^ k ≤ v → v < (r + 2 ^ n) ^ k →
    (floorRoot k v n r) ^ k ≤ v ∧ v < (floorRoot k v n r + 1) ^ k
  | 0, r, h1, h2 => ⟨h1, by simpa [floorRoot] using h2⟩
  | n + 1, r, h1, h2 => by
    rw [floorRoot]
    split
    · rename_i h
      exact floorRoot_spec k v hk n _ h (by rw [Nat.add_assoc, ← Nat.two_mul, ← Nat.pow_succ']; exact h2)
    · rename_i h
      exact floorRoot_spec k v hk n _ h1 (by omega)

/-- `rootBits` are the leading fraction bits of the root: the integer with these low bits is `floor(p^(1/k) * 2^w)`. -/
theorem rootBits_spec (k w p : Nat) (hk : 0 < k) (hp : p < 2 ^ (5 * k)) :
    ∃ r, r ^ k ≤ p * 2 ^ (k * w) ∧ p * 2 ^ (k * w) < (r + 1) ^ k ∧ rootBits k w p = r % 2 ^ w := by
  refine ⟨_, (floorRoot_spec k (p * 2 ^ (k * w)) hk (w + 5) 0 ?_ ?_).1, (floorRoot_spec k (p * 2 ^ (k * w)) hk (w + 5) 0 ?_ ?_).2, rfl⟩
  all_goals first
    | (rw [Nat.zero_pow hk]; exact Nat.zero_le _)
    | (rw [Nat.zero_add, ← pow_mul, Nat.add_mul, pow_add, Nat.mul_comm w k, Nat.mul_comm]
       exact Nat.mul_lt_mul_of_pos_left hp (by positivity))

theorem isPrime_iff (p : Nat) : isPrime p = true ↔ 2 ≤ p ∧ ∀ d, 2 ≤ d → d < p → p % d ≠ 0 := by
  simp only [isPrime, Bool.and_eq_true, decide_eq_true_eq, List.all_eq_true, List.mem_range, Bool.or_eq_true]
  constructor
  · rintro ⟨h1, h2⟩
    refine ⟨h1, fun d hd hlt => ?_⟩
    rcases h2 d hlt with h | h
    · omega
    · exact h
  · rintro ⟨h1, h2⟩
    refine ⟨h1, fun d hlt => ?_⟩
    by_cases hd : d < 2
    · exact Or.inl hd
    · exact Or.inr (h2 d (by omega) hlt)

/-- There are exactly 80 primes below 410, so `primes n` are the first `n` primes for every `n ≤ 80`. -/
theorem primes_complete : ((List.range 410).filter isPrime).length = 80 := by decide +kernel

end Verif.Hash.Fips
