import Verif.Core.Bytes
/-!
# What an iterated (Merkle–Damgård) hash is

Independent of the library: splitting a byte string into blocks, the padding of RFC 1321 §3.1-3.2 / FIPS 180-4 §5.1, and
the iteration of a compression function.
-/
namespace Verif.Hash
open Verif

/-- The consecutive `bs`-byte blocks of `p` (an incomplete rest is dropped). -/
def blocks (bs : Nat) (p : List Nat) : List (List Nat) :=
  (List.range (p.length / bs)).map fun i => (p.drop (i * bs)).take bs

/-- The number of zero bytes that fill up a message of `n` bytes, the byte 0x80 and a length field of `cs` bytes to a
whole number of blocks: the smallest one (`padZeros_spec`). -/
def padZeros (bs cs n : Nat) : Nat := (bs - (n + 1 + cs) % bs) % bs

/-- The padded message: message, 0x80, zeros, message length in bits (`cs` bytes, modulo `256^cs`). -/
def pad (bs cs : Nat) (big : Bool) (m : List Nat) : List Nat :=
  m ++ [0x80] ++ List.replicate (padZeros bs cs m.length) 0 ++
    (if big then beBytes cs (8 * m.length) else leBytes cs (8 * m.length))

/-- The chaining value after the whole padded message. -/
def hashState {S : Type} (bs cs : Nat) (big : Bool) (comp : S → List Nat → S) (iv : S) (m : List Nat) : S :=
  (blocks bs (pad bs cs big m)).foldl comp iv

/-- `padZeros` is the smallest number of zero bytes that completes the last block. -/
theorem padZeros_spec (bs cs n : Nat) (h : 0 < bs) :
    (n + 1 + padZeros bs cs n + cs) % bs = 0 ∧ ∀ z, (n + 1 + z + cs) % bs = 0 → padZeros bs cs n ≤ z := by
  have hr := Nat.mod_lt (n + 1 + cs) h
  have hd := Nat.div_add_mod (n + 1 + cs) bs
  unfold padZeros
  constructor
  · by_cases h0 : (n + 1 + cs) % bs = 0
    · rw [h0, Nat.sub_zero, Nat.mod_self]; simpa using h0
    · rw [Nat.mod_eq_of_lt (by omega : bs - (n + 1 + cs) % bs < bs)]
      rw [show n + 1 + (bs - (n + 1 + cs) % bs) + cs = bs * ((n + 1 + cs) / bs) + bs by omega]
      simp
  · intro z hz
    by_cases h0 : (n + 1 + cs) % bs = 0
    · rw [h0]; simp
    · rw [Nat.mod_eq_of_lt (by omega : bs - (n + 1 + cs) % bs < bs)]
      by_contra hc
      have : n + 1 + z + cs = bs * ((n + 1 + cs) / bs) + ((n + 1 + cs) % bs + z) := by omega
      rw [this, Nat.mul_add_mod, Nat.mod_eq_of_lt (by omega)] at hz
      omega

/-- The padded message is a whole number of blocks. -/
theorem pad_length_mod (bs cs : Nat) (big : Bool) (m : List Nat) (h : 0 < bs) : (pad bs cs big m).length % bs = 0 := by
  have := (padZeros_spec bs cs m.length h).1
  have hl : (pad bs cs big m).length = m.length + 1 + padZeros bs cs m.length + cs := by
    cases big <;> simp [pad, Nat.add_assoc, Nat.add_comm 1]
  rw [hl]; exact this

end Verif.Hash
