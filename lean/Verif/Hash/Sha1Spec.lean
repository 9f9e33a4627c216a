import Verif.Hash.Fips
/-!
# FIPS 180-4 SHA-1
-/
namespace Verif.Hash.Fips
open Verif Verif.Hash

/-- The five working variables. -/
structure V1 where
  a : BitVec 32
  b : BitVec 32
  c : BitVec 32
  d : BitVec 32
  e : BitVec 32
deriving DecidableEq

/-- (4.1) -/
def f1 (t : Nat) (x y z : BitVec 32) : BitVec 32 :=
  if t ≤ 19 then Ch x y z
  else if t ≤ 39 then x ^^^ y ^^^ z
  else if t ≤ 59 then Maj x y z
  else x ^^^ y ^^^ z

/-- §4.2.1 -/
def K1 (t : Nat) : BitVec 32 :=
  if t ≤ 19 then 0x5a827999#32 else if t ≤ 39 then 0x6ed9eba1#32 else if t ≤ 59 then 0x8f1bbcdc#32 else 0xca62c1d6#32

/-- §6.1.2 step 1 -/
def W1 (M : Nat → BitVec 32) (t : Nat) : BitVec 32 :=
  if t < 16 then M t else ROTL 1 (W1 M (t - 3) ^^^ W1 M (t - 8) ^^^ W1 M (t - 14) ^^^ W1 M (t - 16))
termination_by t
decreasing_by all_goals omega

/-- §6.1.2 step 3 -/
def round1 (t : Nat) (wt : BitVec 32) (v : V1) : V1 :=
  let T := ROTL 5 v.a + f1 t v.b v.c v.d + v.e + K1 t + wt
  { e := v.d, d := v.c, c := ROTL 30 v.b, b := v.a, a := T }

def rounds1 (M : Nat → BitVec 32) (H : V1) : Nat → V1
  | 0 => H
  | t + 1 => round1 t (W1 M t) (rounds1 M H t)

def compress1 (H : V1) (block : List Nat) : V1 :=
  let v := rounds1 (word 32 block) H 80
  { a := v.a + H.a, b := v.b + H.b, c := v.c + H.c, d := v.d + H.d, e := v.e + H.e }

/-- §5.3.1 -/
def ivSha1 : V1 := ⟨0x67452301#32, 0xefcdab89#32, 0x98badcfe#32, 0x10325476#32, 0xc3d2e1f0#32⟩

def V1.toList (v : V1) : List (BitVec 32) := [v.a, v.b, v.c, v.d, v.e]

/-- §6.1: SHA-1 of a byte string. -/
def SHA1 (m : List Nat) : List Nat :=
  (hashState 64 8 true compress1 ivSha1 m).toList.flatMap fun x => beBytes 4 x.toNat

end Verif.Hash.Fips
