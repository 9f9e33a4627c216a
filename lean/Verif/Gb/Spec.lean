import Verif.Utf.Spec
/-!
# GB 18030 (specification)

The structure of the encoding: single bytes for ASCII, two bytes, four bytes numbered linearly. Characters beyond the basic plane have the four-byte codes
from number 189000 on (90 30 81 30); the four-byte codes of the basic plane are given in the order of the code points to the characters without a
two-byte code, beginning with number 0 (81 30 81 30). Which characters have a two-byte code is data of the standard, and not stated here.
-/
namespace Verif.Gb
open Verif

/-- The four-byte code with number `k`. -/
def four (k : Nat) : List Nat := [0x81 + k / 12600, 0x30 + k / 1260 % 10, 0x81 + k / 10 % 126, 0x30 + k % 10]

/-- A two-byte code. -/
def IsTwo (l : List Nat) : Prop := ∃ a b, l = [a, b] ∧ 0x81 ≤ a ∧ a ≤ 0xFE ∧ 0x40 ≤ b ∧ b ≤ 0xFE ∧ b ≠ 0x7F

/-- How many characters of the basic plane below `c` satisfy `p`. -/
def before (p : Nat → Bool) (c : Nat) : Nat := ((List.range c).filter fun v => 0x80 ≤ v && !(0xD800 ≤ v && v < 0xE000) && p v).length

/-- Characters that the code does not read back: a list of first and last code points. -/
def lostRanges : List (Nat × Nat) :=
  [(0x80, 0xA3), (0xA5, 0xA6), (0xA9, 0xAF), (0xB2, 0xB6), (0xB8, 0xD6), (0xD8, 0xDF), (0xE2, 0xE7), (0xEB, 0xEB), (0xEE, 0xF1), (0xF4, 0xF6), (0xF8,
   0xF8), (0xFB, 0xFB), (0xFD, 0x100), (0x102, 0x112), (0x114, 0x11A), (0x11C, 0x12A), (0x12C, 0x143), (0x145, 0x147), (0x149, 0x14C), (0x14E, 0x16A),
   (0x16C, 0x1CD), (0x1CF, 0x1CF), (0x1D1, 0x1D1), (0x1D3, 0x1D3), (0x1D5, 0x1D5), (0x1D7, 0x1D7), (0x1D9, 0x1D9), (0x1DB, 0x1DB), (0x1DD, 0x1F8),
   (0x1FA, 0x250), (0x252, 0x260), (0x262, 0x2C6), (0x2C8, 0x2C8), (0x2CC, 0x2D8), (0x2DA, 0x390), (0x3A2, 0x3A2), (0x3AA, 0x3B0), (0x3C2, 0x3C2),
   (0x3CA, 0x400), (0x402, 0x40F), (0x450, 0x450), (0xE78D, 0xE796), (0xE7C7, 0xE7C8), (0xE7E7, 0xE7F3), (0xE815, 0xE864), (0xF92D, 0xF978), (0xF97A,
   0xF994), (0xF996, 0xF9E6), (0xF9E8, 0xF9F0), (0xF9F2, 0xFA0B), (0xFA10, 0xFA10), (0xFA12, 0xFA12), (0xFA15, 0xFA17), (0xFA19, 0xFA1E), (0xFA22,
   0xFA22), (0xFA25, 0xFA26), (0xFE32, 0xFE32), (0xFE45, 0xFE48), (0xFE53, 0xFE53), (0xFE58, 0xFE58), (0xFE67, 0xFE67), (0xFE6C, 0xFF00), (0xFF5F,
   0xFFDF)]

/-- A character that the code does not read back after writing it. -/
def Lost (c : Nat) : Prop := ∃ r ∈ lostRanges, r.1 ≤ c ∧ c ≤ r.2

instance (c : Nat) : Decidable (Lost c) := by unfold Lost; infer_instance

/-- The input `l` consists of characters, one after the other as `adv` reads them from the rest of the input (code point and length), and a
rest `t` that is empty or incomplete. -/
inductive Chars (adv : List Nat → Option (Option (Nat × Nat))) : List Nat → List Nat → List Nat → Prop
  | done (t : List Nat) : t = [] ∨ adv t = some none → Chars adv t [] t
  | char (l : List Nat) (c n : Nat) (cs t : List Nat) : l ≠ [] → adv l = some (some (c, n)) → Chars adv (l.drop n) cs t → Chars adv l (c :: cs) t

/-- Between memories, `out` was written at `o.2`, where `o'.2` is behind it, and nothing outside the `cap` cells from there on. -/
def Output (cap : Nat) (o o' : Mem × Nat) (out : List Nat) : Prop :=
  o'.2 = o.2 + out.length ∧ Utf.Wrote cap o.1 o'.1 o.2 out

end Verif.Gb
