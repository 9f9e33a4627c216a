import Verif.Utf.Spec
/-!
# What a converting stream should do

Independent of buffers: the text that went in, in the source encoding, against the text that comes out, in the target encoding.
-/
namespace Verif.Deco
open Verif Verif.Utf

/-- `out` is the text of the input `l` as far as `l` contains complete characters: ill-formed pieces have become U+FFFD; the units of
a character that is cut off at the end of `l` are `tail`. -/
def ConvertedUpTo (s d : Enc) (l out tail : List Nat) : Prop := ∃ cs, Reads s l cs tail ∧ out = encText d cs

/-- `out` is the text of the complete input `l`; a character cut off at the end counts as an ill-formed piece. -/
def Converted (s d : Enc) (l out : List Nat) : Prop := ∃ cs, ReadsAll s l cs ∧ out = encText d cs

/-- Input the converter from `s` to `d` is known to handle in pieces: UTF-8 of any kind, UTF-16 without a lone high surrogate before
another unit, and otherwise the beginning of a well-formed text. -/
def Accepted (s d : Enc) (l : List Nat) : Prop :=
  (s = .u8 ∧ ∀ u ∈ l, u < 256) ∨
  (s = .u16 ∧ d ≠ .ebcdic ∧ (∀ u ∈ l, u < 2 ^ 16) ∧
    ∀ i h x, l[i]? = some h → l[i + 1]? = some x → 0xD800 ≤ h → h < 0xDC00 → 0xDC00 ≤ x ∧ x < 0xE000) ∨
  ∃ b, WellFormed s (l ++ b)

end Verif.Deco
