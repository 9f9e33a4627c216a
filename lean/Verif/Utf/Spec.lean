import Verif.Core.Mem
import Verif.Core.Bytes
import Verif.Utf.Tables
/-!
# Specification: the Unicode encoding forms

Written after The Unicode Standard, sections 3.9 (encoding forms) and UTR #16 (UTF-EBCDIC); independent of the code, except that
the byte permutation of UTF-EBCDIC is the table the code contains.
-/
namespace Verif.Utf
open Verif

/-- A Unicode scalar value. -/
def Scalar (c : Nat) : Prop := c < 0x110000 ∧ ¬ (0xD800 ≤ c ∧ c < 0xE000)

instance (c : Nat) : Decidable (Scalar c) := by unfold Scalar; infer_instance

/-- Encoding forms. -/
inductive Enc where
  | u8 | u16 | u32 | ebcdic
deriving DecidableEq, Repr

/-- UTF-8. -/
def enc8 (c : Nat) : List Nat :=
  if c < 0x80 then [c]
  else if c < 0x800 then [0xC0 + c / 64, 0x80 + c % 64]
  else if c < 0x10000 then [0xE0 + c / 4096, 0x80 + c / 64 % 64, 0x80 + c % 64]
  else [0xF0 + c / 262144, 0x80 + c / 4096 % 64, 0x80 + c / 64 % 64, 0x80 + c % 64]

/-- UTF-16. -/
def enc16 (c : Nat) : List Nat :=
  if c < 0x10000 then [c] else [0xD800 + (c - 0x10000) / 1024, 0xDC00 + (c - 0x10000) % 1024]

/-- The intermediate form I8 of UTF-EBCDIC. -/
def encI8 (c : Nat) : List Nat :=
  if c < 0xA0 then [c]
  else if c < 0x400 then [0xC0 + c / 32, 0xA0 + c % 32]
  else if c < 0x4000 then [0xE0 + c / 1024, 0xA0 + c / 32 % 32, 0xA0 + c % 32]
  else if c < 0x40000 then [0xF0 + c / 32768, 0xA0 + c / 1024 % 32, 0xA0 + c / 32 % 32, 0xA0 + c % 32]
  else [0xF8 + c / 1048576, 0xA0 + c / 32768 % 32, 0xA0 + c / 1024 % 32, 0xA0 + c / 32 % 32, 0xA0 + c % 32]

/-- The code units of a scalar value. -/
def enc (e : Enc) (c : Nat) : List Nat :=
  match e with
  | .u8 => enc8 c
  | .u16 => enc16 c
  | .u32 => [c]
  | .ebcdic => (encI8 c).map fun i => i8ToEbcdic.getD i 0

/-- The encoding of a text. -/
def encText (e : Enc) (cs : List Nat) : List Nat := cs.flatMap (enc e)

/-- Bytes per code unit. -/
def Enc.bytes : Enc → Nat
  | .u8 => 1
  | .u16 => 2
  | .u32 => 4
  | .ebcdic => 1

/-- A code unit stored in the other byte order. -/
def swapUnit (e : Enc) (x : Nat) : Nat := ofBe (leBytes e.bytes x)

/-- A text in encoding `e`, in native byte order or swapped. -/
def encOut (e : Enc) (swap : Bool) (cs : List Nat) : List Nat :=
  if swap then (encText e cs).map (swapUnit e) else encText e cs

/-- A well-formed sequence of code units. -/
def WellFormed (e : Enc) (l : List Nat) : Prop := ∃ cs, (∀ c ∈ cs, Scalar c) ∧ l = encText e cs

/-- A non-empty proper prefix of the encoding of some character. -/
def Incomplete (e : Enc) (l : List Nat) : Prop := l ≠ [] ∧ ∃ c, Scalar c ∧ l <+: enc e c ∧ l ≠ enc e c

/-- An ill-formed piece: the shortest sequence that neither begins nor completes with any character. -/
def Bad (e : Enc) (p : List Nat) : Prop :=
  p ≠ [] ∧ (∀ c, Scalar c → ¬ enc e c <+: p ∧ ¬ p <+: enc e c) ∧ (p.dropLast = [] ∨ Incomplete e p.dropLast)

/-- `l` consists of characters and ill-formed pieces, followed by `tail`, which is empty or incomplete. The text `cs` is that of
the characters, with U+FFFD for each ill-formed piece. -/
inductive Reads (e : Enc) : List Nat → List Nat → List Nat → Prop
  | done (tail : List Nat) : tail = [] ∨ Incomplete e tail → Reads e tail [] tail
  | char (c : Nat) (rest cs tail : List Nat) : Scalar c → Reads e rest cs tail → Reads e (enc e c ++ rest) (c :: cs) tail
  | bad (p rest cs tail : List Nat) : Bad e p → Reads e rest cs tail → Reads e (p ++ rest) (0xFFFD :: cs) tail

/-- The text `cs` for input `l`, an incomplete character at the end being replaced like an ill-formed piece. -/
def ReadsAll (e : Enc) (l cs : List Nat) : Prop :=
  ∃ cs' tail, Reads e l cs' tail ∧ cs = if tail = [] then cs' else cs' ++ [0xFFFD]

/-- Between memories `m` and `m'`, `out` was written at `p` and nothing outside the `cap` cells from `p` on was changed. -/
def Wrote (cap : Nat) (m m' : Mem) (p : Nat) (out : List Nat) : Prop :=
  out.length ≤ cap ∧ load m' p out.length = out ∧ ∀ a, a < p ∨ p + cap ≤ a → m' a = m a

end Verif.Utf
