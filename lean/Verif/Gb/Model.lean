import Verif.Gb.Spec
import Verif.Gb.Tables
import Verif.Utf.Model
/-!
# GB 18030 (model)

`include/fast_io_unit/gb18030.h`, `include/fast_io_unit/gb18030_impl`, and the conversions of `include/fast_io_core_impl/codecvt/general.h` from GB 18030 to
UTF-8, UTF-16, UTF-32 and back, in native byte order. `none` is undefined behaviour (a read beyond the source or a table).
-/
namespace Verif.Gb
open Verif

/-- Subtraction and addition of `char32_t`. -/
def sub32 (a b : Nat) : Nat := (a + 2 ^ 32 - b) % 2 ^ 32
def add32 (a b : Nat) : Nat := (a + b) % 2 ^ 32

/-- `linear_18030` (gb18030.h:15-18). -/
def linear4 (a b c d : Nat) : Nat := (((a * 10 + b) * 126 + c) * 10 + d) % 2 ^ 32

/-- `linear_18030_base` (gb18030.h:20). -/
def linearBase : Nat := linear4 0x81 0x30 0x81 0x30

/-- `linear` (gb18030.h:22-25). -/
def linear (x : Nat) : Nat := linear4 ((x >>> 24) % 256) ((x >>> 16) % 256) ((x >>> 8) % 256) (x % 256)

/-- `gb18030_ranges` (gb18030.h:27-40). -/
def ranges : List (Nat × Nat × Nat × Nat) :=
  [(0x0452, 0x2010, linear 0x8130D330, linear 0x8136A531),
   (0x2643, 0x2E81, linear 0x8137A839, linear 0x8138FD38),
   (0x361B, 0x3918, linear 0x8230A633, linear 0x8230F237),
   (0x3CE1, 0x4056, linear 0x8231D438, linear 0x8232AF32),
   (0x4160, 0x4337, linear 0x8232C937, linear 0x8232F837),
   (0x44D7, 0x464C, linear 0x8233A339, linear 0x8233C931),
   (0x478E, 0x4947, linear 0x8233E838, linear 0x82349638),
   (0x49B8, 0x4C77, linear 0x8234A131, linear 0x8234E733),
   (0x9FA6, 0xD800, linear 0x82358F33, linear 0x8336C738),
   (0xE865, 0xF92C, linear 0x8336D030, linear 0x84308534),
   (0xFA2A, 0xFE30, linear 0x84309C38, linear 0x84318537),
   (0xFFE6, 0x10000, linear 0x8431A234, linear 0x8431A439),
   (0x10000, 0x110000, linear 0x90308130, linear 0xE3329A35)]

/-- `get_gb18030_invalid_code_units` (gb18030.h:42-51). -/
def invalidUnits : List Nat := [0x84, 0x31, 0xA4, 0x37]

/-- `lookup_uni_to_gb18030` (gb18030.h:64-121): the bytes of the entry, on hosts of either byte order. -/
def lookupUni (i : Nat) : Option (List Nat) :=
  if i < 32781 then
    let v := entry uniTb 32 i
    if v % 2 ^ 16 = v then some [v % 256, v >>> 8]
    else some [v % 256, (v >>> 8) % 256, (v >>> 16) % 256, v >>> 24]
  else none

/-- The loop of `get_gb18030_code_units_unhappy` (gb18030.h:131-152). -/
def encLoop (u : Nat) : List (Nat × Nat × Nat × Nat) → Nat → Option (List Nat)
  | [], _ => some invalidUnits
  | (e0, e1, e2, _) :: rest, sum =>
    if sub32 u e0 < sub32 e1 e0 then
      let gb := sub32 (add32 (sub32 u e0) e2) linearBase
      some [(0x81 + gb / 10 / 126 / 10) % 256, 0x30 + gb / 10 / 126 % 10, 0x81 + gb / 10 % 126, 0x30 + gb % 10]
    else
      match rest with
      | [] => none
      | (n0, _) :: _ =>
        if sub32 u e1 < sub32 n0 e1 then lookupUni (sub32 u (add32 sum (sub32 e1 e0)))
        else encLoop u rest (add32 sum (sub32 e1 e0))

/-- `get_gb18030_code_units`, `get_gb18030_code_units_unhappy` (gb18030.h:123-167): the bytes stored. -/
def encode (u : Nat) : Option (List Nat) :=
  if u < 0x80 then some [u]
  else if u < 0x110000 then
    if u < 0x452 then lookupUni (u - 128) else encLoop u ranges 128
  else some invalidUnits

/-- `lookup_gb18030_to_uni4_func` (gb18030.h:169-174). -/
def lookup4 (index : Nat) : Nat := if 5974 ≤ index then 0xFFFD else entry uni4Tb 16 index

/-- The loop of `utf32cp_by_gb18030_index` (gb18030.h:176-194); `i != 12` means that there is another range. -/
def idxLoop (index : Nat) : List (Nat × Nat × Nat × Nat) → Nat → Nat
  | [], _ => 0xFFFD
  | (e0, e1, e2, e3) :: rest, sum =>
    if sub32 index e2 ≤ sub32 e3 e2 then add32 (sub32 index e2) e0
    else
      match rest with
      | [] => 0xFFFD
      | (n0, n1, n2, n3) :: rest =>
        if e3 < index ∧ index < n2 then lookup4 (sub32 index (add32 sum (sub32 e1 e0)))
        else idxLoop index ((n0, n1, n2, n3) :: rest) (add32 sum (sub32 e1 e0))

/-- `utf32cp_by_gb18030_index` (gb18030.h:176-194). -/
def byIndex (index : Nat) : Nat := idxLoop index ranges (add32 linearBase 820)

/-- `lookup_gb18030_to_uni2_tb[...]`. -/
def lookup2 (i : Nat) : Option Nat := if i < 23940 then some (entry uni2Tb 20 i) else none

/-- How a conversion reads one character: undefined, incomplete (length -1), or the code point and the length. -/
abbrev Adv := List Nat → Option (Option (Nat × Nat))

/-- Subtraction of `char8_t` (the operands are converted back by casts). -/
def sub8 (a b : Nat) : Nat := (a + 256 - b) % 256

/-- `gb18030_advance` (gb18030.h:228-264) on the bytes from `src` on. -/
def advance : Adv
  | [] => none
  | src0 :: r0 =>
    if src0 < 0x80 then some (some (src0, 1))
    else if src0 = 0x80 then some (some (0x20AC, 1))
    else if src0 = 0xFF then some (some (0xFFFD, 1))
    else
      match r0 with
      | [] => some none
      | src1 :: r1 =>
        if src1 = 0x7F then some (some (0xFFFD, 2))
        else if sub8 src1 0x40 < 0xFF - 0x40 then
          (lookup2 ((src0 - 0x81) * 190 + ((if 0x7F < src1 then src1 - 1 else src1) - 0x40))).map fun c => some (c, 2)
        else if src1 < 0x30 ∨ src1 = 0xFF then some (some (0xFFFD, 2))
        else
          match r1 with
          | src2 :: src3 :: _ =>
            if 0xFF - 0x81 ≤ sub8 src2 0x81 then some (some (0xFFFD, 3))
            else if 0x40 - 0x30 ≤ sub8 src3 0x30 then some (some (0xFFFD, 4))
            else some (some (byIndex (linear4 src0 src1 src2 src3), 4))
          | _ => some none

/-- `gb18030_advance_unchecked` (gb18030.h:196-226): reading behind the source is undefined. -/
def advanceUnchecked (l : List Nat) : Option (Nat × Nat) :=
  match l with
  | [] => none
  | src0 :: r0 =>
    if src0 < 0x80 then some (src0, 1)
    else if src0 = 0x80 then some (0x20AC, 1)
    else if src0 = 0xFF then some (0xFFFD, 1)
    else
      match r0 with
      | [] => none
      | src1 :: r1 =>
        if src1 = 0x7F then some (0xFFFD, 2)
        else if sub8 src1 0x40 < 0xFF - 0x40 then
          (lookup2 ((src0 - 0x81) * 190 + ((if 0x7F < src1 then src1 - 1 else src1) - 0x40))).map fun c => (c, 2)
        else if src1 < 0x30 ∨ src1 = 0xFF then some (0xFFFD, 2)
        else
          match r1 with
          | [] => none
          | src2 :: r2 =>
            if 0xFF - 0x81 ≤ sub8 src2 0x81 then some (0xFFFD, 3)
            else
              match r2 with
              | [] => none
              | src3 :: _ =>
                if 0x40 - 0x30 ≤ sub8 src3 0x30 then some (0xFFFD, 4)
                else some (byIndex (linear4 src0 src1 src2 src3), 4)

/-! ## Conversions -/

/-- A source of bytes: the checked and the unchecked way to read a character. -/
structure Source where
  adv : Adv
  advU : List Nat → Option (Nat × Nat)

/-- GB 18030 as the source. -/
def gbSource : Source := ⟨advance, advanceUnchecked⟩

/-- UTF-8 as the source (`advance_with_big_table`, utf.h:569-621, as modelled in `Verif.Utf`), with lengths instead of positions. -/
def utf8Source : Source :=
  ⟨fun l => (Utf.advance l).map fun r => r.map fun q => (q.2, l.length - q.1.length),
   fun l => (Utf.advanceUnchecked l).map fun q => (q.2, l.length - q.1.length)⟩

/-- The destinations: a code point as units. -/
abbrev Emit := Nat → Option (List Nat)

/-- GB 18030 (utf.h:363-366), and the Unicode forms (`get_utf_code_units`; four-byte units are stored directly, which is the same). -/
def gbEmit : Emit := encode
def utfEmit (d : Utf.Enc) : Emit := Utf.codeUnits d false

/-- The vector loop (general.h:161-206) with `convert_ascii_with_sse` (utf.h:444-558), which stores 16 units and advances by the number of
leading units below 0x80. -/
def sseLoop (s : Source) (e : Emit) : Nat → List Nat → Utf.Out → Option (List Nat × Utf.Out)
  | 0, _, _ => none
  | fuel + 1, l, o =>
    if 16 < l.length then
      match l with
      | [] => none
      | c :: _ =>
        if c < 0x80 then
          let incr := ((l.take 16).takeWhile (· < 0x80)).length
          sseLoop s e fuel (l.drop incr) (store o.1 o.2 (l.take 16), o.2 + incr)
        else (s.advU l).bind fun r => (e r.1).bind fun u => sseLoop s e fuel (l.drop r.2) (Utf.put o u)
    else some (l, o)

/-- The loop over 8-bit units (general.h:208-277). -/
def loop8 (s : Source) (e : Emit) : Nat → List Nat → Utf.Out → Option (List Nat × Utf.Out)
  | 0, _, _ => none
  | fuel + 1, l, o =>
    match l with
    | [] => some ([], o)
    | c :: rest =>
      if c < 0x80 then loop8 s e fuel rest (Utf.put o [c])
      else (s.adv l).bind fun
        | none => some (l, o)
        | some r => (e r.1).bind fun u => loop8 s e fuel (l.drop r.2) (Utf.put o u)

/-- `general_code_cvt` without state for sources of bytes (general.h:159-279): the units left and the destination. -/
def cvt (s : Source) (e : Emit) (sse : Bool) (l : List Nat) (o : Utf.Out) : Option (List Nat × Utf.Out) :=
  if sse then (sseLoop s e (l.length + 1) l o).bind fun r => loop8 s e (r.1.length + 1) r.1 r.2
  else loop8 s e (l.length + 1) l o

/-- The pending bytes (general.h:353-407). `inl` is the early return with the new state. -/
def pending (s : Source) (e : Emit) (st l : List Nat) (o : Utf.Out) : Option (List Nat ⊕ (List Nat × Utf.Out)) :=
  let bytes := st ++ l.take (8 - st.length)
  (s.adv bytes).bind fun
    | none => if bytes.length ≤ 7 then some (.inl bytes) else none
    | some (code, n) => (e code).bind fun u =>
      if n < st.length then none else some (.inr (l.drop (n - st.length), Utf.put o u))

/-- What follows (general.h:408-412); more than 7 bytes do not fit the state. -/
def rest8 (s : Source) (e : Emit) (sse : Bool) (l : List Nat) (o : Utf.Out) : Option (List Nat × Utf.Out) :=
  (cvt s e sse l o).bind fun r => if r.1.length ≤ 7 then some r else none

/-- `general_code_cvt` with a state (general.h:350-413). -/
def cvtState (s : Source) (e : Emit) (sse : Bool) (st l : List Nat) (o : Utf.Out) : Option (List Nat × Utf.Out) :=
  if st = [] then rest8 s e sse l o
  else if l = [] then some (st, o)
  else (pending s e st l o).bind fun
    | .inl st => some (st, o)
    | .inr r => rest8 s e sse r.1 r.2

/-- A stream, written in chunks. -/
def cvtChunks (s : Source) (e : Emit) (sse : Bool) : List Nat → List (List Nat) → Utf.Out → Option (List Nat × Utf.Out)
  | st, [], o => some (st, o)
  | st, l :: ls, o => (cvtState s e sse st l o).bind fun r => cvtChunks s e sse r.1 ls r.2

/-- UTF-32 to GB 18030 (general.h:88-93). -/
def from32 : List Nat → Utf.Out → Option Utf.Out
  | [], o => some o
  | c :: l, o => (encode c).bind fun u => from32 l (Utf.put o u)

/-- UTF-16 to GB 18030 (general.h:95-158). -/
def from16 : List Nat → Utf.Out → Option (List Nat × Utf.Out)
  | [], o => some ([], o)
  | [code], o =>
    if Utf.isSurrogate code then
      if Utf.isHigh code then some ([code], o) else some ([], Utf.put o invalidUnits)
    else (encode code).bind fun u => some ([], Utf.put o u)
  | code :: code1 :: l, o =>
    if Utf.isSurrogate code then
      if Utf.isHigh code then
        if Utf.isLow code1 then (encode (Utf.surrogates code code1)).bind fun u => from16 l (Utf.put o u)
        else from16 l (Utf.put o invalidUnits)
      else from16 (code1 :: l) (Utf.put o invalidUnits)
    else (encode code).bind fun u => from16 (code1 :: l) (Utf.put o u)

/-- `general_code_cvt` with a state for UTF-16 to GB 18030 (general.h:305-349): the state is a high surrogate. -/
def from16State (st : Option Nat) (l : List Nat) (o : Utf.Out) : Option (Option Nat × Utf.Out) :=
  match st with
  | none => (from16 l o).map fun r => (r.1.head?, r.2)
  | some low =>
    match l with
    | [] => some (some low, o)
    | v :: l =>
      if Utf.isLow v then
        (encode (Utf.surrogates low v)).bind fun u => (from16 l (Utf.put o u)).map fun r => (r.1.head?, r.2)
      else (from16 (v :: l) (Utf.put o invalidUnits)).map fun r => (r.1.head?, r.2)

/-- UTF-16 written in chunks. -/
def from16Chunks : Option Nat → List (List Nat) → Utf.Out → Option (Option Nat × Utf.Out)
  | st, [], o => some (st, o)
  | st, l :: ls, o => (from16State st l o).bind fun r => from16Chunks r.1 ls r.2

end Verif.Gb
