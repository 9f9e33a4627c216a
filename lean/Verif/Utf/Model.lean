import Verif.Utf.Spec
/-!
# Model of `include/fast_io_core_impl/codecvt/{utf,general,utf_ebcdic}.h`

The source is the list of code units between `src_first` and `src_last`; the destination is memory. `none` is undefined behaviour
(a read beyond the source or a table). The source scheme is `utf` (native byte order) or `utf_ebcdic`; the destination scheme is
`utf`, its byte-swapped counterpart (`swap`) or `utf_ebcdic`. `sse` is the branch for x86-64 with SSE outside constant
evaluation. GB 18030 is in `Verif.Gb`.
-/
namespace Verif.Utf
open Verif

/-- `byte_swap` on the units of an encoding. -/
def bsw (d : Enc) (swap : Bool) (x : Nat) : Nat := if swap then swapUnit d x else x

/-- `get_utf_ebcdic_code_units` (utf_ebcdic.h:28-68), `get_utf_ebcdic_invalid_code_units` (utf_ebcdic.h:17-26). -/
def ebcdicUnits (code : Nat) : Option (List Nat) :=
  let t := fun i : Nat => i8ToEbcdic[i]?
  if code < 0xA0 then [t code].mapM id
  else if code < 0x400 then [t (0b11000000 ||| (code >>> 5)), t (0b10100000 ||| (code &&& 0b11111))].mapM id
  else if code < 0x4000 then
    [t (0b11100000 ||| (code >>> 10)), t (0b10100000 ||| ((code >>> 5) &&& 0b11111)), t (0b10100000 ||| (code &&& 0b11111))].mapM id
  else if code < 0x40000 then
    [t (0b11110000 ||| (code >>> 15)), t (0b10100000 ||| ((code >>> 10) &&& 0b11111)),
      t (0b10100000 ||| ((code >>> 5) &&& 0b11111)), t (0b10100000 ||| (code &&& 0b11111))].mapM id
  else if code < 0x110000 then
    [t (0b11111000 ||| (code >>> 20)), t (0b10100000 ||| ((code >>> 15) &&& 0b11111)), t (0b10100000 ||| ((code >>> 10) &&& 0b11111)),
      t (0b10100000 ||| ((code >>> 5) &&& 0b11111)), t (0b10100000 ||| (code &&& 0b11111))].mapM id
  else some [0xDD, 0x73, 0x66, 0x73]

/-- `get_utf_code_units` (utf.h:355-434), `get_utf8_invalid_code_units` (utf.h:345-353): the units stored at `dst`. -/
def codeUnits (d : Enc) (swap : Bool) (cdpt : Nat) : Option (List Nat) :=
  match d with
  | .ebcdic => ebcdicUnits cdpt
  | .u32 => some [bsw .u32 swap cdpt]
  | .u16 =>
    if cdpt < 0x10000 then some [bsw .u16 swap cdpt]
    else some [bsw .u16 swap ((0xD7C0 + (cdpt >>> 10)) % 2 ^ 16), bsw .u16 swap ((0xDC00 + (cdpt &&& 0x3FF)) % 2 ^ 16)]
  | .u8 =>
    if cdpt ≤ 0x7F then some [cdpt]
    else if cdpt ≤ 0x7FF then some [0xC0 ||| ((cdpt >>> 6) &&& 0x1F), 0x80 ||| (cdpt &&& 0x3F)]
    else if cdpt ≤ 0xFFFF then some [0xE0 ||| ((cdpt >>> 12) &&& 0x0F), 0x80 ||| ((cdpt >>> 6) &&& 0x3F), 0x80 ||| (cdpt &&& 0x3F)]
    else if cdpt ≤ 0x10FFFF then
      some [0xF0 ||| ((cdpt >>> 18) &&& 0x07), 0x80 ||| ((cdpt >>> 12) &&& 0x3F), 0x80 ||| ((cdpt >>> 6) &&& 0x3F),
        0x80 ||| (cdpt &&& 0x3F)]
    else some [0xEF, 0xBF, 0xBD]

/-- `get_general_invalid_code_units` (general.h:17-38), and the stores of U+FFFD for four-byte units (general.h:143-147). -/
def invalidUnits (d : Enc) (swap : Bool) : List Nat :=
  match d with
  | .ebcdic => [0xDD, 0x73, 0x66, 0x73]
  | .u8 => [0xEF, 0xBF, 0xBD]
  | .u16 => [bsw .u16 swap 0xFFFD]
  | .u32 => [if swap then 0xFDFF0000 else 0xFFFD]

/-- The destination: memory and the position of `dst`. -/
abbrev Out := Mem × Nat

/-- Store units at `dst` and advance it. -/
def put (o : Out) (l : List Nat) : Out := (store o.1 o.2 l, o.2 + l.length)

/-- The surrogate tests (utf.h:435-437). -/
def isSurrogate (u : Nat) : Bool := (u + 2 ^ 32 - 0xD800) % 2 ^ 32 < 2048
def isHigh (u : Nat) : Bool := u &&& 0xFFFFFC00 == 0xD800
def isLow (u : Nat) : Bool := u &&& 0xFFFFFC00 == 0xDC00

/-- `utf16_surrogate_to_utf32` (utf.h:439-442). -/
def surrogates (high low : Nat) : Nat := ((high <<< 10) + low + 2 ^ 32 - 0x35FDC00) % 2 ^ 32

/-- The loop over 16-bit units (general.h:113-170); the last unit is a separate case. Result: the units left and the destination. -/
def loop16 (d : Enc) (swap : Bool) : List Nat → Out → Option (List Nat × Out)
  | [], o => some ([], o)
  | [code], o =>
    if isSurrogate code then
      if isHigh code then some ([code], o) else some ([], put o (invalidUnits d swap))
    else if d = .u32 then some ([], put o [bsw .u32 swap code])
    else (codeUnits d swap code).bind fun u => some ([], put o u)
  | code :: code1 :: l, o =>
    if isSurrogate code then
      if isHigh code then
        if isLow code1 then
          if d = .u32 then loop16 d swap l (put o [surrogates code code1])
          else (codeUnits d swap (surrogates code code1)).bind fun u => loop16 d swap l (put o u)
        else loop16 d swap l (put o (invalidUnits d swap))
      else loop16 d swap (code1 :: l) (put o (invalidUnits d swap))
    else if d = .u32 then loop16 d swap (code1 :: l) (put o [bsw .u32 swap code])
    else (codeUnits d swap code).bind fun u => loop16 d swap (code1 :: l) (put o u)

/-- The loop of `advance_with_big_table` (utf.h:604-617): inner `none` is `failed`. -/
def advLoop : Nat → Nat → List Nat → Option (Option (List Nat × Nat))
  | cdpt, curr, l =>
    if 12 < curr then
      match l with
      | [] => some none
      | unit :: l => do
        let cat ← octetCategory[unit]?
        let next ← transitions[curr + cat]?
        advLoop (((cdpt <<< 6) % 2 ^ 32) ||| (unit &&& 0x3F)) next l
    else some (some (l, if curr = 12 then 0xFFFD else cdpt))

/-- `advance_with_big_table` (utf.h:597-621). -/
def advance (l : List Nat) : Option (Option (List Nat × Nat)) :=
  match l with
  | [] => none
  | unit :: l => do
    let info ← firstUnitInfo[unit]?
    advLoop info.1 info.2 l

/-- `advance_with_big_table_unchecked` (utf.h:569-587): the same loop without the test for the end, reading beyond which is
undefined. -/
def advanceUnchecked (l : List Nat) : Option (List Nat × Nat) := (advance l).bind id

/-- A decoded character: directly for four-byte units (`native`: no byte swap in the vector branch), otherwise through
`get_utf_code_units` (general.h:214-220,264-273). -/
def putCode (d : Enc) (swap native : Bool) (code : Nat) (o : Out) : Option Out :=
  if d = .u32 then some (put o [bsw .u32 (swap && !native) code])
  else (codeUnits d swap code).map (put o)

/-- The vector loop (general.h:180-224) with `convert_ascii_with_sse` (utf.h:444-558), which stores 16 widened units and advances
by the number of leading units below 0x80. -/
def sseLoop (d : Enc) (swap : Bool) : Nat → List Nat → Out → Option (List Nat × Out)
  | 0, _, _ => none
  | fuel + 1, l, o =>
    if 16 < l.length then
      match l with
      | [] => none
      | c :: _ =>
        if c < 0x80 then
          let incr := ((l.take 16).takeWhile (· < 0x80)).length
          sseLoop d swap fuel (l.drop incr) (store o.1 o.2 (l.take 16), o.2 + incr)
        else (advanceUnchecked l).bind fun r => (putCode d swap true r.2 o).bind fun o => sseLoop d swap fuel r.1 o
    else some (l, o)

/-- The loop over 8-bit units (general.h:228-276). -/
def loop8 (d : Enc) (swap : Bool) : Nat → List Nat → Out → Option (List Nat × Out)
  | 0, _, _ => none
  | fuel + 1, l, o =>
    match l with
    | [] => some ([], o)
    | c :: rest =>
      if c < 0x80 then
        if d = .ebcdic then (i8ToEbcdic[c]?).bind fun x => loop8 d swap fuel rest (put o [x])
        else loop8 d swap fuel rest (put o [bsw d (swap && d != .u8) c])
      else (advance l).bind fun
        | none => some (l, o)
        | some r => (putCode d swap false r.2 o).bind fun o => loop8 d swap fuel r.1 o

/-- The loop of `utf_ebcdic_advance` over the continuation bytes (utf_ebcdic.h:89-95): inner `inl i` stopped at `i`. -/
def ebcdicLoop : List Nat → Nat → Nat → Option (Nat ⊕ Nat)
  | [], _, res => some (.inr res)
  | b :: l, i, res => do
    let code ← ebcdicToI8[b]?
    if code >>> 5 ≠ 0b101 then some (.inl i) else ebcdicLoop l (i + 1) (((res <<< 5) % 2 ^ 32) ||| (code &&& 0b11111))

/-- `utf_ebcdic_advance` (utf_ebcdic.h:76-109): the code point and the length, `none` inside for the length -1. -/
def ebcdicAdvance (l : List Nat) : Option (Option (Nat × Nat)) :=
  match l with
  | [] => none
  | src0 :: rest => do
    let shadow ← shadowFlags[src0]?
    let i8 ← ebcdicToI8[src0]?
    if shadow < 2 then some (some (i8, 1))
    else if shadow = 9 then some (some (0xFFFD, 1))
    else if l.length < shadow then some none
    else
      let r ← ebcdicLoop (rest.take (shadow - 1)) 1 0
      match r with
      | .inl i => some (some (0xFFFD, i))
      | .inr res =>
        if shadow = 2 then some (some (((i8 &&& 0b11111) <<< 5) ||| res, 2))
        else if shadow = 3 then some (some (((i8 &&& 0b1111) <<< 10) ||| res, 3))
        else if shadow = 4 then some (some (((i8 &&& 0b111) <<< 15) ||| res, 4))
        else if shadow = 5 then some (some (((i8 &&& 0b1) <<< 20) ||| res, 5))
        else some (some (0xFFFD, shadow))

/-- The loop over UTF-EBCDIC (general.h:229-247). -/
def loopE (d : Enc) (swap : Bool) : Nat → List Nat → Out → Option (List Nat × Out)
  | 0, _, _ => none
  | fuel + 1, l, o =>
    if l = [] then some ([], o)
    else (ebcdicAdvance l).bind fun
      | none => some (l, o)
      | some r => (putCode d swap false r.1 o).bind fun o => loopE d swap fuel (l.drop r.2) o

/-- The loop over 32-bit units (general.h:100-106). -/
def loop32 (d : Enc) (swap : Bool) : List Nat → Out → Option Out
  | [], o => some o
  | c :: l, o => (codeUnits d swap c).bind fun u => loop32 d swap l (put o u)

/-- The byte-swapping loop (general.h:94-97): `dst` is not advanced. -/
def swapLoop (d : Enc) : List Nat → Out → Out
  | [], o => o
  | c :: l, o => swapLoop d l (store o.1 o.2 [swapUnit d c], o.2)

/-- What a conversion depends on: destination, byte order, vector instructions. -/
structure Cfg where
  d : Enc
  swap : Bool
  sse : Bool

/-- `general_code_cvt` without state (general.h:49-280). -/
def cvt (s : Enc) (c : Cfg) (l : List Nat) (o : Out) : Option (List Nat × Out) :=
  if s = c.d ∧ (c.swap = false ∨ s.bytes = 1) then some ([], put o l)
  else if s = c.d then some ([], swapLoop s l o)
  else match s with
    | .u32 => (loop32 c.d c.swap l o).map fun o => ([], o)
    | .u16 => loop16 c.d c.swap l o
    | .u8 =>
      if c.sse ∧ c.d ≠ .ebcdic then (sseLoop c.d c.swap (l.length + 1) l o).bind fun r => loop8 c.d c.swap (r.1.length + 1) r.1 r.2
      else loop8 c.d c.swap (l.length + 1) l o
    | .ebcdic => loopE c.d c.swap (l.length + 1) l o

/-- The state with a pending high surrogate (general.h:313-345): what is left of the chunk and the destination. -/
def pending16 (c : Cfg) (high : Nat) (l : List Nat) (o : Out) : Option (List Nat × Out) :=
  match l with
  | [] => none
  | v :: rest =>
    if isLow v then
      if c.d = .u32 then some (rest, put o [bsw .u32 c.swap (surrogates high v)])
      else (codeUnits c.d c.swap (surrogates high v)).map fun u => (rest, put o u)
    else some (l, put o (invalidUnits c.d c.swap))

/-- The state with pending bytes (general.h:352-415). `inl` is the early return with the new state. `src_first` moves by the length
of the character minus the size of the state; a negative distance leaves the chunk and is undefined. -/
def pending8 (s : Enc) (c : Cfg) (st l : List Nat) (o : Out) : Option (List Nat ⊕ (List Nat × Out)) :=
  let taken := l.take (8 - st.length)
  let bytes := st ++ taken
  let fail : Option (List Nat ⊕ (List Nat × Out)) := if bytes.length ≤ 7 then some (.inl bytes) else none
  if s = .u8 then
    (advance bytes).bind fun
      | none => fail
      | some (rest, code) => (putCode c.d c.swap false code o).bind fun o =>
        if bytes.length - rest.length < st.length then none else some (.inr (l.drop (bytes.length - rest.length - st.length), o))
  else
    (ebcdicAdvance bytes).bind fun
      | none => fail
      | some (code, adv) => (putCode c.d c.swap false code o).bind fun o =>
        if adv < st.length then none else some (.inr (l.drop (adv - st.length), o))

/-- What follows the pending units (general.h:346-349,417-421); more than 7 bytes do not fit the state. -/
def rest8 (s : Enc) (c : Cfg) (l : List Nat) (o : Out) : Option (List Nat × Out) :=
  (cvt s c l o).bind fun r => if r.1.length ≤ 7 then some r else none

/-- `general_code_cvt` with a state (general.h:282-424); the state is the list of pending units. -/
def cvtState (s : Enc) (c : Cfg) (st l : List Nat) (o : Out) : Option (List Nat × Out) :=
  match s with
  | .u32 => (cvt s c l o).map fun r => ([], r.2)
  | .u16 =>
    match st with
    | [] => (cvt s c l o).map fun r => (r.1.take 1, r.2)
    | high :: _ =>
      if l = [] then some (st, o)
      else (pending16 c high l o).bind fun r => (cvt s c r.1 r.2).map fun r => (r.1.take 1, r.2)
  | _ =>
    if st = [] then rest8 s c l o
    else if l = [] then some (st, o)
    else (pending8 s c st l o).bind fun
      | .inl st => some (st, o)
      | .inr r => rest8 s c r.1 r.2

/-- Conversion of a stream written in chunks. -/
def cvtChunks (s : Enc) (c : Cfg) : List Nat → List (List Nat) → Out → Option (List Nat × Out)
  | st, [], o => some (st, o)
  | st, l :: ls, o => (cvtState s c st l o).bind fun r => cvtChunks s c r.1 ls r.2

/-- `general_code_cvt_full` (general.h:426-460): the replacement of an incomplete tail is stored at `new_dst` for four-byte units
and at `dst`, the beginning, otherwise. -/
def cvtFull (s : Enc) (c : Cfg) (l : List Nat) (o : Out) : Option Out :=
  (cvt s c l o).map fun r =>
    if r.1 = [] then r.2
    else if c.d = .u32 then put r.2 (invalidUnits c.d c.swap)
    else (store r.2.1 o.2 (invalidUnits c.d c.swap), r.2.2 + (invalidUnits c.d c.swap).length)

/-- The factor of `cal_full_reserve_size` and `cal_decorated_reserve_size` (utf.h:68-203). -/
def factor (_s d : Enc) : Nat :=
  match d.bytes with
  | 4 => 1
  | 2 => 2
  | _ => 8

/-- `cal_full_reserve_size` (utf.h:68-134): `none` terminates. -/
def fullReserve (s d : Enc) (n : Nat) : Option Nat :=
  let emax := (2 ^ 64 - 1) / d.bytes
  let imax := (2 ^ 64 - 1) / s.bytes
  if d.bytes = 4 then (if emax ≤ n then none else some n)
  else if d.bytes = 2 then (if (if s.bytes = 1 then imax / 2 else emax / 2) ≤ n then none else some (2 * n))
  else if (if s.bytes = 1 then imax / 8 else emax / 8) ≤ n then none else some (8 * n)

/-- `cal_decorated_reserve_size` (utf.h:136-203): `none` terminates. -/
def decoReserve (s d : Enc) (n : Nat) : Option Nat :=
  let emax := (2 ^ 64 - 1) / d.bytes
  let imax := (2 ^ 64 - 1) / s.bytes
  if s.bytes = 4 then fullReserve s d n
  else if s.bytes = 2 then
    if d.bytes = 4 then (if emax - 1 ≤ n then none else some (n + 1))
    else if d.bytes = 2 then (if emax / 2 - 1 ≤ n then none else some (n * 2 + 2))
    else (if emax / 8 - 1 ≤ n then none else some (n * 8 + 8))
  else
    if d.bytes = 4 then (if emax - 7 ≤ n then none else some (n + 7))
    else if d.bytes = 2 then (if imax / 2 - 7 ≤ n then none else some (2 * n + 14))
    else (if imax / 8 - 7 ≤ n then none else some (8 * n + 56))

end Verif.Utf
