import Verif.IntScan.Spec
import Verif.IntPrint.Model
/-!
# Model of integer scanning

`include/fast_io_core_impl/integers/sto/sto_contiguous.h`, `sto_generate_base_tb.h`, `simd_find.h`.

A C++ range `[first,last)` is the list of its code units; advancing `first` takes the tail.  Reading `*first` when
`first == last`, or indexing a table out of bounds, has no list element to return: the model yields `none`
(undefined behaviour).  The ASCII branch of every `if constexpr(ebcdic)` is modelled, and `wchar_t` in the
platform's native byte order.
-/
namespace Verif.IntScan
open Verif Verif.IntPrint

/-- Template parameters of a scan. `cw`: bits of the character type; `simd`: width in bytes of the vector
registers (`optimal_simd_vector_run_with_cpu_instruction_size`, `simd/is_all_zeros.h:44-49`), 0 if none;
`sse`: whether `__SSE4_1__ && __x86_64__` code is compiled in; `extra`: room in the resumable scanner's buffer
beyond the digits of the type (2 for integers, `sto_contiguous.h:755-756`; other owners of such a buffer differ);
`ptestm`: whether `is_all_zeros` is compiled to VPTESTMB (64-byte vectors with AVX512BW, `simd/is_all_zeros.h:169-190`), where it returns
the opposite (see `Verif.Simd.c66_is_all_zeros_violated`). -/
structure Cfg where
  bits : Nat
  signed : Bool
  base : Nat
  noskipws : Bool := false
  skipzero : Bool := false
  cw : Nat := 8
  simd : Nat := 0
  sse : Bool := false
  extra : Nat := 2
  ptestm : Bool := false

/-! ## Digit classification -/

/-- `char_digit_to_literal_impl<false,base>` for `base > 10`: `sto_generate_base_tb.h:100-116`
(`char8_t` arithmetic modulo 256). -/
def tbEntry (base c : Nat) : Option Nat :=
  let ch2 := (c + 256 - 65) % 256
  let ch3 := (c + 256 - 97) % 256
  let ch := (c + 256 - 48) % 256
  if ch2 < base - 10 then some ((ch2 + 10) % 256)
  else if ch3 < base - 10 then some ((ch3 + 10) % 256)
  else if 10 ≤ ch then none else some ch

/-- `calculate_max_available_sto_tb_size<false,true,base>` (`sto_generate_base_tb.h:118-144`): the loop from 256
downwards. -/
def tbSizeLoop (base : Nat) : Nat → Nat
  | 0 => 0
  | n + 1 => if (tbEntry base n).isSome then n + 1 else tbSizeLoop base n

/-- Size of the digit table: the partial table for wide characters, 255 entries (`mx`, not `mx+1`) for 8-bit
characters (`sto_generate_base_tb.h:118-144`). -/
def tbSize (cw base : Nat) : Nat := if cw = 8 then 255 else tbSizeLoop base 256

/-- `sto_base_tb[ch]`; reading past the end of the `std::array` is undefined. The table stores 255 for
"no digit" (`sto_generate_base_tb.h:146-165`); digits are below 36, so the model keeps the `Option`. -/
def tbRead (cw base c : Nat) : Option (Option Nat) :=
  if c < tbSize cw base then some (tbEntry base c) else none

/-- `char_digit_to_literal` and `char_is_digit` (`sto_contiguous.h:17-60`, `148-190`): both classify in the same
way. Outer `none`: undefined behaviour; inner `none`: not a digit. -/
def charDigit (cw base c : Nat) : Option (Option Nat) :=
  if base ≤ 10 then
    let ch := (c + 2 ^ cw - 48) % 2 ^ cw
    some (if base ≤ ch then none else some ch)
  else if cw = 8 then tbRead cw base c
  else if tbSize cw base < c then some none
  else tbRead cw base c

/-! ## White space and zero skipping -/

/-- `is_c_space_impl<false>` (`char_category.h:185-212`, table at `214-226`); unsigned arithmetic of width `w`
(`is_c_space`, `char_category.h:229-250`, converts wide characters to `char32_t`). -/
def isCSpace (w c : Nat) : Bool := c == 32 || (c + 2 ^ w - 9) % 2 ^ w < 5

/-- Width in which `is_c_space` computes. -/
def spaceWidth (cw : Nat) : Nat := if cw = 8 then 8 else 32

/-- `for(;begin!=end&&pred(*begin);++begin);` (`simd_find.h:519-545`, `find_not` in `freestanding`). -/
def skipWhile (p : Nat → Bool) : List Nat → List Nat
  | [] => []
  | c :: l => if p c then skipWhile p l else c :: l

/-- `find_simd_common_condition_impl` (`simd_find.h:42-58`): advance by whole vectors of `n` characters while
`stop` does not hold of the vector. -/
def simdLoop (n : Nat) (stop : List Nat → Bool) (l : List Nat) : List Nat :=
  if h : 0 < n ∧ n ≤ l.length then
    if stop (l.take n) then l else simdLoop n stop (l.drop n)
  else l
termination_by l.length
decreasing_by simp; omega

/-- The prologue of `find_simd_small_optimization_common_impl` (`simd_find.h:480-506`): test up to `k` characters
one by one; returns the remaining count and position. -/
def smallLoop (p : Nat → Bool) : Nat → List Nat → Nat × List Nat
  | 0, l => (0, l)
  | k + 1, [] => (k + 1, [])
  | k + 1, c :: l => if p c then smallLoop p k l else (k + 1, c :: l)

/-- `find_simd_small_optimization_common_impl<false>` (`simd_find.h:480-506`). -/
def smallOpt (simd : Nat) (p : Nat → Bool) (func : List Nat → List Nat) (l : List Nat) : List Nat :=
  if 2 < simd then
    let diff := if simd < l.length then simd else l.length
    let r := smallLoop p diff l
    if r.1 ≠ 0 then r.2 else func r.2
  else func l

/-- One lane of the vector test for white space (`find_space_simd_common_impl`, `simd_find.h:336-372`, ASCII,
not HTML): `(spaces==v) ^ ((decision)v - horizontaltabs < fives)`.  The two constant vectors are biased by
`2^(cw-1)` (`create_find_simd_vector_with_unsigned_toggle<true>`, `simd_find.h:5-23`), and the element type
`signed_char_type = std::make_unsigned_t<...>` (`simd_find.h:205`) is unsigned, so `<` compares unsigned. -/
def laneSpace (cw c : Nat) : Bool :=
  let ht := (9 + 2 ^ (cw - 1)) % 2 ^ cw
  let five := (5 + 2 ^ (cw - 1)) % 2 ^ cw
  Bool.xor (c == 32) (decide ((c + 2 ^ cw - ht) % 2 ^ cw < five))

/-- The condition on which the vector loops of `simd_find.h` stop: `!is_all_zeros(m)` (`simd_find.h:59-98`), where `m` is the mask of the
elements looked for; `is_all_zeros` is inverted if compiled to VPTESTMB. -/
def stopTest (ptestm found : Bool) : Bool := if ptestm then !found else found

/-- `find_space_common_cold_impl<false,true>` (`simd_find.h:547-566`): vector loop if there are vectors
(`findnot`: stop at a vector with a lane that is not white space), then the scalar loop. -/
def spaceCold (cfg : Cfg) (l : List Nat) : List Nat :=
  let l' := if cfg.simd ≠ 0 then simdLoop (cfg.simd / (cfg.cw / 8)) (fun v => stopTest cfg.ptestm (v.any (fun c => !laneSpace cfg.cw c))) l else l
  skipWhile (isCSpace (spaceWidth cfg.cw)) l'

/-- `find_space_common_impl<false,true>` (`simd_find.h:568-604`). -/
def findSpace (cfg : Cfg) (l : List Nat) : List Nat :=
  smallOpt cfg.simd (isCSpace (spaceWidth cfg.cw)) (spaceCold cfg) l

/-- `find_none_zero_simd_impl` (`simd_find.h:612-616`, `find_simd_constant_common_impl<u8'0',true>` `508-526`,
`find_simd_constant_common_cold_impl` `416-477`). The SWAR variant for targets without vectors
(`find_characters_musl<true>`, `simd_find.h:372-413`) never advances before its scalar loop when the first
character differs from `'0'`, and goes directly to the scalar loop otherwise; it is modelled by the scalar
loop. -/
def findNoneZero (cfg : Cfg) (l : List Nat) : List Nat :=
  smallOpt cfg.simd (fun c => c == 48)
    (fun l => skipWhile (fun c => c == 48)
      (if cfg.simd ≠ 0 then simdLoop (cfg.simd / (cfg.cw / 8)) (fun v => stopTest cfg.ptestm (v.any (fun c => c != 48))) l else l)) l

/-! ## The portable accumulation loop -/

/-- `skip_digits` (`sto_contiguous.h:428-437`). -/
def skipDigits (cfg : Cfg) : List Nat → Option (List Nat)
  | [] => some []
  | c :: l => (charDigit cfg.cw cfg.base c).bind fun
    | none => some (c :: l)
    | some _ => skipDigits cfg l

/-- First phase of `scan_int_contiguous_none_simd_space_part_define_impl` (`sto_contiguous.h:455-464`): at most
`n` digits are accumulated in the unsigned type of `cfg.bits` bits, without overflow test. -/
def firstPhase (cfg : Cfg) : Nat → List Nat → Nat → Option (List Nat × Nat)
  | 0, l, res => some (l, res)
  | _ + 1, [], _ => none
  | n + 1, c :: l, res => (charDigit cfg.cw cfg.base c).bind fun
    | none => some (c :: l, res)
    | some d => firstPhase cfg n l ((res * cfg.base % 2 ^ cfg.bits + d) % 2 ^ cfg.bits)

/-- `isspecialbase` (`sto_contiguous.h:451`). -/
def isSpecialBase (base : Nat) : Bool := base == 2 || base == 4 || base == 16

/-- Second phase for bases 2, 4, 16 (`sto_contiguous.h:469-477`): any further digit is an overflow. -/
def secondSpecial (cfg : Cfg) (l : List Nat) (res : Nat) : Option (List Nat × Bool × Nat) :=
  match l with
  | [] => some ([], false, res)
  | c :: l' => (charDigit cfg.cw cfg.base c).bind fun
    | none => some (c :: l', false, res)
    | some _ => (skipDigits cfg l').bind fun r => some (r, true, res)

/-- Tail of the second phase for the other bases (`sto_contiguous.h:488-495`): a further digit means overflow. -/
def afterLastDigit (cfg : Cfg) (l : List Nat) (ovf : Bool) (res : Nat) : Option (List Nat × Bool × Nat) :=
  match l with
  | [] => some ([], ovf, res)
  | c :: l' => (charDigit cfg.cw cfg.base c).bind fun
    | none => some (c :: l', ovf, res)
    | some _ => (skipDigits cfg l').bind fun r => some (r, true, res)

/-- Second phase for the other bases (`sto_contiguous.h:479-496`): the last digit that can fit is tested against
`risky_value`/`risky_digit`. -/
def secondGeneral (cfg : Cfg) (l : List Nat) (res : Nat) : Option (List Nat × Bool × Nat) :=
  let umax := 2 ^ cfg.bits - 1
  match l with
  | [] => some ([], false, res)
  | c :: l' => (charDigit cfg.cw cfg.base c).bind fun
    | none => some (c :: l', false, res)
    | some d =>
      let ovf := decide (umax / cfg.base < res) || (umax / cfg.base == res && decide (umax % cfg.base < d))
      let res' := if ovf then res else (res * cfg.base % 2 ^ cfg.bits + d) % 2 ^ cfg.bits
      afterLastDigit cfg l' ovf res'

/-- `scan_int_contiguous_none_simd_space_part_define_impl` (`sto_contiguous.h:439-500`) with `res` initially 0:
position, overflow flag, accumulated value. -/
def noSimdPart (cfg : Cfg) (l : List Nat) : Option (List Nat × Bool × Nat) :=
  let maxSize := maxIntSize cfg.bits false cfg.base - (if isSpecialBase cfg.base then 0 else 1)
  let mn := if l.length < maxSize then l.length else maxSize
  (firstPhase cfg mn l 0).bind fun r =>
    if isSpecialBase cfg.base then secondSpecial cfg r.1 r.2 else secondGeneral cfg r.1 r.2

/-! ## The SSE4.1 path -/

/-- `n` bytes at offset `off` of the buffer; reading past its end is undefined. -/
def readBytes (l : List Nat) (off n : Nat) : Option (List Nat) :=
  if off + n ≤ l.length then some ((l.drop off).take n) else none

/-- Two's complement reading of a `w`-bit lane. -/
def toSigned (w x : Nat) : Int := if x < 2 ^ (w - 1) then x else (x : Int) - 2 ^ w

/-- One lane of the digit mask: `(chunk - v176) < -118` (`sto_contiguous.h:268-282`), signed comparison. -/
def laneDigit (c : Nat) : Bool := toSigned 8 ((c + 256 - 176) % 256) < -118

/-- `std::countr_one(movemask)` (`sto_contiguous.h:281`): number of leading lanes that are digits. -/
def countLanes (v : List Nat) : Nat := (v.takeWhile laneDigit).length

/-- `detect_length(buffer+off)` (`sto_contiguous.h:262-284`). -/
def detectLength (l : List Nat) (off : Nat) : Option Nat := (readBytes l off 16).map countLanes

/-- `simd16_shift_table[i]` (`sto_contiguous.h:257-258`). -/
def shiftTable (i : Nat) : Nat := if i < 16 then 0xFF else i - 16

/-- `pshufb`. -/
def pshufb (v mask : List Nat) : List Nat :=
  mask.map fun m => if 128 ≤ m then 0 else (v[m % 16]?).getD 0

/-- Saturation to signed 16 bits, as a 16-bit lane. -/
def satS16 (x : Int) : Nat := (max (-32768) (min 32767 x) % 65536).toNat

/-- `pmaddubsw` with the constant vector {10,1,10,1,...}: unsigned bytes times signed bytes, adjacent pairs,
saturated to 16 bits. -/
def pmaddubsw10 : List Nat → List Nat
  | a :: b :: r => satS16 (a * 10 + b * 1) :: pmaddubsw10 r
  | _ => []

/-- `pmaddwd` with a constant vector (`k`, 1, `k`, 1, ...): signed 16-bit products, adjacent pairs added in 32
bits. -/
def pmaddwd (k : Nat) : List Nat → List Nat
  | a :: b :: r => ((toSigned 16 a * k + toSigned 16 b * 1) % 2 ^ 32).toNat :: pmaddwd k r
  | _ => []

/-- `packusdw(v,v)`: signed 32-bit lanes saturated to unsigned 16 bits, twice. -/
def packusdw (v : List Nat) : List Nat :=
  let w := v.map fun x => (max 0 (min 65535 (toSigned 32 x))).toNat
  w ++ w

/-- The value of the first 16 bytes (`sto_contiguous.h:339-376`): subtract `'0'`, align to the right, three
multiply-add steps, combine the two 8-digit halves. -/
def sseValue (chunk : List Nat) (digits : Nat) : Nat :=
  let c1 := chunk.map fun c => (c + 256 - 48) % 256
  let c2 := pshufb c1 ((List.range 16).map fun i => shiftTable (digits + i))
  let c3 := pmaddubsw10 c2
  let c4 := pmaddwd 100 c3
  let c5 := packusdw c4
  -- the constants of the upper half of the last step are 0; only lanes 0 and 1 are used
  let c6 := pmaddwd 10000 (c5.take 4)
  (((c6[0]?).getD 0) * 100000000 + ((c6[1]?).getD 0)) % 2 ^ 64

/-- The loop and tail of `sse_skip_long_overflow_digits(buffer,buffer_end)` (`sto_contiguous.h:286-307`); `l` is
the whole range starting at `buffer`, `it` the offset of the C++ iterator. -/
def sseSkipLoop (l : List Nat) (it : Nat) : Option Nat :=
  if h : it + 16 ≤ l.length then
    (detectLength l it).bind fun n => if n ≠ 16 then some (it + n) else sseSkipLoop l (it + 16)
  else if l.length = it then some it
  else if l.length < 16 then none
  else (detectLength l (l.length - 16)).bind fun n => some (l.length + n)
termination_by l.length - it
decreasing_by omega

/-- `sse_skip_long_overflow_digits(buffer,buffer_end)`. -/
def sseSkipLong (l : List Nat) : Option Nat := sseSkipLoop l 16

/-- `sse_parse` (`sto_contiguous.h:309-425`): consumed characters, status and value. `small`: the type has fewer
than 64 bits. -/
def sseParse (small : Bool) (l : List Nat) : Option (Nat × Code × Nat) :=
  (readBytes l 0 16).bind fun chunk =>
  let digits := countLanes chunk
  if digits = 0 then some (0, .invalid, 0)
  else
    let result := sseValue chunk digits
    let ch := fun i => (l[i]?).getD 0 - 48
    if digits = 16 then
      if small then (sseSkipLong (l.drop 16)).bind fun n => some (n + 16, .overflow, 0)
      else (detectLength l 16).bind fun d1 =>
        if d1 = 3 then some (19, .ok, (result * 1000 + (ch 16 * 100 + ch 17 * 10 + ch 18)) % 2 ^ 64)
        else if d1 = 2 then some (18, .ok, (result * 100 + (ch 16 * 10 + ch 17)) % 2 ^ 64)
        else if d1 = 1 then some (17, .ok, (result * 10 + ch 16) % 2 ^ 64)
        else if d1 = 0 then some (16, .ok, result)
        else if d1 = 4 then
          let risky := (2 ^ 64 - 1) / 10000
          let riskyMod := (2 ^ 64 - 1) % 10000
          if risky < result then some (20, .overflow, 0)
          else
            let part := ch 16 * 1000 + ch 17 * 100 + ch 18 * 10 + ch 19
            if result = risky ∧ riskyMod < part then some (20, .overflow, 0)
            else some (20, .ok, (result * 10000 + part) % 2 ^ 64)
        else if d1 = 16 then (sseSkipLong (l.drop 16)).bind fun n => some (n + 16, .overflow, 0)
        else some (d1 + 16, .overflow, 0)
    else some (digits, .ok, result)

/-! ## One number without leading white space -/

/-- The final conversion (`sto_contiguous.h:676-692`): range test of the signed types, negation in the unsigned
type, conversion back. -/
def finish (cfg : Cfg) (neg : Bool) (rest : List Nat) (res : Nat) : Outcome :=
  if cfg.signed then
    let imax := (2 ^ cfg.bits - 1) / 2
    if (imax + (if neg then 1 else 0)) % 2 ^ cfg.bits < res then ⟨rest, .overflow, none⟩
    else
      let u := if neg then (2 ^ cfg.bits - res) % 2 ^ cfg.bits else res
      ⟨rest, .ok, some (toSigned cfg.bits u)⟩
  else ⟨rest, .ok, some res⟩

/-- The SSE branch (`sto_contiguous.h:637-664`). `it=first+digits` is undefined if it leaves the range. -/
def sseBranch (cfg : Cfg) (neg : Bool) (l : List Nat) : Option Outcome :=
  (sseParse (decide (cfg.bits < 64)) l).bind fun r =>
    if l.length < r.1 then none
    else if r.2.1 ≠ .ok then some ⟨l.drop r.1, r.2.1, none⟩
    else if cfg.bits < 64 ∧ 2 ^ cfg.bits - 1 < r.2.2 then some ⟨l.drop r.1, .overflow, none⟩
    else some (finish cfg neg (l.drop r.1) r.2.2)

/-- The portable branch (`sto_contiguous.h:665-675`). -/
def scalarBranch (cfg : Cfg) (neg : Bool) (l : List Nat) : Option Outcome :=
  (noSimdPart cfg l).bind fun r =>
    if r.2.1 then some ⟨r.1, .overflow, none⟩ else some (finish cfg neg r.1 r.2.2)

/-- Whether the SSE branch is taken (`sto_contiguous.h:636-644`). -/
def useSse (cfg : Cfg) (l : List Nat) : Bool :=
  cfg.sse && cfg.base == 10 && cfg.cw == 8 && decide (cfg.bits ≤ 64) && decide (32 ≤ l.length)

/-- The accumulation, by either path. -/
def accumulate (cfg : Cfg) (neg : Bool) (l : List Nat) : Option Outcome :=
  if useSse cfg l then sseBranch cfg neg l else scalarBranch cfg neg l

/-- After a leading zero (`sto_contiguous.h:612-633`). `l` starts after that zero. -/
def afterZero (cfg : Cfg) (neg : Bool) (l : List Nat) : Option Outcome :=
  if cfg.skipzero then
    let l' := findNoneZero cfg l
    if l' = [] then some ⟨[], .ok, some 0⟩ else accumulate cfg neg l'
  else
    match l with
    | [] => some ⟨[], .ok, some 0⟩
    | c :: t => (charDigit cfg.cw cfg.base c).bind fun
      | none => some ⟨c :: t, .ok, some 0⟩
      | some _ => some ⟨c :: t, .invalid, none⟩

/-- First-character analysis after the sign (`sto_contiguous.h:604-634`); an empty range falls through. -/
def afterSign (cfg : Cfg) (neg : Bool) (l : List Nat) : Option Outcome :=
  match l with
  | [] => accumulate cfg neg []
  | c :: t => (charDigit cfg.cw cfg.base c).bind fun
    | none => some ⟨c :: t, .invalid, none⟩
    | some _ => if c = 48 then afterZero cfg neg t else accumulate cfg neg (c :: t)

/-- `scan_int_contiguous_none_space_part_define_impl` (`sto_contiguous.h:568-695`) without base prefix
(`shbase = false`). -/
def scanNoSpace (cfg : Cfg) (l : List Nat) : Option Outcome :=
  if cfg.signed then
    match l with
    | [] => some ⟨[], .invalid, none⟩
    | c :: t => if c = 45 then afterSign cfg true t else afterSign cfg false (c :: t)
  else afterSign cfg false l

/-- `scan_int_contiguous_define_impl` (`sto_contiguous.h:697-732`), `shbase = false`. -/
def scanContig (cfg : Cfg) (l : List Nat) : Option Outcome :=
  if cfg.noskipws then scanNoSpace cfg l
  else
    let l' := findSpace cfg l
    if l' = [] then some ⟨[], .eof, none⟩ else scanNoSpace cfg l'

end Verif.IntScan
