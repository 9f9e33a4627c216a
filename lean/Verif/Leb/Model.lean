import Verif.Leb.Spec
/-!
# Model of `include/fast_io_freestanding_impl/serializations/leb128.h`

The two character kinds are 8-bit and wider (`cw`).  An integer object is the word of its bits.
-/
namespace Verif.Leb
open Verif Verif.IntPrint

/-- `pr_rsv_leb128_impl` for unsigned types (leb128.h:97-128): the characters written. -/
def putU (n : Nat) : List Nat :=
  let temp := n &&& 0x7f
  let n' := n >>> 7
  if h : n' = 0 then [temp] else (temp ||| 0x80) :: putU n'
termination_by n
decreasing_by
  simp only [Nat.shiftRight_eq_div_pow] at *
  exact Nat.div_lt_self (by omega) (by decide)

/-- `pr_rsv_leb128_impl` for signed types (leb128.h:97-128); `value>>=7` is an arithmetic shift, `value&0x7f` the
seven low bits of the two's complement representation. -/
def putS (v : Int) : List Nat :=
  let temp := (v % 128).toNat
  let v' := v / 128
  if h : (v' = 0 ∨ v' = -1) ∧ (decide (v' = 0) ≠ decide (temp &&& 0x40 ≠ 0)) then [temp]
  else (temp ||| 0x80) :: putS v'
termination_by v.natAbs
decreasing_by
  have key : ∀ t < 128, (t &&& 0x40 ≠ 0) ↔ 64 ≤ t := by decide
  have ht : (v % 128).toNat < 128 := by omega
  have hk := key _ ht
  by_cases h1 : v / 128 = 0 ∨ v / 128 = -1
  · have h2 : ¬ (decide (v / 128 = 0) ≠ decide ((v % 128).toNat &&& 0x40 ≠ 0)) := fun h' => h ⟨h1, h'⟩
    simp only [ne_eq, decide_eq_decide, Decidable.not_not] at h2
    rw [show ¬ ((v % 128).toNat &&& 64 = 0) ↔ 64 ≤ (v % 128).toNat from hk] at h2
    omega
  · omega

/-- `leb128_put` (leb128.h:24-56): the value converted to the type it is printed as (an `unsigned`/`int`,
`size_t`/`ptrdiff_t` or the type itself; all conversions preserve the value), then `print_reserve_define`. -/
def put (signed : Bool) (v : Int) : List Nat := if signed then putS v else putU v.toNat

/-- The width of the type an integer of `bits` bits is printed as (leb128.h:24-56). -/
def putWidth (bits : Nat) : Nat := if bits ≤ 32 then 32 else if bits ≤ 64 then 64 else bits

/-- `print_reserve_size_leb128_length` (leb128.h:69-79). -/
def reserveLen (bits : Nat) : Nat := (if bits % 7 ≠ 0 then 1 else 0) + bits / 7

structure Cfg where
  bits : Nat
  signed : Bool
  cw : Nat := 8

inductive Code | ok | eof | part | invalid | overflow
deriving DecidableEq, Repr

/-- The overflow test (leb128.h:181-192, 242-253): `cnt` bits have been read, `byte` is the next group. -/
def tooBig (cfg : Cfg) (cnt byte : Nat) : Bool :=
  let remains := cfg.bits % 7
  if cfg.signed then
    let lower := if remains ≠ 0 then 2 ^ (remains - 1) else 0
    let upper := if remains ≠ 0 then (0xff * 2 ^ (remains - 1)) &&& 0x7f else 0x7f
    decide (cfg.bits - 7 < cnt) && (decide (cfg.bits < cnt) || (decide (lower ≤ byte) && decide (byte < upper)))
  else decide (cfg.bits - 7 < cnt) && (decide (cfg.bits < cnt) || decide (2 ^ remains ≤ byte))

/-- The sign extension (leb128.h:196-201, 257-262). -/
def signExtend (cfg : Cfg) (cnt byte tmp : Nat) : Nat :=
  if cfg.signed ∧ byte &&& 0x40 ≠ 0 ∧ cnt < cfg.bits - 7 then tmp ||| (((2 ^ cfg.bits - 1) <<< (cnt + 7)) % 2 ^ cfg.bits) else tmp

/-- Where the loop stops: the unread characters, the code, `tmp` and `cnt`. -/
structure Stop where
  rest : List Nat
  code : Code
  tmp : Nat
  cnt : Nat
deriving DecidableEq

/-- The loop of `scn_ctx_define_leb128_impl` (leb128.h:166-206) and of `scn_cnt_define_leb128_impl`
(leb128.h:227-268), which are the same. Running out of input is `part`. A shift by at least the width of the type is
undefined: `none`. -/
def loop (cfg : Cfg) : Nat → Nat → List Nat → Option Stop
  | cnt, tmp, [] => some ⟨[], .part, tmp, cnt⟩
  | cnt, tmp, c :: l =>
    if 8 < cfg.cw ∧ 256 ≤ c then some ⟨c :: l, .invalid, tmp, cnt⟩
    else
      let more := c &&& 0x80 ≠ 0
      let byte := c &&& 0x7f
      if tooBig cfg cnt byte then some ⟨l, .overflow, tmp, cnt⟩
      else if cfg.bits ≤ cnt then none
      else
        let tmp' := tmp ||| ((byte <<< cnt) % 2 ^ cfg.bits)
        if more then loop cfg (cnt + 7) tmp' l
        else some ⟨l, .ok, signExtend cfg cnt byte tmp', cnt⟩

/-- The integer with the given bits. -/
def fromBits (cfg : Cfg) (w : Nat) : Int :=
  if cfg.signed ∧ 2 ^ (cfg.bits - 1) ≤ w then (w : Int) - 2 ^ cfg.bits else w

/-- What the caller sees: unread characters, code, and the integer when the code is `ok`. -/
structure Result where
  rest : List Nat
  code : Code
  value : Option Int
deriving DecidableEq, Repr

/-- `scn_cnt_define_leb128_impl` (leb128.h:212-270): `t=0`, then `t|=tmp` on success. -/
def getContig (cfg : Cfg) (l : List Nat) : Option Result :=
  (loop cfg 0 0 l).map fun s =>
    match s.code with
    | .ok => ⟨s.rest, .ok, some (fromBits cfg (0 ||| s.tmp))⟩
    | .part => ⟨s.rest, .invalid, none⟩
    | c => ⟨s.rest, c, none⟩

/-- `scn_ctx_define_leb128_impl` driven over successive buffers (leb128.h:146-210, `scan_context_eof_define`
leb128.h:283-288; driver `scan_freestanding.h:189-222`): `t` keeps the bits of the earlier buffers, `tmp` starts at
zero in each, `group_count` (here `cnt`) is kept. `cnt==0` resets `t`. -/
def getChunks (cfg : Cfg) : Nat → Nat → List (List Nat) → Option Result
  | _, _, [] => some ⟨[], .eof, none⟩
  | cnt, t, l :: ls => (loop cfg cnt 0 l).bind fun s =>
    let t := if cnt = 0 then 0 else t
    match s.code with
    | .ok => some ⟨s.rest ++ ls.flatten, .ok, some (fromBits cfg (t ||| s.tmp))⟩
    | .part => getChunks cfg s.cnt (t ||| s.tmp) ls
    | c => some ⟨s.rest ++ ls.flatten, c, none⟩

end Verif.Leb
