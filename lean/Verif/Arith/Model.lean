import Mathlib.Data.Nat.Log
/-!
# Model of the multi-word integer arithmetic

`include/fast_io_core_impl/intrinsics/carry.h`, `include/fast_io_core_impl/intrinsics/udivmod.h` and the word functions of
`include/fast_io_core_impl/intrinsics.h`, for an unsigned type of `w` bits not subject to integral promotion. Words are
`Nat`s below `2^w`; every wrap-around is written out. The compiler builtins (`__builtin_add_overflow`,
`__builtin_addcll`, `__uint128_t` multiplication, the `div` instruction) are trusted to be what their documentation says.
-/
namespace Verif.Arith

/-- `addc` with `__builtin_add_overflow` (carry.h:79-83): result and carry out. -/
def addcBuiltin (w a b : Nat) (cin : Bool) : Nat × Bool :=
  let c1 := decide (2 ^ w ≤ a + b)
  let s := (a + b) % 2 ^ w
  let c2 := decide (2 ^ w ≤ s + cin.toNat)
  ((s + cin.toNat) % 2 ^ w, c1 || c2)

/-- `addc` in plain C++ (carry.h:87-91). -/
def addcPlain (w a b : Nat) (cin : Bool) : Nat × Bool :=
  let a := (a + b) % 2 ^ w
  let co := decide (a < b)
  let a := (a + cin.toNat) % 2 ^ w
  (a, co || decide (a < cin.toNat))

/-- `subc` with `__builtin_sub_overflow` (carry.h:157-161). -/
def subcBuiltin (w a b : Nat) (cin : Bool) : Nat × Bool :=
  let c1 := decide (a < b)
  let s := (a + 2 ^ w - b) % 2 ^ w
  let c2 := decide (s < cin.toNat)
  ((s + 2 ^ w - cin.toNat) % 2 ^ w, c1 || c2)

/-- `subc` in plain C++ (carry.h:165-169). -/
def subcPlain (w a b : Nat) (cin : Bool) : Nat × Bool :=
  let b := (a + 2 ^ w - b) % 2 ^ w
  let co := decide (a < b)
  let a := (b + 2 ^ w - cin.toNat) % 2 ^ w
  (a, co || decide (b < a))

/-- `_subborrow_u32` of the compiler. -/
def subborrow32 (cin : Bool) (a b : Nat) : Nat × Bool :=
  ((a + 2 ^ 33 - b - cin.toNat) % 2 ^ 32, decide (a < b + cin.toNat))

/-- `subc` of 64-bit words with 32-bit Microsoft intrinsics (carry.h:143-152): the second step uses `alow`. -/
def subcMsvc32 (a b : Nat) (cin : Bool) : Nat × Bool :=
  let alow := a % 2 ^ 32
  let blow := b % 2 ^ 32
  let bhigh := b / 2 ^ 32
  let l := subborrow32 cin alow blow
  let h := subborrow32 l.2 alow bhigh
  (h.1 * 2 ^ 32 ||| l.1, h.2)

/-- `add_carry_naive` (intrinsics.h:70-75). -/
def addCarry (w : Nat) (carry : Bool) (a b : Nat) : Bool × Nat :=
  let temp := (carry.toNat + a) % 2 ^ w
  let out := (temp + b) % 2 ^ w
  (decide (out < b) || decide (temp < a), out)

/-- `sub_borrow_naive` (intrinsics.h:222-227). -/
def subBorrow (w : Nat) (carry : Bool) (a b : Nat) : Bool × Nat :=
  let temp := (a + 2 ^ w - carry.toNat) % 2 ^ w
  let out := (temp + 2 ^ w - b) % 2 ^ w
  (decide (temp < out) || decide (a < temp), out)

/-- `umul_least_32` (intrinsics.h:392-410): low and high word. -/
def umul32 (a b : Nat) : Nat × Nat :=
  let v := a * b % 2 ^ 64
  (v % 2 ^ 32, v / 2 ^ 32)

/-- `unpack_ul64` (intrinsics.h:430-454). -/
def unpack64 (a : Nat) : Nat × Nat := (a % 2 ^ 32, a / 2 ^ 32)

/-- `pack_ul64` (intrinsics.h:482-499), the shift-and-or branch. -/
def pack64 (low high : Nat) : Nat := high <<< 32 ||| low

/-- `umul_least_64_emulated` (intrinsics.h:501-525): low and high word. -/
def umul64Emulated (a b : Nat) : Nat × Nat :=
  let (a0, a1) := unpack64 a
  let (b0, b1) := unpack64 b
  let (c0, c1) := umul32 a0 b0
  let (a0b1l, a0b1h) := umul32 a0 b1
  let (a1b0l, a1b0h) := umul32 a1 b0
  let (c2, c3) := umul32 a1 b1
  let (k, c1) := addCarry 32 false c1 a0b1l
  let (k, c2) := addCarry 32 k a0b1h c2
  let (_, c3) := addCarry 32 k 0 c3
  let (k, c1) := addCarry 32 false c1 a1b0l
  let (k, c2) := addCarry 32 k a1b0h c2
  let (_, c3) := addCarry 32 k 0 c3
  (pack64 c0 c1, pack64 c2 c3)

/-- `umul_least64_high_emulated` (intrinsics.h:612-634). -/
def umul64HighEmulated (a b : Nat) : Nat :=
  let (a0, a1) := unpack64 a
  let (b0, b1) := unpack64 b
  let (_, c1) := umul32 a0 b0
  let (a0b1l, a0b1h) := umul32 a0 b1
  let (a1b0l, a1b0h) := umul32 a1 b0
  let (c2, c3) := umul32 a1 b1
  let (k, c1) := addCarry 32 false c1 a0b1l
  let (k, c2) := addCarry 32 k a0b1h c2
  let (_, c3) := addCarry 32 k 0 c3
  let (k, _) := addCarry 32 false c1 a1b0l
  let (k, c2) := addCarry 32 k a1b0h c2
  let (_, c3) := addCarry 32 k 0 c3
  pack64 c2 c3

/-- `add_or_overflow_die` (intrinsics.h:673-715): `none` is the termination of the process. -/
def addOrDie (w a b : Nat) : Option Nat :=
  let size := (a + b) % 2 ^ w
  if size < a then none else some size

/-- `add_or_overflow_die_chain` (intrinsics.h:717-725). -/
def addOrDieChain (w : Nat) : List Nat → Option Nat
  | [] => some 0
  | [a] => some a
  | a :: l => (addOrDieChain w l).bind (addOrDie w a)

/-- `mul_or_overflow_die` with `__builtin_mul_overflow` (intrinsics.h:734-738). -/
def mulOrDieBuiltin (w a b : Nat) : Option Nat :=
  if 2 ^ w ≤ a * b then none else some (a * b)

/-- `mul_or_overflow_die` of the Microsoft compiler (intrinsics.h:729-733): division by zero is undefined (outer `none`). -/
def mulOrDieMsvc (w a b : Nat) : Option (Option Nat) :=
  if b = 0 then none
  else if (2 ^ w - 1) / b < a then some none else some (some (a * b % 2 ^ w))

/-- `mul_or_overflow_die` on any other compiler (intrinsics.h:739-743). -/
def mulOrDieOther (w a b : Nat) : Option Nat :=
  let size := (a + b) % 2 ^ w
  if size < a then none else some size

/-- `cal_allocation_size_or_die` (intrinsics.h:790-808), the two hand-written branches. -/
def calAllocation (w sizeofT size : Nat) : Option Nat :=
  if (2 ^ w - 1) / sizeofT < size then none else some (size * sizeofT % 2 ^ w)

/-- `sub_underflow_naive` (intrinsics.h:753-767) on signed integers of `w` bits. (The arithmetic on the limits never
overflows.) -/
def subUnderflow (w : Nat) (a b : Int) : Option Int :=
  let mn : Int := -2 ^ (w - 1)
  let mx : Int := 2 ^ (w - 1) - 1
  let (mn, mx) := if 0 < b then (mn + b, mx) else (mn, mx + b)
  if a < mn ∨ mx < a then none else some (a - b)

/-- `std::countl_zero`. -/
def clz (w x : Nat) : Nat := if x = 0 then w else w - 1 - Nat.log 2 x

/-- The correction loop `while(q>=b||q*vn0>b*rhat+un){--q;rhat=rhat+vn1;if(rhat>=b)break;}` (udivmod.h:85-93,98-106). -/
def adjust (w B vn1 vn0 un : Nat) : Nat → Nat → Nat
  | 0, _ => 0
  | q + 1, rhat =>
    if B ≤ q + 1 ∨ (B * rhat + un) % 2 ^ w < (q + 1) * vn0 % 2 ^ w then
      let rhat := (rhat + vn1) % 2 ^ w
      if B ≤ rhat then q else adjust w B vn1 vn0 un q rhat
    else q + 1

/-- `udivbigbysmalltosmalldefault` (udivmod.h:26-109) without the machine instruction, for a word of `2*h` bits: quotient
and remainder. `none` is a division by zero. -/
def udivBigBySmall (h u1 u0 v : Nat) : Option (Nat × Nat) :=
  let w := 2 * h
  let B := 2 ^ h
  let s := clz w v
  let v := if s ≠ 0 then v * 2 ^ s % 2 ^ w else v
  let un64 := if s ≠ 0 then (u1 * 2 ^ s % 2 ^ w) ||| (u0 / 2 ^ (w - s)) else u1
  let un10 := if s ≠ 0 then u0 * 2 ^ s % 2 ^ w else u0
  let vn1 := v / 2 ^ h
  let vn0 := v % 2 ^ h
  let un1 := un10 / 2 ^ h
  let un0 := un10 % 2 ^ h
  if vn1 = 0 then none
  else
    let q1 := un64 / vn1
    let rhat := (un64 + 2 ^ w - q1 * vn1 % 2 ^ w) % 2 ^ w
    let q1 := adjust w B vn1 vn0 un1 q1 rhat
    let un21 := (un64 * B + un1 + 2 ^ w - q1 * v % 2 ^ w) % 2 ^ w
    let q0 := un21 / vn1
    let rhat := (un21 + 2 ^ w - q0 * vn1 % 2 ^ w) % 2 ^ w
    let q0 := adjust w B vn1 vn0 un0 q0 rhat
    some ((q1 * B + q0) % 2 ^ w, (un21 * B + un0 + 2 ^ w - q0 * v % 2 ^ w) % 2 ^ w / 2 ^ s)

/-- `shiftleft` (udivmod.h:111-134). -/
def shiftLeft (w low high shift : Nat) : Nat :=
  if shift = 0 then high else (high * 2 ^ shift % 2 ^ w) ||| (low / 2 ^ (w - shift))

/-- `shiftright` (udivmod.h:136-159). -/
def shiftRight (w low high shift : Nat) : Nat :=
  if shift = 0 then low else (high * 2 ^ (w - shift) % 2 ^ w) ||| (low / 2 ^ shift)

/-- The variables of the loop. -/
structure DivSt where
  nl : Nat
  nh : Nat
  dl : Nat
  dh : Nat
  q : Nat
deriving DecidableEq

/-- The body of `do{...}while(shift--)` (udivmod.h:203-218). `plain` chooses the plain C++ `addc`/`subc`. -/
def divBody (w : Nat) (plain : Bool) (s : DivSt) : DivSt :=
  let subc := if plain then subcPlain w else subcBuiltin w
  let addc := if plain then addcPlain w else addcBuiltin w
  let (nl, c) := subc s.nl s.dl false
  let (nh, c) := subc s.nh s.dh c
  let mask := (2 ^ w - c.toNat) % 2 ^ w
  let tl := s.dl &&& mask
  let th := s.dh &&& mask
  let (q, _) := addc s.q s.q (!c)
  let (nl, c) := addc nl tl false
  let (nh, _) := addc nh th c
  { nl := nl, nh := nh, dl := shiftRight w s.dl s.dh 1, dh := s.dh / 2, q := q }

/-- Repeating it. -/
def divLoop (w : Nat) (plain : Bool) : Nat → DivSt → DivSt
  | 0, s => s
  | n + 1, s => divLoop w plain n (divBody w plain s)

/-- `udivmod` of udivmod.h (udivmod.h:161-221): quotient low, high, remainder low, high. `none` is a division by zero. -/
def udivmod (h : Nat) (plain : Bool) (nl nh dl dh : Nat) : Option (Nat × Nat × Nat × Nat) :=
  let w := 2 * h
  if nh < dh ∨ (dh = nh ∧ nl < dl) then some (0, 0, nl, nh)
  else if dh = 0 then
    if nh < dl then (udivBigBySmall h nh nl dl).map fun t => (t.1, 0, t.2, 0)
    else if dl = 0 then none
    else (udivBigBySmall h (nh % dl) nl dl).map fun t => (t.1, nh / dl, t.2, 0)
  else
    let shift := clz w dh - clz w nh
    let s : DivSt := { nl := nl, nh := nh, dl := dl * 2 ^ shift % 2 ^ w, dh := shiftLeft w dl dh shift, q := 0 }
    let s := divLoop w plain (shift + 1) s
    some (s.q, 0, s.nl, s.nh)

/-- The loop of the older `udivmod` (intrinsics.h:1031-1051): state `(q_low,q_high,r_low,r_high,carry)`. -/
def oldBody (w dl dh : Nat) (st : Nat × Nat × Nat × Nat × Nat) : Nat × Nat × Nat × Nat × Nat :=
  let (ql, qh, rl, rh, carry) := st
  let rh := (rh * 2 % 2 ^ w) ||| (rl / 2 ^ (w - 1))
  let rl := (rl * 2 % 2 ^ w) ||| (qh / 2 ^ (w - 1))
  let qh := (qh * 2 % 2 ^ w) ||| (ql / 2 ^ (w - 1))
  let ql := (ql * 2 % 2 ^ w) ||| carry
  let (k, sl) := subBorrow w true dl rl
  let (_, sh) := subBorrow w k dh rh
  let sl := (sl / 2 ^ (w - 1)) ||| ((sh % 2 ^ (w - 1)) * 2 % 2 ^ w)
  let sh := sh / 2 ^ (w - 1)
  let carry := sl % 2
  let sl := sl &&& dl
  let sh := sh &&& dh
  let (k, rl) := subBorrow w false rl sl
  let (_, rh) := subBorrow w k rh sh
  (ql, qh, rl, rh, carry)

def oldLoop (w dl dh : Nat) : Nat → Nat × Nat × Nat × Nat × Nat → Nat × Nat × Nat × Nat × Nat
  | 0, st => st
  | n + 1, st => oldLoop w dl dh n (oldBody w dl dh st)

/-- `__builtin_ctzll`. -/
def ctz (x : Nat) : Nat := padicValNat2 x
where padicValNat2 (x : Nat) : Nat := Nat.log 2 (x ^^^ (x - 1))

/-- The older `udivmod` (intrinsics.h:854-1056), used by timestamp division without `__int128`. `none` is the
termination or a division by zero. -/
def udivmodOld (w nl nh dl dh : Nat) : Option (Nat × Nat × Nat × Nat) :=
  let fin (sr ql qh rl rh : Nat) : Option (Nat × Nat × Nat × Nat) :=
    let (ql, qh, rl, rh, carry) := oldLoop w dl dh sr (ql, qh, rl, rh, 0)
    some ((ql * 2 % 2 ^ w) ||| carry, (qh * 2 % 2 ^ w) ||| (ql / 2 ^ (w - 1)), rl, rh)
  if nh = 0 then
    if dh = 0 then (if dl = 0 then none else some (nl / dl, 0, nl % dl, 0)) else some (0, 0, nl, 0)
  else if dl = 0 then
    if dh = 0 then none
    else if nl = 0 then some (nh / dh, 0, 0, nh % dh)
    else if dh &&& (dh - 1) = 0 then some (nh / 2 ^ ctz dh, 0, nl, nh &&& (dh - 1))
    else if clz w dh < clz w nh ∨ w - 2 < clz w dh - clz w nh then some (0, 0, nl, nh)
    else
      let sr := clz w dh - clz w nh + 1
      fin sr 0 (nl * 2 ^ (w - sr) % 2 ^ w) ((nh * 2 ^ (w - sr) % 2 ^ w) ||| (nl / 2 ^ sr)) (nh / 2 ^ sr)
  else if dh = 0 then
    if dl &&& (dl - 1) = 0 then
      let rem := nl &&& (dl - 1)
      if dl = 1 then some (nl, nh, rem, 0)
      else
        let sr := ctz dl
        some ((nh * 2 ^ (w - sr) % 2 ^ w) ||| (nl / 2 ^ sr), nh / 2 ^ sr, rem, 0)
    else
      let sr := 1 + w + clz w dl - clz w nh
      if sr = w then fin sr 0 nl nh 0
      else if sr < w then
        fin sr 0 (nl * 2 ^ (w - sr) % 2 ^ w) ((nh * 2 ^ (w - sr) % 2 ^ w) ||| (nl / 2 ^ sr)) (nh / 2 ^ sr)
      else
        fin sr (nl * 2 ^ (2 * w - sr) % 2 ^ w) ((nh * 2 ^ (2 * w - sr) % 2 ^ w) ||| (nl / 2 ^ (sr - w))) (nh / 2 ^ (sr - w)) 0
  else
    if clz w dh < clz w nh then some (0, 0, nl, nh)
    else
      let sr := clz w dh - clz w nh + 1
      if sr = w then fin sr 0 nl nh 0
      else fin sr 0 (nl * 2 ^ (w - sr) % 2 ^ w) ((nh * 2 ^ (w - sr) % 2 ^ w) ||| (nl / 2 ^ sr)) (nh / 2 ^ sr)

end Verif.Arith
