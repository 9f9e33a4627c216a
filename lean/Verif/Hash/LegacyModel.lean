import Verif.Hash.Sha2Model
/-!
# Model of the scalar SHA-1 (`sha1.h`) and MD5 (`md5.h`) code

As in `Sha2Model.lean` the unrolled calls are tables generated from the source; registers are numbered from 0.
-/
namespace Verif.Hash.Legacy
open Verif Verif.Hash

/-- A call `Rn(X, v, w, x, y, z, i)`. -/
structure Line1 where
  n : Nat
  args : List Nat
  i : Nat
deriving DecidableEq

/-- The eighty unrolled calls (sha1.h:81-160): which of `R0`..`R4`, registers, ring index. -/
def sha1Lines : List Line1 := [
  ⟨0, [0, 1, 2, 3, 4], 0⟩, ⟨0, [4, 0, 1, 2, 3], 1⟩, ⟨0, [3, 4, 0, 1, 2], 2⟩, ⟨0, [2, 3, 4, 0, 1], 3⟩,
  ⟨0, [1, 2, 3, 4, 0], 4⟩, ⟨0, [0, 1, 2, 3, 4], 5⟩, ⟨0, [4, 0, 1, 2, 3], 6⟩, ⟨0, [3, 4, 0, 1, 2], 7⟩,
  ⟨0, [2, 3, 4, 0, 1], 8⟩, ⟨0, [1, 2, 3, 4, 0], 9⟩, ⟨0, [0, 1, 2, 3, 4], 10⟩, ⟨0, [4, 0, 1, 2, 3], 11⟩,
  ⟨0, [3, 4, 0, 1, 2], 12⟩, ⟨0, [2, 3, 4, 0, 1], 13⟩, ⟨0, [1, 2, 3, 4, 0], 14⟩, ⟨0, [0, 1, 2, 3, 4], 15⟩,
  ⟨1, [4, 0, 1, 2, 3], 0⟩, ⟨1, [3, 4, 0, 1, 2], 1⟩, ⟨1, [2, 3, 4, 0, 1], 2⟩, ⟨1, [1, 2, 3, 4, 0], 3⟩,
  ⟨2, [0, 1, 2, 3, 4], 4⟩, ⟨2, [4, 0, 1, 2, 3], 5⟩, ⟨2, [3, 4, 0, 1, 2], 6⟩, ⟨2, [2, 3, 4, 0, 1], 7⟩,
  ⟨2, [1, 2, 3, 4, 0], 8⟩, ⟨2, [0, 1, 2, 3, 4], 9⟩, ⟨2, [4, 0, 1, 2, 3], 10⟩, ⟨2, [3, 4, 0, 1, 2], 11⟩,
  ⟨2, [2, 3, 4, 0, 1], 12⟩, ⟨2, [1, 2, 3, 4, 0], 13⟩, ⟨2, [0, 1, 2, 3, 4], 14⟩, ⟨2, [4, 0, 1, 2, 3], 15⟩,
  ⟨2, [3, 4, 0, 1, 2], 0⟩, ⟨2, [2, 3, 4, 0, 1], 1⟩, ⟨2, [1, 2, 3, 4, 0], 2⟩, ⟨2, [0, 1, 2, 3, 4], 3⟩,
  ⟨2, [4, 0, 1, 2, 3], 4⟩, ⟨2, [3, 4, 0, 1, 2], 5⟩, ⟨2, [2, 3, 4, 0, 1], 6⟩, ⟨2, [1, 2, 3, 4, 0], 7⟩,
  ⟨3, [0, 1, 2, 3, 4], 8⟩, ⟨3, [4, 0, 1, 2, 3], 9⟩, ⟨3, [3, 4, 0, 1, 2], 10⟩, ⟨3, [2, 3, 4, 0, 1], 11⟩,
  ⟨3, [1, 2, 3, 4, 0], 12⟩, ⟨3, [0, 1, 2, 3, 4], 13⟩, ⟨3, [4, 0, 1, 2, 3], 14⟩, ⟨3, [3, 4, 0, 1, 2], 15⟩,
  ⟨3, [2, 3, 4, 0, 1], 0⟩, ⟨3, [1, 2, 3, 4, 0], 1⟩, ⟨3, [0, 1, 2, 3, 4], 2⟩, ⟨3, [4, 0, 1, 2, 3], 3⟩,
  ⟨3, [3, 4, 0, 1, 2], 4⟩, ⟨3, [2, 3, 4, 0, 1], 5⟩, ⟨3, [1, 2, 3, 4, 0], 6⟩, ⟨3, [0, 1, 2, 3, 4], 7⟩,
  ⟨3, [4, 0, 1, 2, 3], 8⟩, ⟨3, [3, 4, 0, 1, 2], 9⟩, ⟨3, [2, 3, 4, 0, 1], 10⟩, ⟨3, [1, 2, 3, 4, 0], 11⟩,
  ⟨4, [0, 1, 2, 3, 4], 12⟩, ⟨4, [4, 0, 1, 2, 3], 13⟩, ⟨4, [3, 4, 0, 1, 2], 14⟩, ⟨4, [2, 3, 4, 0, 1], 15⟩,
  ⟨4, [1, 2, 3, 4, 0], 0⟩, ⟨4, [0, 1, 2, 3, 4], 1⟩, ⟨4, [4, 0, 1, 2, 3], 2⟩, ⟨4, [3, 4, 0, 1, 2], 3⟩,
  ⟨4, [2, 3, 4, 0, 1], 4⟩, ⟨4, [1, 2, 3, 4, 0], 5⟩, ⟨4, [0, 1, 2, 3, 4], 6⟩, ⟨4, [4, 0, 1, 2, 3], 7⟩,
  ⟨4, [3, 4, 0, 1, 2], 8⟩, ⟨4, [2, 3, 4, 0, 1], 9⟩, ⟨4, [1, 2, 3, 4, 0], 10⟩, ⟨4, [0, 1, 2, 3, 4], 11⟩,
  ⟨4, [4, 0, 1, 2, 3], 12⟩, ⟨4, [3, 4, 0, 1, 2], 13⟩, ⟨4, [2, 3, 4, 0, 1], 14⟩, ⟨4, [1, 2, 3, 4, 0], 15⟩]

/-- `blk` (sha1.h:6-9). -/
def blk (block : List (BitVec 32)) (i : Nat) : BitVec 32 :=
  (block.getD ((i + 13) &&& 15) 0 ^^^ block.getD ((i + 8) &&& 15) 0 ^^^ block.getD ((i + 2) &&& 15) 0 ^^^
    block.getD i 0).rotateLeft 1

/-- The function and constant of `R0`..`R4` (sha1.h:13,20,28,36,44). -/
def rFun (n : Nat) (w x y : BitVec 32) : BitVec 32 × BitVec 32 :=
  match n with
  | 0 => ((w &&& (x ^^^ y)) ^^^ y, 0x5a827999#32)
  | 1 => ((w &&& (x ^^^ y)) ^^^ y, 0x5a827999#32)
  | 2 => (w ^^^ x ^^^ y, 0x6ed9eba1#32)
  | 3 => (((w ||| x) &&& y) ||| (w &&& x), 0x8f1bbcdc#32)
  | _ => (w ^^^ x ^^^ y, 0xca62c1d6#32)

/-- `R0` (sha1.h:11-15) and `R1`..`R4` (sha1.h:17-46), which first extend the schedule in place. State: registers and
`block`. -/
def rCall (s : List (BitVec 32) × List (BitVec 32)) (l : Line1) : List (BitVec 32) × List (BitVec 32) :=
  let (regs, block) := s
  let r (k : Nat) : BitVec 32 := regs.getD (l.args.getD k 0) 0
  let block := if l.n = 0 then block else block.set l.i (blk block l.i)
  let z := r 4 + ((rFun l.n (r 1) (r 2) (r 3)).1 + block.getD l.i 0 + (rFun l.n (r 1) (r 2) (r 3)).2 + (r 0).rotateLeft 5)
  let w := (r 1).rotateLeft 30
  ((regs.set (l.args.getD 4 0) z).set (l.args.getD 1 0) w, block)

/-- One iteration of the block loop of `sha1_do_constexpr_function` (sha1.h:53-169), which is also the run-time function
without SHA instructions (sha1.h:711-713). -/
def sha1Block (data : Nat → BitVec 32) (state : List (BitVec 32)) : List (BitVec 32) :=
  let X := (List.range 16).map data
  let s := sha1Lines.foldl rCall (state, X)
  List.zipWith (· + ·) state s.1

/-- `initialize_value` (sha1.h:752). -/
def iv1 : List (BitVec 32) := [0x67452301, 0xefcdab89, 0x98badcfe, 0x10325476, 0xc3d2e1f0]

/-- `class sha1` (sha1.h:717-745) in a context with a 64-bit counter, at run time. -/
def sha1P (native : Bool) : Params (List (BitVec 32)) :=
  { bs := 64, cs := 8, big := true, comp := fun s b => sha1Block (Sha2.loadWord native true 32 b) s }

/-- The same during constant evaluation (words combined from bytes, sha1.h:63-68). -/
def sha1ConstP : Params (List (BitVec 32)) :=
  { bs := 64, cs := 8, big := true, comp := fun s b => sha1Block (Sha2.constWord 32 b) s }

/-- `uu<F>`, `uu<G>`, `uu<I>` and `uutmp<H>`. -/
inductive Op5 | F | G | Htmp | I
deriving DecidableEq

/-- A call `uu<op>(a,b,c,d,x[xi],s,ac)` or `uutmp<H>(tmp,a,b,d,x[xi],s,ac)`. -/
structure Line5 where
  op : Op5
  args : List Nat
  xi : Nat
  s : Nat
  ac : Nat
deriving DecidableEq

/-- The sixty-four unrolled calls of `md5_main_le` (md5.h:252-344, the branch taken of each `if constexpr`): function,
registers, message word, shift, constant. The calls of `md5_main` (md5.h:107-220) are the same. -/
def md5Lines : List Line5 := [
  ⟨.F, [0, 1, 2, 3], 0, 7, 0xd76aa478⟩,
  ⟨.F, [3, 0, 1, 2], 1, 12, 0xe8c7b756⟩,
  ⟨.F, [2, 3, 0, 1], 2, 17, 0x242070db⟩,
  ⟨.F, [1, 2, 3, 0], 3, 22, 0xc1bdceee⟩,
  ⟨.F, [0, 1, 2, 3], 4, 7, 0xf57c0faf⟩,
  ⟨.F, [3, 0, 1, 2], 5, 12, 0x4787c62a⟩,
  ⟨.F, [2, 3, 0, 1], 6, 17, 0xa8304613⟩,
  ⟨.F, [1, 2, 3, 0], 7, 22, 0xfd469501⟩,
  ⟨.F, [0, 1, 2, 3], 8, 7, 0x698098d8⟩,
  ⟨.F, [3, 0, 1, 2], 9, 12, 0x8b44f7af⟩,
  ⟨.F, [2, 3, 0, 1], 10, 17, 0xffff5bb1⟩,
  ⟨.F, [1, 2, 3, 0], 11, 22, 0x895cd7be⟩,
  ⟨.F, [0, 1, 2, 3], 12, 7, 0x6b901122⟩,
  ⟨.F, [3, 0, 1, 2], 13, 12, 0xfd987193⟩,
  ⟨.F, [2, 3, 0, 1], 14, 17, 0xa679438e⟩,
  ⟨.F, [1, 2, 3, 0], 15, 22, 0x49b40821⟩,
  ⟨.G, [0, 1, 2, 3], 1, 5, 0xf61e2562⟩,
  ⟨.G, [3, 0, 1, 2], 6, 9, 0xc040b340⟩,
  ⟨.G, [2, 3, 0, 1], 11, 14, 0x265e5a51⟩,
  ⟨.G, [1, 2, 3, 0], 0, 20, 0xe9b6c7aa⟩,
  ⟨.G, [0, 1, 2, 3], 5, 5, 0xd62f105d⟩,
  ⟨.G, [3, 0, 1, 2], 10, 9, 0x2441453⟩,
  ⟨.G, [2, 3, 0, 1], 15, 14, 0xd8a1e681⟩,
  ⟨.G, [1, 2, 3, 0], 4, 20, 0xe7d3fbc8⟩,
  ⟨.G, [0, 1, 2, 3], 9, 5, 0x21e1cde6⟩,
  ⟨.G, [3, 0, 1, 2], 14, 9, 0xc33707d6⟩,
  ⟨.G, [2, 3, 0, 1], 3, 14, 0xf4d50d87⟩,
  ⟨.G, [1, 2, 3, 0], 8, 20, 0x455a14ed⟩,
  ⟨.G, [0, 1, 2, 3], 13, 5, 0xa9e3e905⟩,
  ⟨.G, [3, 0, 1, 2], 2, 9, 0xfcefa3f8⟩,
  ⟨.G, [2, 3, 0, 1], 7, 14, 0x676f02d9⟩,
  ⟨.G, [1, 2, 3, 0], 12, 20, 0x8d2a4c8a⟩,
  ⟨.Htmp, [0, 1, 3], 5, 4, 0xfffa3942⟩,
  ⟨.Htmp, [3, 0, 2], 8, 11, 0x8771f681⟩,
  ⟨.Htmp, [2, 3, 1], 11, 16, 0x6d9d6122⟩,
  ⟨.Htmp, [1, 2, 0], 14, 23, 0xfde5380c⟩,
  ⟨.Htmp, [0, 1, 3], 1, 4, 0xa4beea44⟩,
  ⟨.Htmp, [3, 0, 2], 4, 11, 0x4bdecfa9⟩,
  ⟨.Htmp, [2, 3, 1], 7, 16, 0xf6bb4b60⟩,
  ⟨.Htmp, [1, 2, 0], 10, 23, 0xbebfbc70⟩,
  ⟨.Htmp, [0, 1, 3], 13, 4, 0x289b7ec6⟩,
  ⟨.Htmp, [3, 0, 2], 0, 11, 0xeaa127fa⟩,
  ⟨.Htmp, [2, 3, 1], 3, 16, 0xd4ef3085⟩,
  ⟨.Htmp, [1, 2, 0], 6, 23, 0x4881d05⟩,
  ⟨.Htmp, [0, 1, 3], 9, 4, 0xd9d4d039⟩,
  ⟨.Htmp, [3, 0, 2], 12, 11, 0xe6db99e5⟩,
  ⟨.Htmp, [2, 3, 1], 15, 16, 0x1fa27cf8⟩,
  ⟨.Htmp, [1, 2, 0], 2, 23, 0xc4ac5665⟩,
  ⟨.I, [0, 1, 2, 3], 0, 6, 0xf4292244⟩,
  ⟨.I, [3, 0, 1, 2], 7, 10, 0x432aff97⟩,
  ⟨.I, [2, 3, 0, 1], 14, 15, 0xab9423a7⟩,
  ⟨.I, [1, 2, 3, 0], 5, 21, 0xfc93a039⟩,
  ⟨.I, [0, 1, 2, 3], 12, 6, 0x655b59c3⟩,
  ⟨.I, [3, 0, 1, 2], 3, 10, 0x8f0ccc92⟩,
  ⟨.I, [2, 3, 0, 1], 10, 15, 0xffeff47d⟩,
  ⟨.I, [1, 2, 3, 0], 1, 21, 0x85845dd1⟩,
  ⟨.I, [0, 1, 2, 3], 8, 6, 0x6fa87e4f⟩,
  ⟨.I, [3, 0, 1, 2], 15, 10, 0xfe2ce6e0⟩,
  ⟨.I, [2, 3, 0, 1], 6, 15, 0xa3014314⟩,
  ⟨.I, [1, 2, 3, 0], 13, 21, 0x4e0811a1⟩,
  ⟨.I, [0, 1, 2, 3], 4, 6, 0xf7537e82⟩,
  ⟨.I, [3, 0, 1, 2], 11, 10, 0xbd3af235⟩,
  ⟨.I, [2, 3, 0, 1], 2, 15, 0x2ad7d2bb⟩,
  ⟨.I, [1, 2, 3, 0], 9, 21, 0xeb86d391⟩]

/-- `unit<op>` (md5.h:11-42), the branches taken; `H` is only used through `uutmp`. -/
def unit5 (op : Op5) (x y z : BitVec 32) : BitVec 32 :=
  match op with
  | .F => (x &&& (y ^^^ z)) ^^^ z
  | .G => (z &&& x) + (~~~ z &&& y)
  | .Htmp => x ^^^ y ^^^ z
  | .I => y ^^^ (x ||| ~~~ z)

/-- `uu` (md5.h:44-51) and `uutmp<H>` (md5.h:53-73). State: registers and `tmp`. -/
def call5 (x : Nat → BitVec 32) (st : List (BitVec 32) × BitVec 32) (l : Line5) : List (BitVec 32) × BitVec 32 :=
  let (regs, tmp) := st
  let r (k : Nat) : BitVec 32 := regs.getD (l.args.getD k 0) 0
  let v := x l.xi + BitVec.ofNat 32 l.ac
  let v := v + r 0
  if l.op = .Htmp then
    let b := r 1; let d := r 2
    let tmp := tmp ^^^ b
    let v := v + tmp
    let tmp := tmp ^^^ d
    (regs.set (l.args.getD 0 0) (v.rotateLeft l.s + b), tmp)
  else
    let v := v + unit5 l.op (r 1) (r 2) (r 3)
    (regs.set (l.args.getD 0 0) (v.rotateLeft l.s + r 1), tmp)

/-- One iteration of the block loop of `md5_main_le` (md5.h:247-350) / `md5_main` (md5.h:92-227): rounds 1 and 2, then
`tmp=c^d` (md5.h:164,288), then rounds 3 and 4. `tmp` is uninitialised before; it starts as zero here. -/
def md5Block (x : Nat → BitVec 32) (state : List (BitVec 32)) : List (BitVec 32) :=
  let s := (md5Lines.take 32).foldl (call5 x) (state, 0)
  let s := (s.1, s.1.getD 2 0 ^^^ s.1.getD 3 0)
  let s := (md5Lines.drop 32).foldl (call5 x) s
  List.zipWith (· + ·) state s.1

/-- Words during constant evaluation (md5.h:103-105): the last byte is shifted as a `std::byte` before it is widened. -/
def constWord5 (block : List Nat) (j : Nat) : BitVec 32 :=
  let dj := block.drop (j * 4)
  let u (b : Nat) : BitVec 32 := BitVec.ofNat 32 b
  u (dj.getD 0 0) ||| (u (dj.getD 1 0) <<< 8) ||| (u (dj.getD 2 0) <<< 16) ||| u ((dj.getD 3 0 <<< 24) % 256)

/-- `initialize_value` (md5.h:393). -/
def iv5 : List (BitVec 32) := [0x67452301, 0xefcdab89, 0x98badcfe, 0x10325476]

/-- `class md5` (md5.h:353-388) in a context with a 64-bit counter, at run time: `md5_main_le` reads host words on a
little-endian host, `md5_main` converts them on a big-endian one. -/
def md5P (native : Bool) : Params (List (BitVec 32)) :=
  { bs := 64, cs := 8, big := false, comp := fun s b => md5Block (Sha2.loadWord native false 32 b) s }

/-- The same during constant evaluation. -/
def md5ConstP : Params (List (BitVec 32)) :=
  { bs := 64, cs := 8, big := false, comp := fun s b => md5Block (constWord5 b) s }

end Verif.Hash.Legacy
