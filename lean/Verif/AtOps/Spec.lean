import Verif.Utf.Spec
/-!
# Operations on files by name (specification)

What a user asks for (`Call`), how the name written in the call is to be understood (`Writes`), what the operating system is asked to do
(`Request`), and the Linux system call interface through which requests are made (`decode`, after the system call tables and the manual
pages of section 2; x86-64 numbers). The operating system itself is left open: theorems hold for every reaction to requests. For
counterexamples there is a small concrete file system. This file does not mention the implementation.
-/
namespace Verif.AtOps
open Verif.Utf

/-! ## What the user writes -/

/-- The ways to write a file name: an array (all its elements), a pointer to a terminated string (what is readable from it on), a string
object (its characters; a terminator follows them), a string view (its characters; nothing is known of what follows). The encoding says how
wide the characters are: `.u8` for `char` and `char8_t`, `.u16` for `char16_t`, `.u32` for `char32_t` and `wchar_t`. -/
inductive PathArg where
  | array (e : Enc) (elems : List Nat)
  | pointer (e : Enc) (readable : List Nat)
  | str (e : Enc) (chars : List Nat)
  | view (e : Enc) (chars : List Nat)

/-- `b` is the name the path argument stands for: names made of bytes stand for themselves, wider texts for their UTF-8 form; a name
has no NUL character. (Lengths are bounded far above what memory can hold.) -/
inductive Writes : PathArg → List Nat → Prop
  | arrayBytes (b rest : List Nat) : 0 ∉ b → Writes (.array .u8 (b ++ 0 :: rest)) b
  | arrayText (e : Enc) (cs : List Nat) (k : Nat) : e = .u16 ∨ e = .u32 → (∀ c ∈ cs, Scalar c) → 0 ∉ cs →
      (encText e cs).length + k < 2 ^ 60 → Writes (.array e (encText e cs ++ List.replicate (k + 1) 0)) (encText .u8 cs)
  | pointerBytes (b rest : List Nat) : 0 ∉ b → Writes (.pointer .u8 (b ++ 0 :: rest)) b
  | pointerText (e : Enc) (cs rest : List Nat) : e = .u16 ∨ e = .u32 → (∀ c ∈ cs, Scalar c) → 0 ∉ cs →
      (encText e cs).length < 2 ^ 60 → Writes (.pointer e (encText e cs ++ 0 :: rest)) (encText .u8 cs)
  | strBytes (b : List Nat) : 0 ∉ b → Writes (.str .u8 b) b
  | strText (e : Enc) (cs : List Nat) : e = .u16 ∨ e = .u32 → (∀ c ∈ cs, Scalar c) → 0 ∉ cs →
      (encText e cs).length < 2 ^ 60 → Writes (.str e (encText e cs)) (encText .u8 cs)
  | viewBytes (b : List Nat) : 0 ∉ b → b.length < 2 ^ 60 → Writes (.view .u8 b) b
  | viewText (e : Enc) (cs : List Nat) : e = .u16 ∨ e = .u32 → (∀ c ∈ cs, Scalar c) → 0 ∉ cs →
      (encText e cs).length < 2 ^ 60 → Writes (.view e (encText e cs)) (encText .u8 cs)

/-- A point in time: seconds since the epoch and fractions of a second in units of 10^-19 s. -/
structure Stamp where
  seconds : Int
  subseconds : Nat

/-- What is to happen to a time of a file. -/
inductive TimeOpt where
  | at (t : Stamp)
  | now
  | omit

/-- The flags of the calls. -/
inductive AtFlag where
  | eaccess | symlinkNofollow | noAutomount | removedir | emptyPath
deriving DecidableEq

/-- A call of the library. Directories are open directory descriptors, or -100 for the current directory. -/
inductive Call where
  | rename (olddir : Int) (old : PathArg) (newdir : Int) (new : PathArg)
  | access (dir : Int) (path : PathArg) (how : Nat) (flags : List AtFlag)
  | chmod (dir : Int) (path : PathArg) (mode : Nat) (flags : List AtFlag)
  | chown (dir : Int) (path : PathArg) (owner group : Nat) (flags : List AtFlag)
  | mkdir (dir : Int) (path : PathArg) (mode : Nat)
  | unlink (dir : Int) (path : PathArg) (flags : List AtFlag)
  | utimens (dir : Int) (path : PathArg) (creation access modification : TimeOpt) (flags : List AtFlag)

/-! ## What the operating system is asked -/

/-- What is to happen to a time of a file, in the units of the operating system. -/
inductive TimeReq where
  | at (sec : Int) (nsec : Nat)
  | now
  | omit
deriving DecidableEq

/-- Requests. `eaccess`: check for the effective user; `nofollow`: act on a symbolic link itself; `empty`: an empty name means the
descriptor itself; `removedir`: remove a directory. Identifiers of users and groups are 32-bit, 2^32 - 1 meaning "unchanged". -/
inductive Request where
  | rename (olddir : Int) (old : List Nat) (newdir : Int) (new : List Nat)
  | access (dir : Int) (path : List Nat) (how : Nat) (eaccess nofollow empty : Bool)
  | chmod (dir : Int) (path : List Nat) (mode : Nat) (nofollow : Bool)
  | chown (dir : Int) (path : List Nat) (owner group : Nat) (nofollow empty : Bool)
  | mkdir (dir : Int) (path : List Nat) (mode : Nat)
  | unlink (dir : Int) (path : List Nat) (removedir : Bool)
  | utimens (dir : Int) (path : List Nat) (access modification : TimeReq) (nofollow empty : Bool)
deriving DecidableEq

/-- The time request a time option stands for: the fraction is rounded down to nanoseconds. -/
inductive AsksTime : TimeOpt → TimeReq → Prop
  | at (t : Stamp) (ns : Nat) : t.subseconds < 10 ^ 19 → ns * 10 ^ 10 ≤ t.subseconds → t.subseconds < (ns + 1) * 10 ^ 10 →
      AsksTime (.at t) (.at t.seconds ns)
  | now : AsksTime .now .now
  | omit : AsksTime .omit .omit

/-- The request a call stands for. Each call admits the flags its system call documents. Modes, identifiers and the set of access rights are
in the range of their types. -/
inductive Asks : Call → Request → Prop
  | rename (d : Int) (p : PathArg) (b : List Nat) (d' : Int) (p' : PathArg) (b' : List Nat) : Writes p b → Writes p' b' →
      Asks (.rename d p d' p') (.rename d b d' b')
  | access (d : Int) (p : PathArg) (b : List Nat) (how : Nat) (fl : List AtFlag) : Writes p b → how < 8 →
      (∀ f ∈ fl, f = .eaccess ∨ f = .symlinkNofollow ∨ f = .emptyPath) →
      Asks (.access d p how fl) (.access d b how (.eaccess ∈ fl) (.symlinkNofollow ∈ fl) (.emptyPath ∈ fl))
  | chmod (d : Int) (p : PathArg) (b : List Nat) (mode : Nat) (fl : List AtFlag) : Writes p b → mode < 2 ^ 12 →
      (∀ f ∈ fl, f = .symlinkNofollow) →
      Asks (.chmod d p mode fl) (.chmod d b mode (.symlinkNofollow ∈ fl))
  | chown (d : Int) (p : PathArg) (b : List Nat) (owner group : Nat) (fl : List AtFlag) : Writes p b → owner < 2 ^ 32 → group < 2 ^ 32 →
      (∀ f ∈ fl, f = .symlinkNofollow ∨ f = .emptyPath) →
      Asks (.chown d p owner group fl) (.chown d b owner group (.symlinkNofollow ∈ fl) (.emptyPath ∈ fl))
  | mkdir (d : Int) (p : PathArg) (b : List Nat) (mode : Nat) : Writes p b → mode < 2 ^ 12 → Asks (.mkdir d p mode) (.mkdir d b mode)
  | unlink (d : Int) (p : PathArg) (b : List Nat) (fl : List AtFlag) : Writes p b → (∀ f ∈ fl, f = .removedir) →
      Asks (.unlink d p fl) (.unlink d b (.removedir ∈ fl))
  | utimens (d : Int) (p : PathArg) (b : List Nat) (a m : TimeOpt) (a' m' : TimeReq) (fl : List AtFlag) : Writes p b →
      AsksTime a a' → AsksTime m m' → (∀ f ∈ fl, f = .symlinkNofollow ∨ f = .emptyPath) →
      Asks (.utimens d p .omit a m fl) (.utimens d b a' m' (.symlinkNofollow ∈ fl) (.emptyPath ∈ fl))

/-! ## The system call interface -/

/-- Arguments of system calls: numbers, pointers to characters (what is readable from there on), a pointer to two `timespec`s. -/
inductive Arg where
  | num (n : Int)
  | chars (readable : List Nat)
  | times (a m : Int × Int)

/-- The string the kernel reads: up to the first NUL, which must be readable. -/
def cstring (l : List Nat) : Option (List Nat) := if 0 ∈ l then some (l.takeWhile (· ≠ 0)) else none

/-- What happens when a system call is made: a request is carried out, an error is returned, or the kernel reads where there is nothing. -/
inductive Decoded where
  | request (r : Request)
  | error (errno : Nat)
  | wild
deriving DecidableEq

/-- EINVAL. -/
def einval : Nat := 22
/-- EOVERFLOW. -/
def eoverflow : Nat := 75

/-- One `timespec` of utimensat(2): UTIME_NOW is 2^30 - 1, UTIME_OMIT is 2^30 - 2. -/
def decodeTime (t : Int × Int) : Option TimeReq :=
  if t.2 = 1073741823 then some .now
  else if t.2 = 1073741822 then some .omit
  else if 0 ≤ t.2 ∧ t.2 < 1000000000 then some (.at t.1 t.2.toNat)
  else none

/-- Whether bit `b` is set in the flag word `f`. -/
def bit (f : Int) (b : Nat) : Bool := f.toNat &&& b ≠ 0

/-- With a readable name, do `k`. -/
def withName (p : List Nat) (k : List Nat → Decoded) : Decoded :=
  match cstring p with
  | some b => k b
  | none => .wild

/-- Linux on x86-64: mkdirat 258, fchownat 260, unlinkat 263, renameat 264, fchmodat 268, faccessat 269, utimensat 280,
faccessat2 439. The calls fchmodat and faccessat have three parameters; further registers are not looked at. AT_SYMLINK_NOFOLLOW is 0x100,
AT_EACCESS and AT_REMOVEDIR are 0x200, AT_EMPTY_PATH is 0x1000; other flags are refused. -/
def decode (nr : Nat) (args : List Arg) : Decoded :=
  match nr, args with
  | 264, [.num d, .chars p, .num d', .chars p'] => withName p fun b => withName p' fun b' => .request (.rename d b d' b')
  | 439, [.num d, .chars p, .num how, .num f] =>
    if f.toNat &&& 0x1300 ≠ f.toNat ∨ f < 0 ∨ how < 0 ∨ 8 ≤ how then .error einval
    else withName p fun b => .request (.access d b how.toNat (bit f 0x200) (bit f 0x100) (bit f 0x1000))
  | 269, .num d :: .chars p :: .num how :: _ =>
    if how < 0 ∨ 8 ≤ how then .error einval else withName p fun b => .request (.access d b how.toNat false false false)
  | 268, .num d :: .chars p :: .num mode :: _ => withName p fun b => .request (.chmod d b (mode.toNat % 2 ^ 12) false)
  | 260, [.num d, .chars p, .num o, .num g, .num f] =>
    if f.toNat &&& 0x1100 ≠ f.toNat ∨ f < 0 then .error einval
    else withName p fun b => .request (.chown d b (o.toNat % 2 ^ 32) (g.toNat % 2 ^ 32) (bit f 0x100) (bit f 0x1000))
  | 258, [.num d, .chars p, .num mode] => withName p fun b => .request (.mkdir d b (mode.toNat % 2 ^ 12))
  | 263, [.num d, .chars p, .num f] =>
    if f.toNat &&& 0x200 ≠ f.toNat ∨ f < 0 then .error einval else withName p fun b => .request (.unlink d b (bit f 0x200))
  | 280, [.num d, .chars p, .times a m, .num f] =>
    if f.toNat &&& 0x1100 ≠ f.toNat ∨ f < 0 then .error einval
    else match decodeTime a, decodeTime m with
      | some a', some m' => withName p fun b => .request (.utimens d b a' m' (bit f 0x100) (bit f 0x1000))
      | _, _ => .error einval
  | _, _ => .error 38

/-- An operating system: how it reacts to requests, in the state it is in: it refuses them with an error number, or not. -/
abbrev Os (σ : Type) := Request → σ → Option Nat × σ

/-- Error numbers are between 1 and 4095. -/
def Os.Sound {σ : Type} (os : Os σ) : Prop := ∀ r s e, (os r s).1 = some e → 1 ≤ e ∧ e ≤ 4095

/-- What a call of the library comes to: it returns, throws an error with a number, or terminates the program. -/
inductive Outcome where
  | returns
  | throws (errno : Int)
  | dies
deriving DecidableEq

/-- What is to happen when `r` is requested: the operating system carries it out; an error is thrown. -/
def carriedOut {σ : Type} (os : Os σ) (r : Request) (s : σ) : Outcome × σ :=
  match (os r s).1 with
  | none => (.returns, (os r s).2)
  | some e => (.throws e, (os r s).2)

/-! ## A small file system, for counterexamples -/

/-- A file: a symbolic link with its target, or something else. -/
structure Node where
  link : Option (List Nat)
  mode : Nat
  owner : Nat
  group : Nat
  mtime : Int
deriving DecidableEq

/-- A directory: its entries. -/
abbrev Dir := List (List Nat × Node)

/-- The name finally meant: symbolic links are followed unless `nofollow`. -/
def target (s : Dir) (nofollow : Bool) (nm : List Nat) : List Nat :=
  if nofollow then nm
  else match s.lookup nm with
    | some ⟨some t, _, _, _, _⟩ => t
    | _ => nm

/-- Change the entry `nm`. -/
def change (s : Dir) (nm : List Nat) (f : Node → Node) : Dir := s.map fun e => if e.1 = nm then (e.1, f e.2) else e

/-- Some requests, carried out in one directory. -/
def small : Os Dir := fun r s =>
  match r with
  | .chmod _ p mode nf => match s.lookup (target s nf p) with
    | none => (some 2, s)
    | some n => if n.link.isSome then (some 95, s) else (none, change s (target s nf p) fun n => { n with mode := mode })
  | .chown _ p o g nf _ => match s.lookup (target s nf p) with
    | none => (some 2, s)
    | some _ => (none, change s (target s nf p) fun n =>
        { n with owner := if o = 2 ^ 32 - 1 then n.owner else o, group := if g = 2 ^ 32 - 1 then n.group else g })
  | .access _ p _ _ nf _ => match s.lookup (target s nf p) with
    | none => (some 2, s)
    | some _ => (none, s)
  | .mkdir _ p mode => match s.lookup p with
    | none => (none, s ++ [(p, ⟨none, mode, 0, 0, 0⟩)])
    | some _ => (some 17, s)
  | .unlink _ p _ => match s.lookup p with
    | none => (some 2, s)
    | some _ => (none, s.filter fun e => e.1 ≠ p)
  | .utimens _ p _ m nf _ => match s.lookup (target s nf p) with
    | none => (some 2, s)
    | some _ => (none, match m with
      | .at t _ => change s (target s nf p) fun n => { n with mtime := t }
      | _ => s)
  | .rename _ p _ p' => match s.lookup p with
    | none => (some 2, s)
    | some n => (none, (s.filter fun e => e.1 ≠ p ∧ e.1 ≠ p') ++ [(p', n)])

end Verif.AtOps
