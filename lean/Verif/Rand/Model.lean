import Verif.Rand.Spec
/-!
# Random numbers from the system (model)

`include/fast_io_hosted/white_hole/linux_getrandom.h` and `white_hole.h`, on Linux, with `read_all` of
`include/fast_io_core_impl/read_all.h` for streams without a buffer.
-/
namespace Verif.Rand

/-- How many random bytes were given out, and memory. -/
structure St where
  pos : Nat
  mem : Mem

/-- `linux_getrandom_read` (linux_getrandom.h:26-38): the system refuses (`none`: an exception), or writes `n` bytes. -/
def getrandom (s : St) (ptr : Nat) (ans : Option Nat) : Option (St × Nat) :=
  match ans with
  | none => none
  | some n => some (⟨s.pos + n, fun a => if ptr ≤ a ∧ a < ptr + n then some (s.pos + (a - ptr)) else s.mem a⟩, n)

/-- The answers that the system gives to a request for `sz` bytes: at least one byte, if any is asked for, not more than asked for. -/
def Legal (sz n : Nat) : Prop := n ≤ sz ∧ (0 < sz → 0 < n)

/-- `read(basic_linux_getrandom<char_type>,bg,ed)` (linux_getrandom.h:40-44) for elements of `w` bytes; pointers count elements. -/
def read (w : Nat) (s : St) (bg : Nat) (ans : Option Nat) : Option (St × Nat) :=
  (getrandom s (bg * w) ans).map fun r => (r.1, bg + r.2 / w)

/-- How reading ended: everything read, an exception of the system, end of file. -/
inductive Res | done | error | eof
deriving DecidableEq, Repr

/-- `read_all_impl_decay_cold` (read_all.h:8-32): `while(first!=last)`. The answers of the system in order; without an answer the program waits. -/
def readAll (w : Nat) : St → Nat → Nat → List (Option Nat) → Option (St × Res)
  | s, first, last, as =>
    if first = last then some (s, .done)
    else
      match as with
      | [] => none
      | a :: as =>
        match read w s first a with
        | none => some (s, .error)
        | some r => if r.2 = first then some (r.1, .eof) else readAll w r.1 r.2 last as

/-- The answers are legal for the requests of `readAll`. -/
def LegalAll (w : Nat) : St → Nat → Nat → List (Option Nat) → Prop
  | s, first, last, as =>
    if first = last then True
    else
      match as with
      | [] => True
      | a :: as => (∀ n, a = some n → Legal ((last - first) * w) n) ∧
        match read w s first a with
        | none => True
        | some r => if r.2 = first then True else LegalAll w r.1 r.2 last as

/-- `basic_white_hole_engine::operator()` (white_hole.h:115-120): a number of 8 bytes at address `p`, read as characters (`read_all_impl`,
read_all.h:188: `reinterpret_cast<char*>`). -/
def draw (s : St) (p : Nat) (as : List (Option Nat)) : Option (St × Res) := readAll 1 s p (p + 8) as

/-- `ioctl` on a random device that has `count` bits of entropy: other requests are refused. -/
def ioctl (count req : Nat) : Option Nat := if req = RNDGETENTCNT then some count else none

/-- `my_random_entropy` (white_hole.h:29-43): the request is `u8'R'<<8u`. -/
def myRandomEntropy (count : Nat) : Nat :=
  match ioctl count (0x52 * 2 ^ 8) with
  | none => 0
  | some ent => ent

/-- `basic_white_hole_engine::entropy` (white_hole.h:100-114). -/
def entropy (count : Nat) : Nat :=
  let v := myRandomEntropy count
  if v > 64 then 64 else v

end Verif.Rand
