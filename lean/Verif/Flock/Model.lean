import Verif.Flock.Spec
/-!
# Locks on files (model)

`include/fast_io_hosted/platforms/posix_file_lock.h` on Linux, `file_lock_guard` of `include/fast_io_core_impl/enums/flock.h`. On other systems
`fcntl_file_lock` (posix_file_lock.h:7-10) passes the address of its parameter instead of the parameter: not modelled.
-/
namespace Verif.Flock

/-- `struct flock`: `l_type`, `l_whence`, `l_start`, `l_len`. -/
structure Native where
  type : Kind
  whence : Nat
  start : Int
  len : Int
deriving DecidableEq, Repr

/-- Conversion to a signed type of `n` bits. -/
def wrap (n : Nat) (v : Int) : Int := (v + 2 ^ (n - 1)) % 2 ^ n - 2 ^ (n - 1)

/-- `flock_type_to_native` (posix_file_lock.h:27-44); the numbers stand for themselves. -/
def typeOf : Kind → Kind
  | .shared => .shared
  | .unlock => .unlock
  | .exclusive => .exclusive

/-- The values of `seekdir` (seek.h:6-11), cast to `short`. -/
def whenceOf : Whence → Nat
  | .beg => 0
  | .cur => 1
  | .end_ => 2

/-- What `posix_file_lock_lock_impl` (posix_file_lock.h:46-67), `posix_file_lock_try_lock_impl` (:79-101) and `posix_file_lock_unlock_impl`
(:104-125) hand to the system for a request with numbers of `intBits` bits, if `off_t` has `offBits` bits; `none`: refused. -/
def nativeOf (offBits intBits : Nat) (r : Request) : Option Native :=
  if offBits < intBits ∧ (r.start < -(2 ^ (offBits - 1)) ∨ 2 ^ (offBits - 1) - 1 < r.start ∨
      r.len < -(2 ^ (offBits - 1)) ∨ 2 ^ (offBits - 1) - 1 < r.len) then none
  else some ⟨typeOf r.kind, whenceOf r.whence, wrap offBits r.start, wrap offBits r.len⟩

/-- The bytes `[lo,hi)` of a request in Linux (`flock64_to_posix_lock`, fs/locks.c of the kernel): `none`: `EINVAL` or `EOVERFLOW`. -/
def range (w : Place) (f : Native) : Option (Nat × Nat) :=
  let base : Option Nat := if f.whence = 0 then some 0 else if f.whence = 1 then some w.pos else if f.whence = 2 then some w.size else none
  base.bind fun base =>
    let s : Int := base + f.start
    if (offMax : Int) < s ∨ s < 0 then none
    else if 0 < f.len then
      if (offMax : Int) < s + f.len - 1 then none else some (s.toNat, (s + f.len).toNat)
    else if f.len < 0 then
      if s + f.len < 0 then none else some ((s + f.len).toNat, s.toNat)
    else some (s.toNat, offMax + 1)

/-- Process `p` asks for a lock of kind `k` on `[lo,hi)`, and somebody else has one that excludes it. -/
def Conflict (t : Table) (p : Nat) (k : Kind) (lo hi : Nat) : Prop :=
  ∃ q b, q ≠ p ∧ lo ≤ b ∧ b < hi ∧ (k = .exclusive ∧ t q b ≠ none ∨ k = .shared ∧ t q b = some .exclusive)

/-- Process `p` holds `k` on `[lo,hi)` from now on. -/
def put (t : Table) (p : Nat) (k : Kind) (lo hi : Nat) : Table := fun q b =>
  if q = p ∧ lo ≤ b ∧ b < hi then (if k = .unlock then none else some k) else t q b

/-- The possible ends of the system call `fcntl(fd,F_SETLKW,f)` of process `p`, with the locks at that time and afterwards; `true`: success. It
waits as long as there is a conflict; it may fail at any time (a signal, a deadlock, no more locks). -/
inductive Setlkw (p : Nat) (w : Place) (f : Native) (t : Table) : Bool → Table → Prop
  | done (lo hi) : range w f = some (lo, hi) → ¬ Conflict t p f.type lo hi → Setlkw p w f t true (put t p f.type lo hi)
  | fail : Setlkw p w f t false t

/-- `posix_file_lock::lock` (posix_file_lock.h:129-133, 12-25): `false`: it throws. -/
inductive Lock (offBits intBits : Nat) (p : Nat) (w : Place) (r : Request) (t : Table) : Bool → Table → Prop
  | refused : nativeOf offBits intBits r = none → Lock offBits intBits p w r t false t
  | call (f d t') : nativeOf offBits intBits r = some f → Setlkw p w f t d t' → Lock offBits intBits p w r t d t'

/-- `posix_file_lock::try_lock` (posix_file_lock.h:139-143). -/
abbrev TryLock := Lock

/-- `posix_file_lock::unlock` (posix_file_lock.h:134-138, 103-125): hands the request to the system as it is and ignores the answer. -/
inductive Unlock (offBits intBits : Nat) (p : Nat) (w : Place) (r : Request) (t : Table) : Table → Prop
  | refused : nativeOf offBits intBits r = none → Unlock offBits intBits p w r t t
  | call (f d t') : nativeOf offBits intBits r = some f → Setlkw p w f t d t' → Unlock offBits intBits p w r t t'

/-- Processes that lock one range at a time. `inside p`: the request process `p` has made with success, and where; it has not left yet. -/
structure Sys where
  table : Table
  inside : Nat → Option (Request × Place)

/-- What processes do: enter (constructor of `file_lock_guard`, flock.h:48-51), fail to enter, leave by an `unlock` with any request
(destructor, flock.h:54-57: the same one). -/
inductive Step (offBits intBits : Nat) : Sys → Sys → Prop
  | enter (s : Sys) (p r w t') : s.inside p = none → r.kind ≠ .unlock → Lock offBits intBits p w r s.table true t' →
      Step offBits intBits s ⟨t', fun q => if q = p then some (r, w) else s.inside q⟩
  | throws (s : Sys) (p r w t') : s.inside p = none → Lock offBits intBits p w r s.table false t' → Step offBits intBits s ⟨t', s.inside⟩
  | leave (s : Sys) (p r w t') : s.inside p ≠ none → Unlock offBits intBits p w r s.table t' →
      Step offBits intBits s ⟨t', fun q => if q = p then none else s.inside q⟩

/-- What can happen. -/
inductive Reach (offBits intBits : Nat) : Sys → Prop
  | start : Reach offBits intBits ⟨fun _ _ => none, fun _ => none⟩
  | step (s s') : Reach offBits intBits s → Step offBits intBits s s' → Reach offBits intBits s'

end Verif.Flock
