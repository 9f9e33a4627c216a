import Verif.Conc.Spec
/-!
# Model of streams shared between threads

`include/fast_io_hosted/iomutex.h`, `include/fast_io_core_impl/{utils,print_freestanding,scan_freestanding,io_ref}.h`,
`include/fast_io_core_impl/transmit/transmit.h`, `include/fast_io_i18n/lc_print_status.h`.

A mutex (fast_io_hosted/threads/mutex/*.h) is the one of the operating system: taking it waits until no other thread has it;
a recursive one (`FILE*` locks, critical sections) may be taken again by its owner, any other one makes its owner wait for
itself (PTHREAD_MUTEX_DEFAULT as glibc implements it). The memory is sequentially consistent.
-/
namespace Verif.Conc

/-- A stream: the data number `i`, or one wrapped with a mutex (`basic_general_iomutex`, iomutex.h:13-69): `unlocked_handle`
is the wrapped one. -/
inductive Stm
  | raw (i : Nat)
  | locked (m : Nat) (s : Stm)
deriving DecidableEq, Repr

/-- The data behind all the wrappings. -/
def Stm.base : Stm → Nat
  | .raw i => i
  | .locked _ s => s.base

/-- A call as it is made: scopes of `io_lock_guard` (utils.h:43-64) around the unlocked operation. -/
inductive Call (S R : Type)
  | plain (b : Body S R)
  | guard (m : Nat) (c : Call S R)

/-- The mutexes taken, from the outside to the inside. -/
def Call.locks {S R : Type} : Call S R → List Nat
  | .plain _ => []
  | .guard m c => m :: c.locks

/-- The unlocked operation. -/
def Call.body {S R : Type} : Call S R → Body S R
  | .plain b => b
  | .guard _ c => c.body

/-- `print_freestanding_decay_no_status` (print_freestanding.h:747-761; lc_print_status.h:385-399 is the same): nothing at all
for no arguments without a line feed, otherwise the guard and the unlocked handle. `empty` is `sizeof...(Args)==0`, `u` the
(void) result and `body i` the printing to the unlocked stream `i`. -/
def printCall {S R : Type} (line empty : Bool) (u : R) (body : Nat → Body S R) : Stm → Call S R
  | .raw i => if empty && !line then .plain (.ret u) else .plain (body i)
  | .locked m s => if empty && !line then .plain (.ret u) else .guard m (printCall line empty u body s)

/-- `scan_freestanding_decay` (scan_freestanding.h:449-473), and `read`, `write`, `flush` and `reopen` of a wrapped stream
(iomutex.h:64-91): the guard, then the same on the wrapped handle. -/
def opCall {S R : Type} (body : Nat → Body S R) : Stm → Call S R
  | .raw i => .plain (body i)
  | .locked m s => .guard m (opCall body s)

/-- `transmit_decay` and `transmit64_decay` (transmit.h:93-107, 213-227): the input's guard outside, the output's inside. -/
def transmitCall {S R : Type} (body : Nat → Nat → Body S R) (out : Stm) : Stm → Call S R
  | .locked m s => .guard m (transmitCall body out s)
  | .raw i => opCall (fun o => body o i) out

/-- A thread's program: calls, each continued according to what it returned. -/
inductive Prog (S R : Type)
  | stop
  | call (c : Call S R) (k : R → Prog S R)

/-- A program making the given calls one after another, whatever they return. -/
def Prog.seq {S R : Type} : List (Call S R) → Prog S R
  | [] => .stop
  | c :: l => .call c fun _ => Prog.seq l

/-- Where a thread is: between calls; constructing the guards of the call `c0`, with `c` still to come; inside the unlocked
operation; or destroying the guards, on the way back with a result (an exception is a result, too: the destructors run all
the same). -/
inductive Code (S R : Type)
  | idle (p : Prog S R)
  | enter (c0 c : Call S R) (k : R → Prog S R)
  | run (c0 : Call S R) (b : Body S R) (k : R → Prog S R)
  | leave (r : R) (k : R → Prog S R)

/-- A thread: the guards it has constructed (the latest first) and where it is. -/
structure Thread (S R : Type) where
  held : List Nat
  code : Code S R

/-- All of it: the streams, the threads, and — for the specification only — the calls whose operation is finished, with the
thread, what was called and what it returned. -/
structure Sys (n : Nat) (S R : Type) where
  st : Nat → S
  th : Fin n → Thread S R
  log : List (Fin n × Call S R × R)

/-- The threads with `t` changed. -/
def put {n : Nat} {α : Type} (f : Fin n → α) (t : Fin n) (x : α) : Fin n → α := fun u => if u = t then x else f u

/-- Thread `t` can take the mutex `m`: nobody else has it, and neither has `t` itself unless `m` is recursive. -/
def free {n : Nat} {S R : Type} (recur : Nat → Bool) (th : Fin n → Thread S R) (t : Fin n) (m : Nat) : Bool :=
  (List.finRange n).all fun u => !(th u).held.contains m || (u = t && recur m)

/-- One step of thread `t`; `none` if it has finished or waits for a mutex.  `lock` is the constructor of `io_lock_guard`
(utils.h:48-52), `unlock` its destructor (utils.h:57-60). -/
def step {n : Nat} {S R : Type} (recur : Nat → Bool) (s : Sys n S R) (t : Fin n) : Option (Sys n S R) :=
  match s.th t with
  | ⟨_, .idle .stop⟩ => none
  | ⟨h, .idle (.call c k)⟩ => some { s with th := put s.th t ⟨h, .enter c c k⟩ }
  | ⟨h, .enter c0 (.guard m c) k⟩ =>
    if free recur s.th t m then some { s with th := put s.th t ⟨m :: h, .enter c0 c k⟩ } else none
  | ⟨h, .enter c0 (.plain b) k⟩ => some { s with th := put s.th t ⟨h, .run c0 b k⟩ }
  | ⟨h, .run c0 (.act i f b) k⟩ => some { s with st := set s.st i (f (s.st i)), th := put s.th t ⟨h, .run c0 (b (s.st i)) k⟩ }
  | ⟨h, .run c0 (.ret r) k⟩ => some { s with th := put s.th t ⟨h, .leave r k⟩, log := s.log ++ [(t, c0, r)] }
  | ⟨_ :: h, .leave r k⟩ => some { s with th := put s.th t ⟨h, .leave r k⟩ }
  | ⟨[], .leave r k⟩ => some { s with th := put s.th t ⟨[], .idle (k r)⟩ }

/-- A turn of thread `t`: if it cannot move, nothing happens. -/
def turn {n : Nat} {S R : Type} (recur : Nat → Bool) (s : Sys n S R) (t : Fin n) : Sys n S R := (step recur s t).getD s

/-- The execution with the given schedule: who has the processor, step by step. -/
def sched {n : Nat} {S R : Type} (recur : Nat → Bool) (s : Sys n S R) : List (Fin n) → Sys n S R
  | [] => s
  | t :: l => sched recur (turn recur s t) l

/-- The beginning: nothing locked, every thread before its program. -/
def start {n : Nat} {S R : Type} (st : Nat → S) (p : Fin n → Prog S R) : Sys n S R := ⟨st, fun t => ⟨[], .idle (p t)⟩, []⟩

end Verif.Conc
