import Verif.Own.Spec
/-!
# Model of the file classes

`basic_posix_file` (platforms/posix.h), `basic_win32_family_file` (win32.h), `basic_nt_family_file` (nt.h), `posix_directory_file`
(filesystem/posix.h), `basic_c_family_file` (fast_io_legacy_impl/c/impl.h), the file loaders (file_loaders/*.h), `posix_dll_file`
(fast_io_hosted/dll/posix.h), `basic_win32_family_crypt_gen_random_file` (white_hole/win32_crypt_gen_random.h): constructors, assignments,
`reset`, `close`, `release`, destructors, as sequences of calls to the operating system. (Opening a library twice gives the same handle with a
count; the model gives two handles. The last class has no construction from a handle; the model has it for all.) Closing a handle that is not open, which in a
larger program closes a file of somebody else, is `none`.
-/
namespace Verif.Own

/-- The classes. -/
inductive Kind | posix | win32 | nt | dir | cfile | loader | dll | crypt
deriving DecidableEq, Repr

/-- The variables (`none`: no object; the null handle is `some none`), the open handles with their descriptions, the handles the program
owns itself. -/
structure St where
  vars : Nat → Option (Option Nat)
  fds : Nat → Option Nat
  user : Nat → Bool

/-- A call that gives out a handle for description `d`: the system refuses, or chooses a handle that is not open. -/
def alloc (s : St) (d : Nat) (ans : Option Nat) : Option (St × Nat) :=
  match ans with
  | none => none
  | some h => if s.fds h = none then some ({ s with fds := upd s.fds h (some d) }, h) else none

/-- `close(2)`, `CloseHandle`, `NtClose`, `closedir`, `fclose`, `munmap`, `free`. -/
def sysClose (s : St) (h : Nat) : Option St :=
  if s.fds h = none then none else some { s with fds := upd s.fds h none }

/-- `if(this->fd!=-1) sys_close(this->fd)`. -/
def closeOpt (s : St) : Option Nat → Option St
  | none => some s
  | some h => sysClose s h

/-- `sys_dup` (systemcall_details.h:15-33), `nt_dup_impl` (nt.h:743-751): `none`: it throws. A null handle is refused. -/
def dup (s : St) (o ans : Option Nat) : Option (St × Nat) :=
  match o with
  | none => none
  | some h =>
    match s.fds h with
    | none => none
    | some d => alloc s d ans

/-- `win32_dup_impl` (win32.h:551-558): `return handle;` after the new handle was made. -/
def dupWin32 (s : St) (o ans : Option Nat) : Option (St × Option Nat) := (dup s o ans).map fun r => (r.1, o)

/-- `sys_dup2` (systemcall_details.h:35-59): refuses a null handle on either side; otherwise the target handle is closed and refers to the
same description afterwards. -/
def dup2 (s : St) (o n : Option Nat) (ok : Bool) : Option St :=
  match o, n with
  | some h, some g =>
    match s.fds h with
    | none => none
    | some d => if ok then some { s with fds := upd s.fds g (some d) } else none
  | _, _ => none

/-- Copy construction (posix.h:1306, win32.h:1006, nt.h:1127): the handle of the new object. -/
def copyCtor (k : Kind) (s : St) (o ans : Option Nat) : Option (St × Option Nat) :=
  match k with
  | .posix => (dup s o ans).map fun r => (r.1, some r.2)
  | .nt => (dup s o ans).map fun r => (r.1, some r.2)
  | .win32 => dupWin32 s o ans
  | _ => none

/-- Copy assignment: `this` has handle `n`, the source `o`; the outer `none`: undefined, the inner: it throws in this state. Posix
(posix.h:1309-1313), win32 (win32.h:1007-1011, :560-566), nt (nt.h:1130-1134, :754-760), directories (filesystem/posix.h:51-71, :93-100). -/
def copyAssign (k : Kind) (s : St) (o n ans : Option Nat) (ans2 : Bool) : Option (St × Option (Option Nat)) :=
  match k with
  | .posix =>
    match dup2 s o n ans2 with
    | none => some (s, none)
    | some s' => some (s', some n)
  | .nt =>
    match dup s o ans with
    | none => some (s, none)
    | some r => (closeOpt r.1 n).map fun s' => (s', some (some r.2))
  | .win32 =>
    match dupWin32 s o ans with
    | none => some (s, none)
    | some r => (closeOpt r.1 n).map fun s' => (s', some r.2)
  | .dir =>
    match dup s o ans with
    | none => some (s, none)
    | some r =>
      if ans2 then (closeOpt r.1 n).map fun s' => (s', some (some r.2))
      else (sysClose r.1 r.2).map fun s' => (s', none)
  | _ => none

/-- `x` holds `v`. -/
def setVar (s : St) (x : Nat) (v : Option (Option Nat)) : St := { s with vars := upd s.vars x v }

/-- Move assignment: posix.h:1318-1325, win32.h:1015-1022, nt.h:1140-1147, filesystem/posix.h:104-110 (the source is released before the
target is set), c/impl.h:938-954 (returns at once if the objects are different), posix_file_loader.h:372-382, win32_file_loader.h:118-125. -/
def moveAssign (k : Kind) (s : St) (x y : Nat) (n : Option Nat) : Option St :=
  match k with
  | .dir => (closeOpt s n).map fun s =>
    let temp := s.vars y
    setVar (setVar s y (some none)) x temp
  | .cfile =>
    if x ≠ y then some s
    else (closeOpt s n).map fun s => setVar (setVar s x (s.vars y)) y (some none)
  | _ => (closeOpt s n).map fun s => setVar (setVar s x (s.vars y)) y (some none)

/-- One operation; the flag says that it throws. Operations on variables that do not exist (or, for constructors, that do), on handles the
program does not own, and those the class does not have change nothing. `reset`: posix.h:1326-1331, win32.h:1023-1028, nt.h:1085-1090,
filesystem/posix.h:111-116; `close`: posix.h:1332-1336, win32.h:1029-1038, nt.h:1075-1084, filesystem/posix.h:117-126, c/impl.h:955-971,
posix_file_loader.h:500-507; `release`: posix.h:399-404, win32.h:506, nt.h:566, filesystem/posix.h:40-45, c/impl.h:635-640,
posix_file_loader.h:511-519; `posix_dll_file`: dll/posix.h:44-64, :117-160; win32_crypt_gen_random.h:17-22, :90-126, whose `close` leaves
the handle in the object and whose destructor releases the handle only if there is none (`if(!this->hprov)`). -/
def step (k : Kind) (s : St) : Op → Option (St × Bool)
  | .init x => if s.vars x = none then some (setVar s x (some none), false) else some (s, false)
  | .open x d ans =>
    if s.vars x = none then
      match alloc s d ans with
      | none => some (s, true)
      | some r => some (setVar r.1 x (some (some r.2)), false)
    else some (s, false)
  | .adopt x h =>
    if s.vars x = none ∧ s.user h = true then some (setVar { s with user := upd s.user h false } x (some (some h)), false)
    else some (s, false)
  | .copy x y ans =>
    match s.vars x, s.vars y with
    | none, some o =>
      if k = .posix ∨ k = .win32 ∨ k = .nt then
        match copyCtor k s o ans with
        | none => some (s, true)
        | some r => some (setVar r.1 x (some r.2), false)
      else some (s, false)
    | _, _ => some (s, false)
  | .move x y =>
    match s.vars x, s.vars y with
    | none, some o => some (setVar (setVar s x (some o)) y (some none), false)
    | _, _ => some (s, false)
  | .assignCopy x y ans ans2 =>
    match s.vars x, s.vars y with
    | some n, some o =>
      if k = .cfile ∨ k = .loader ∨ k = .dll ∨ k = .crypt then some (s, false)
      else (copyAssign k s o n ans ans2).map fun r =>
        match r.2 with
        | none => (r.1, true)
        | some v => (setVar r.1 x (some v), false)
    | _, _ => some (s, false)
  | .assignMove x y =>
    match s.vars x, s.vars y with
    | some n, some _ => (moveAssign k s x y n).map fun s => (s, false)
    | _, _ => some (s, false)
  | .reset x =>
    match s.vars x with
    | some n => if k = .cfile ∨ k = .loader ∨ k = .dll ∨ k = .crypt then some (s, false) else (closeOpt s n).map fun s => (setVar s x (some none), false)
    | none => some (s, false)
  | .close x err =>
    match s.vars x with
    | some n => (closeOpt s n).map fun s =>
      (if k = .crypt then s else setVar s x (some none), err && n.isSome && decide (k ≠ .loader))
    | none => some (s, false)
  | .release x =>
    match s.vars x with
    | some (some h) => some (setVar { s with user := upd s.user h true } x (some none), false)
    | _ => some (s, false)
  | .destroy x =>
    match s.vars x with
    | some n => if k = .crypt then some (setVar s x none, false) else (closeOpt s n).map fun s => (setVar s x none, false)
    | none => some (s, false)

/-- A program; it catches every exception and goes on. -/
def run (k : Kind) : St → List Op → Option St
  | s, [] => some s
  | s, op :: ops => (step k s op).bind fun r => run k r.1 ops

/-- Nothing exists, nothing is open. -/
def start : St := ⟨fun _ => none, fun _ => none, fun _ => false⟩

end Verif.Own
