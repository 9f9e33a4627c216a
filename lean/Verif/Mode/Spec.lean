/-!
# What an open mode means (specification)

The table of the C++ standard ([filebuf.members], quoted in `mode.h` and `posix.h`) for `in`, `out`, `app`, `trunc`, extended by `excl`
("x": it is an error if the file exists; only for modes that create) and by `creat` (create a missing file).  Then the meaning of the three
languages a mode is translated to: the flags of POSIX `open`, the mode string of C `fopen`, the arguments of Windows `CreateFile`/`NtCreateFile`.
Nothing here mentions the implementation.
-/
namespace Verif.Mode

/-- What an opened file allows. -/
structure Opened where
  read : Bool
  write : Bool
  append : Bool
  content : List Nat
deriving DecidableEq, Repr

/-- The result of an attempt: `undef` is behaviour the documentation of the system leaves undefined. -/
inductive Outcome
  | undef
  | fail
  | ok (o : Opened)
deriving DecidableEq, Repr

/-- The user's choice: the six flags that say what happens to the file. -/
structure Req where
  i : Bool
  o : Bool
  a : Bool
  t : Bool
  x : Bool
  c : Bool
deriving DecidableEq, Repr

/-- One line of the table. -/
structure Row where
  read : Bool
  write : Bool
  append : Bool
  /-- the contents of an existing file are destroyed -/
  destroy : Bool
  /-- a missing file is created -/
  create : Bool
deriving DecidableEq, Repr

/-- The table: `in`, `out`, `app`, `trunc`. Combinations not listed are invalid. -/
def table : Req → Option Row
  -- "r"
  | ⟨true, false, false, false, _, _⟩ => some ⟨true, false, false, false, false⟩
  -- "w"
  | ⟨false, true, false, _, _, _⟩ => some ⟨false, true, false, true, true⟩
  -- "a"
  | ⟨false, _, true, false, _, _⟩ => some ⟨false, true, true, false, true⟩
  -- "r+"
  | ⟨true, true, false, false, _, _⟩ => some ⟨true, true, false, false, false⟩
  -- "w+"
  | ⟨true, true, false, true, _, _⟩ => some ⟨true, true, false, true, true⟩
  -- "a+"
  | ⟨true, _, true, false, _, _⟩ => some ⟨true, true, true, false, true⟩
  | _ => none

/-- The table with `creat` and `excl`: `excl` needs a mode that creates. -/
def row (q : Req) : Option Row :=
  match table q with
  | none => none
  | some r =>
    let r' := { r with create := r.create || q.c }
    if q.x && !r'.create then none else some r'

/-- What opening a file (`none`: there is no such file) has to do. -/
def Row.run (r : Row) (excl : Bool) : Option (List Nat) → Outcome
  | none => if r.create then .ok ⟨r.read, r.write, r.append, []⟩ else .fail
  | some bytes => if excl then .fail else .ok ⟨r.read, r.write, r.append, if r.destroy then [] else bytes⟩

/-- The meaning of a request; invalid combinations fail. -/
def meaning (q : Req) (f : Option (List Nat)) : Outcome :=
  match row q with
  | none => .fail
  | some r => r.run q.x f

/-! ## POSIX `open` (Linux x86-64 values) -/

def O_WRONLY : Nat := 0x1
def O_RDWR : Nat := 0x2
def O_CREAT : Nat := 0x40
def O_EXCL : Nat := 0x80
def O_NOCTTY : Nat := 0x100
def O_TRUNC : Nat := 0x200
def O_APPEND : Nat := 0x400
def O_NONBLOCK : Nat := 0x800
def O_DIRECT : Nat := 0x4000
def O_DIRECTORY : Nat := 0x10000
def O_NOFOLLOW : Nat := 0x20000
def O_NOATIME : Nat := 0x40000
def O_CLOEXEC : Nat := 0x80000
def O_SYNC : Nat := 0x101000
def O_PATH : Nat := 0x200000
def O_TMPFILE : Nat := 0x410000

/-- POSIX `open` on a regular file (IEEE Std 1003.1, `open`): `O_EXCL` without `O_CREAT`, and `O_TRUNC` without write access, are undefined. -/
def posixOpen (fl : Nat) (f : Option (List Nat)) : Outcome :=
  let acc := fl % 4
  let creat := fl.testBit 6
  let excl := fl.testBit 7
  let trunc := fl.testBit 9
  let app := fl.testBit 10
  if acc = 3 then .undef
  else if excl && !creat then .undef
  else if trunc && acc = 0 then .undef
  else
    let rd := acc = 0 || acc = 2
    let wr := acc = 1 || acc = 2
    match f with
    | none => if creat then .ok ⟨rd, wr, app, []⟩ else .fail
    | some bytes => if excl then .fail else .ok ⟨rd, wr, app, if trunc then [] else bytes⟩

/-! ## C `fopen` -/

/-- The letters after the first: `+`, `x`, `b`, each at most once, in any order (POSIX `fopen`). -/
def suffix : List Char → Option (Bool × Bool × Bool)
  | [] => some (false, false, false)
  | '+' :: r => match suffix r with | some (false, x, b) => some (true, x, b) | _ => none
  | 'x' :: r => match suffix r with | some (p, false, b) => some (p, true, b) | _ => none
  | 'b' :: r => match suffix r with | some (p, x, false) => some (p, x, true) | _ => none
  | _ => none

/-- `fopen` with the given mode string; other strings fail (`EINVAL`). `x` needs a mode that creates. -/
def fopen (m : String) (f : Option (List Nat)) : Outcome :=
  match m.toList with
  | [] => .fail
  | c :: r =>
    match suffix r with
    | none => .fail
    | some (plus, x, _) =>
      if c = 'r' then (if x then .undef else Row.run ⟨true, plus, false, false, false⟩ false f)
      else if c = 'w' then Row.run ⟨plus, true, false, true, true⟩ x f
      else if c = 'a' then Row.run ⟨plus, true, true, false, true⟩ x f
      else .fail

/-- Whether the mode string asks for a binary stream. -/
def fbinary (m : String) : Bool := m.toList.contains 'b'

/-! ## `std::basic_filebuf::open` -/

/-- `std::ios_base::openmode` as its members. -/
structure Ios where
  app : Bool := false
  binary : Bool := false
  in_ : Bool := false
  out : Bool := false
  trunc : Bool := false
  noreplace : Bool := false
deriving DecidableEq, Repr

/-- [filebuf.members]: the same table. -/
def Ios.open (m : Ios) (f : Option (List Nat)) : Outcome := meaning ⟨m.in_, m.out, m.app, m.trunc, m.noreplace, false⟩ f

/-! ## Windows -/

/-- What the creation disposition does; `overwrite` includes "create if missing". -/
inductive Disp
  | openExisting | createNew | openAlways | overwrite
deriving DecidableEq, Repr

/-- Opening with access rights and disposition. -/
def winOpen (rd wr app : Bool) (d : Disp) : Option (List Nat) → Outcome
  | none => if d = .openExisting then .fail else .ok ⟨rd, wr, app, []⟩
  | some bytes =>
    match d with
    | .createNew => .fail
    | .overwrite => .ok ⟨rd, wr, app, []⟩
    | _ => .ok ⟨rd, wr, app, bytes⟩

/-- `CreateFile`'s `dwCreationDisposition`. -/
def win32Disp : Nat → Option Disp
  | 1 => some .createNew
  | 2 => some .overwrite
  | 3 => some .openExisting
  | 4 => some .openAlways
  | _ => none

/-- `CreateFile`: `GENERIC_READ` (bit 31), `GENERIC_WRITE` (bit 30), `FILE_APPEND_DATA` (bit 2). -/
def createFile (access disp : Nat) (f : Option (List Nat)) : Outcome :=
  match win32Disp disp with
  | none => .fail
  | some d =>
    let gw := access.testBit 30
    let ap := access.testBit 2
    winOpen (access.testBit 31) (gw || ap) (ap && !gw) d f

/-- `NtCreateFile`'s `CreateDisposition` (`FILE_SUPERSEDE`, 0, replaces the file). -/
def ntDisp : Nat → Option Disp
  | 0 => some .overwrite
  | 1 => some .openExisting
  | 2 => some .createNew
  | 3 => some .openAlways
  | 5 => some .overwrite
  | _ => none

/-- `NtCreateFile`: `FILE_READ_DATA` (bit 0), `FILE_WRITE_DATA` (bit 1), `FILE_APPEND_DATA` (bit 2). -/
def ntCreateFile (access disp : Nat) (f : Option (List Nat)) : Outcome :=
  match ntDisp disp with
  | none => .fail
  | some d =>
    let w := access.testBit 1
    let ap := access.testBit 2
    winOpen (access.testBit 0) (w || ap) (ap && !w) d f

end Verif.Mode
