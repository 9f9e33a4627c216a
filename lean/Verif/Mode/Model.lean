import Verif.Mode.Spec
/-!
# Model of the translations of `open_mode`

`open_mode` is its 64-bit value, a `Nat`; `mode & flag` is the bitwise and.
-/
namespace Verif.Mode

/-! `open_mode` (mode.h:203-272) -/
/-- mode.h:208 -/ def app : Nat := 1 <<< 0
/-- mode.h:216 -/ def creat : Nat := 1 <<< 4
/-- mode.h:218 -/ def direct : Nat := 1 <<< 5
/-- mode.h:220 -/ def directory : Nat := 1 <<< 6
/-- mode.h:224 -/ def excl : Nat := 1 <<< 8
/-- mode.h:227 -/ def follow : Nat := 1 <<< 9
/-- mode.h:231 -/ def in_ : Nat := 1 <<< 11
/-- mode.h:233 -/ def inherit : Nat := 1 <<< 12
/-- mode.h:235 -/ def no_atime : Nat := 1 <<< 13
/-- mode.h:237 -/ def no_block : Nat := 1 <<< 14
/-- mode.h:239 -/ def no_ctty : Nat := 1 <<< 15
/-- mode.h:251 -/ def out : Nat := 1 <<< 21
/-- mode.h:253 -/ def path : Nat := 1 <<< 22
/-- mode.h:263 -/ def sync : Nat := 1 <<< 27
/-- mode.h:267 -/ def temporary : Nat := 1 <<< 29
/-- mode.h:269 -/ def text : Nat := 1 <<< 30
/-- mode.h:271 -/ def trunc : Nat := 1 <<< 31

/-- `(value&flag)!=open_mode::none`, for a flag of one bit. -/
def has (value flag : Nat) : Bool := value &&& flag != 0

/-- `c_supported` (mode.h:309-319). -/
def cSupported (m : Nat) : Nat := m &&& (text ||| excl ||| out ||| app ||| in_ ||| trunc)

/-- `to_c_mode` (mode.h:321-403), the switch in its order of cases. -/
def toCMode (m : Nat) : String :=
  let v := cSupported m
  if v = in_ ||| text then "r"
  else if v = out ||| text ∨ v = out ||| trunc ||| text then "w"
  else if v = app ||| text ∨ v = out ||| app ||| text then "a"
  else if v = out ||| in_ ||| text then "r+"
  else if v = out ||| in_ ||| trunc ||| text then "w+"
  else if v = out ||| in_ ||| app ||| text ∨ v = in_ ||| app ||| text then "a+"
  else if v = out ||| excl ||| text ∨ v = out ||| trunc ||| excl ||| text then "wx"
  else if v = app ||| excl ||| text ∨ v = out ||| app ||| excl ||| text then "ax"
  else if v = out ||| in_ ||| trunc ||| excl ||| text then "w+x"
  else if v = out ||| in_ ||| app ||| excl ||| text ∨ v = in_ ||| app ||| excl ||| text then "a+x"
  else if v = in_ then "rb"
  else if v = out ∨ v = out ||| trunc then "wb"
  else if v = app ∨ v = out ||| app then "ab"
  else if v = out ||| in_ then "r+b"
  else if v = out ||| in_ ||| trunc then "w+b"
  else if v = out ||| in_ ||| app ∨ v = in_ ||| app then "a+b"
  else if v = out ||| excl ∨ v = out ||| trunc ||| excl then "wxb"
  else if v = app ||| excl ∨ v = out ||| app ||| excl then "axb"
  else if v = out ||| in_ ||| trunc ||| excl then "w+xb"
  else if v = out ||| in_ ||| app ||| excl ∨ v = in_ ||| app ||| excl then "a+xb"
  else if v = 0 then (if has m directory then "r" else "")
  else ""

/-- `if((value&flag)!=none) mode |= bits` -/
def orIf (value flag mode bits : Nat) : Nat := if has value flag then mode ||| bits else mode

/-- The flags set before the switch in `calculate_posix_open_mode` (posix.h:149-229), preprocessed for Linux: `O_NOFOLLOW`, `O_CLOEXEC`,
`O_DIRECT`, `O_SYNC`, `O_NOCTTY`, `O_PATH`, `O_NOATIME`, `O_NONBLOCK`, `O_TMPFILE`, `O_DIRECTORY` are defined, `O_BINARY`, `O_TTY_INIT`,
`_O_SEQUENTIAL` are not, `O_LARGEFILE` is 0. -/
def posixFlags (value : Nat) : Nat :=
  let mode := O_NOFOLLOW
  let mode := if has value follow then 0 else mode
  let mode := if has value inherit then mode else mode ||| O_CLOEXEC
  let mode := orIf value creat mode O_CREAT
  let mode := orIf value excl mode O_EXCL
  let mode := orIf value trunc mode O_TRUNC
  let mode := orIf value direct mode O_DIRECT
  let mode := orIf value sync mode O_SYNC
  let mode := orIf value no_ctty mode O_NOCTTY
  let mode := orIf value path mode O_PATH
  let mode := orIf value no_atime mode O_NOATIME
  let mode := orIf value no_block mode O_NONBLOCK
  let mode := orIf value temporary mode O_TMPFILE
  orIf value directory mode O_DIRECTORY

/-- `calculate_posix_open_mode` (posix.h:149-277): the switch at posix.h:233-276. `O_RDONLY` is 0. -/
def posixMode (value : Nat) : Nat :=
  let mode := posixFlags value
  let v := value &&& (out ||| app ||| in_)
  if v = in_ then mode
  else if v = out then mode ||| O_WRONLY ||| O_CREAT ||| O_TRUNC
  else if v = app ∨ v = out ||| app then mode ||| O_WRONLY ||| O_CREAT ||| O_APPEND
  else if v = out ||| in_ then mode ||| O_RDWR
  else if v = out ||| in_ ||| app ∨ v = in_ ||| app then mode ||| O_RDWR ||| O_CREAT ||| O_APPEND
  else mode

/-- `calculate_fstream_file_open_mode` (filebuf_file.h:9-30); `nr` says whether the library has `std::ios::noreplace`
(`__cpp_lib_ios_noreplace`). -/
def iosMode (nr : Bool) (om : Nat) : Ios :=
  let r : Ios := {}
  let r := if has om app then { r with app := true } else r
  let r := if has om text then r else { r with binary := true }
  let r := if has om in_ then { r with in_ := true } else r
  let r := if has om out then { r with out := true } else r
  let r := if has om trunc then { r with trunc := true } else r
  let r := if nr && (om &&& excl != excl) then { r with noreplace := true } else r
  if has om directory && r == ({} : Ios) then { r with in_ := true } else r

/-- `dwDesiredAccess` of `calculate_win32_open_mode` (win32.h:234-243), directories aside. -/
def win32Access (value : Nat) : Nat :=
  let acc := 0
  let acc := if has value app then acc ||| 4 else if has value out then acc ||| 0x40000000 else acc
  if has value in_ || has value app then
    let acc := acc ||| 0x80000000
    if has value out && (has value app && has value trunc) then acc ||| 0x40000000 else acc
  else acc

/-- `dwCreationDisposition` of `calculate_win32_open_mode` (win32.h:302-331). -/
def win32Creation (value : Nat) : Nat :=
  let d :=
    if has value trunc then (if has value excl then 1 else 2)
    else if !has value in_ then
      (if has value app then 4
       else if has value out then (if has value excl then 1 else 2)
       else 0)
    else if has value app then 4
    else 3
  if has value creat then (if has value excl then 1 else 4) else d

/-- `DesiredAccess` of `calculate_nt_open_mode` (nt.h:78-94), directories and `temporary` aside. -/
def ntAccess (value : Nat) : Nat :=
  let acc := 0
  let acc := if has value app then acc ||| 4 else if has value out then acc ||| 0x120116 else acc
  if has value in_ || has value app then
    let acc := acc ||| 0x120089
    if has value out && (has value app && has value trunc) then acc ||| 0x120116 else acc
  else acc

/-- `CreateDisposition` of `calculate_nt_open_mode` (nt.h:136-166). -/
def ntCreation (value : Nat) : Nat :=
  let d :=
    if has value trunc then (if has value excl then 2 else 5)
    else if !has value in_ then
      (if has value app then 3
       else if has value out then (if has value excl then 2 else 5)
       else 0)
    else if has value app then 3
    else 1
  if has value creat then (if has value excl then 2 else 3) else d

end Verif.Mode
