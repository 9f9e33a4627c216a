import Verif.AtOps.Spec
import Verif.Utf.Model
/-!
# Operations on files by name (model)

`include/fast_io_hosted/filesystem/posix_at.h` (the functions of Linux), `include/fast_io_hosted/api_encoding_converter/posix.h` and
`std_filesystem_pseudo.h` (names in all forms) and `include/fast_io_hosted/platforms/linux/system_call.h` (errors).

Not modelled: `posix_linkat`, `posix_symlinkat` and `posix_fstatat` and their `native_` twins, which do not compile when they are used
(`posix_deal_with22` takes four arguments and gets five, posix_at.h:330-341 and 600-605; `posix_deal_with12` calls the dispatcher of
another family, posix_at.h:353; the dispatcher of `posix_fstatat` returns nothing, posix_at.h:316-317). An allocation that fails terminates.
-/
namespace Verif.AtOps
open Verif Verif.Utf

/-- The configuration: whether `__NR_faccessat2` is known (posix_at.h:102), whether the converter uses SSE (`Verif.Utf.Cfg`), and
what freshly allocated memory contains. -/
structure Conf where
  access2 : Bool
  sse : Bool
  fresh : Mem

/-- `std::numeric_limits<std::size_t>::max()`. -/
def sizeMax : Nat := 2 ^ 64 - 1

/-- `basic_posix_api_encoding_converter` from characters of two or four bytes (posix.h:18-26): space for the converted characters and one more,
the conversion, a NUL behind it; `c_str` is the beginning of the space. `none`: the size overflows and the program terminates. -/
def convert (c : Conf) (e : Enc) (l : List Nat) : Option (List Nat) :=
  match decoReserve e .u8 l.length with
  | none => none
  | some cap =>
    if cap + 1 > sizeMax then none
    else match cvtFull e ⟨.u8, false, c.sse⟩ l (c.fresh, 0) with
      | none => none
      | some o => some (load (store o.1 o.2 [0]) 0 (cap + 1))

/-- `api_common_copy_append0_strvw_case_impl` (std_filesystem_pseudo.h:21-34): a copy with a NUL behind it. -/
def copyAppend0 (c : Conf) (l : List Nat) : Option (List Nat) :=
  if l.length + 1 > sizeMax then none
  else some (load (store (store c.fresh 0 l) l.length [0]) 0 (l.length + 1))

/-- `cstr_len` (cstr_len.h:9-18): the characters before the first NUL. -/
def cstrLen (l : List Nat) : Nat := (l.takeWhile (· ≠ 0)).length

/-- `posix_api_common` (posix.h:84-165) without size overload, as used by posix_at.h: what is readable from the pointer given to the
callback. Arrays of narrow characters are passed as they are, of wide ones all but the last element are converted
(`cal_array_size`, utils.h:912-916); pointers, string objects and `std::filesystem::path` through `c_str`; views are copied. -/
def posixApiCommon (c : Conf) : PathArg → Option (List Nat)
  | .array e l => if e.bytes = 1 then some l else convert c e (l.take (l.length - 1))
  | .pointer e l => if e.bytes = 1 then some l else convert c e (l.take (cstrLen l))
  | .str e l => if e.bytes = 1 then some (l ++ [0]) else convert c e l
  | .view e l => if e.bytes = 1 then copyAppend0 c l else convert c e l

/-- The values of `posix_at_flags` (posix_at.h:442-478), with the macros of Linux. -/
def flagValue : AtFlag → Nat
  | .eaccess => 0x200
  | .symlinkNofollow => 0x100
  | .noAutomount => 0x800
  | .removedir => 0x200
  | .emptyPath => 0x1000

/-- `operator|` on `posix_at_flags` (posix_at.h:488-492), applied from left to right beginning with no flag. -/
def flagWord (fl : List AtFlag) : Nat := fl.foldl (fun w f => w ||| flagValue f) 0

/-- A system call: the name is decoded, the request carried out, and the value returned is what the kernel says (amd64.h). The kernel's
reading outside the readable memory gives -14. -/
def systemCall {σ : Type} (os : Os σ) (nr : Nat) (args : List Arg) (s : σ) : Int × σ :=
  match decode nr args with
  | .request r => (match (os r s).1 with | none => 0 | some e => -(e : Int), (os r s).2)
  | .error n => (-(n : Int), s)
  | .wild => (-14, s)

/-- `system_call_throw_error` (system_call.h:35-48): `v + 4096` as an unsigned 32-bit number is below 4096. -/
def throwIfError (v : Int) : Outcome :=
  if ((v + 4096) % 2 ^ 32) < 4096 then .throws (-v) else .returns

/-- A system call followed by the check of its result. -/
def checked {σ : Type} (os : Os σ) (nr : Nat) (args : List Arg) (s : σ) : Outcome × σ :=
  (throwIfError (systemCall os nr args s).1, (systemCall os nr args s).2)

/-- `posix_renameat_impl` (posix_at.h:45-55). -/
def renameatImpl {σ : Type} (os : Os σ) (d : Int) (p : List Nat) (d' : Int) (p' : List Nat) (s : σ) : Outcome × σ :=
  checked os 264 [.num d, .chars p, .num d', .chars p'] s

/-- `posix_faccessat_impl` (posix_at.h:99-110): the four arguments are passed to whichever system call there is. -/
def faccessatImpl {σ : Type} (c : Conf) (os : Os σ) (d : Int) (p : List Nat) (how flags : Nat) (s : σ) : Outcome × σ :=
  if c.access2 then checked os 439 [.num d, .chars p, .num how, .num flags] s
  else checked os 269 [.num d, .chars p, .num how, .num flags] s

/-- `posix_fchownat_impl` (posix_at.h:118-139): both checks look at `owner`. -/
def fchownatImpl {σ : Type} (os : Os σ) (d : Int) (p : List Nat) (owner group flags : Nat) (s : σ) : Outcome × σ :=
  if owner > 2 ^ 32 - 1 then (.throws eoverflow, s)
  else if owner > 2 ^ 32 - 1 then (.throws eoverflow, s)
  else checked os 260 [.num d, .chars p, .num ((owner % 2 ^ 32 : Nat) : Int), .num ((group % 2 ^ 32 : Nat) : Int), .num flags] s

/-- `posix_fchmodat_impl` (posix_at.h:148-158). -/
def fchmodatImpl {σ : Type} (os : Os σ) (d : Int) (p : List Nat) (mode flags : Nat) (s : σ) : Outcome × σ :=
  checked os 268 [.num d, .chars p, .num mode, .num flags] s

/-- `posix_mkdirat_impl` (posix_at.h:195-206). -/
def mkdiratImpl {σ : Type} (os : Os σ) (d : Int) (p : List Nat) (mode : Nat) (s : σ) : Outcome × σ :=
  checked os 258 [.num d, .chars p, .num mode] s

/-- `posix_unlinkat_impl` (posix_at.h:238-247). -/
def unlinkatImpl {σ : Type} (os : Os σ) (d : Int) (p : List Nat) (flags : Nat) (s : σ) : Outcome × σ :=
  checked os 263 [.num d, .chars p, .num flags] s

/-- `unix_timestamp_to_struct_timespec64` of a timestamp (posix_at.h:251-255): `uint_least64_subseconds_per_second` is 10^19. -/
def timespec64 (t : Stamp) : Int × Int := (t.seconds, ((t.subseconds / (10 ^ 19 / 1000000000) : Nat) : Int))

/-- `unix_timestamp_to_struct_timespec64` of an option (posix_at.h:257-276). -/
def timespecOpt : TimeOpt → Int × Int
  | .now => (0, 1073741823)
  | .omit => (0, 1073741822)
  | .at t => timespec64 t

/-- Whether a time is to be left alone. -/
def isOmit : TimeOpt → Bool
  | .omit => true
  | _ => false

/-- `posix_utimensat_impl` (posix_at.h:280-305). -/
def utimensatImpl {σ : Type} (os : Os σ) (d : Int) (p : List Nat) (cr a m : TimeOpt) (flags : Nat) (s : σ) : Outcome × σ :=
  if !isOmit cr then (.throws einval, s)
  else checked os 280 [.num d, .chars p, .times (timespecOpt a) (timespecOpt m), .num flags] s

/-- With the name as the system wants it, do `k` (`posix_deal_with1x`, posix_at.h:359-370; `posix_deal_with22`, posix_at.h:330-341). -/
def withPath {σ : Type} (c : Conf) (p : PathArg) (s : σ) (k : List Nat → σ → Outcome × σ) : Outcome × σ :=
  match posixApiCommon c p with
  | none => (.dies, s)
  | some l => k l s

/-- The public functions (posix_at.h:373-382 `posix_renameat`, 512-517 `posix_faccessat`, 526-531 `posix_fchmodat`, 540-544 `posix_fchownat`,
564-568 `posix_mkdirat`, 588-592 `posix_unlinkat`, 614-623 `posix_utimensat`; each has a `native_` twin with the same body).
`posix_renameat` of a directory entry (posix_at.h:385-393) passes the entry's descriptor and `os_c_str` of its name. -/
def run {σ : Type} (c : Conf) (os : Os σ) (call : Call) (s : σ) : Outcome × σ :=
  match call with
  | .rename d p d' p' => withPath c p s fun l s => withPath c p' s fun l' s => renameatImpl os d l d' l' s
  | .access d p how fl => withPath c p s fun l s => faccessatImpl c os d l how (flagWord fl) s
  | .chmod d p mode fl => withPath c p s fun l s => fchmodatImpl os d l mode (flagWord fl) s
  | .chown d p o g fl => withPath c p s fun l s => fchownatImpl os d l o g (flagWord fl) s
  | .mkdir d p mode => withPath c p s fun l s => mkdiratImpl os d l mode s
  | .unlink d p fl => withPath c p s fun l s => unlinkatImpl os d l (flagWord fl) s
  | .utimens d p cr a m fl => withPath c p s fun l s => utimensatImpl os d l cr a m (flagWord fl) s

/-- The default flags of `posix_faccessat`, `posix_fchmodat`, `posix_fchownat` and `posix_utimensat` (posix_at.h:514, 528, 541, 619). -/
def defaultFlags : List AtFlag := [.symlinkNofollow]

/-- The default permissions of `posix_mkdirat` (posix_at.h:565): 436 is 0664. -/
def defaultPerms : Nat := 436

end Verif.AtOps
