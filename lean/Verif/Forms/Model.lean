import Verif.Forms.Spec
import Verif.TsText.Model
import Verif.Hash.Sha2Model
/-!
# Model of printing bytes, digests, permissions, bit sets and file status

`fast_io_core_impl/integers/crypto_hash.h`, `fast_io_core_impl/perms.h`, `fast_io_core_impl/mode.h`, `fast_io_unit/bitset.h` and
`fast_io_hosted/posix_status.h`. The five branches per character type of the last two have the same texts.
-/
namespace Verif.Forms
open Verif Verif.IntPrint Verif.Time

/-- `crypto_hash_pr_df_impl` (crypto_hash.h:9-16). -/
def hexLoop (upper : Bool) : List Nat → Mem × Nat → Option (Mem × Nat)
  | [], s => some s
  | b :: bs, s => (copyPair (digitsTable 16 upper) s.1 s.2 b).bind fun m => hexLoop upper bs (m, s.2 + 2)

/-- `hex_encoding_prv_size_cal` (crypto_hash.h:47-56); `none` is `fast_terminate`. `W` is the width of `size_t`. -/
def hexSize (W n : Nat) : Option Nat := if n > (2 ^ W - 1) / 2 then none else some (n * 2 % 2 ^ W)

/-- Bytes `[i, i+n)` of an array; `none` when they are not all inside. -/
def slice (l : List Nat) (i n : Nat) : Option (List Nat) := if i + n ≤ l.length then some ((l.drop i).take n) else none

/-- The loop of `pr_rsv_uuid` (crypto_hash.h:35-42): a dash and two bytes. `next` is the index of `next_it`. -/
def uuidLoop (upper : Bool) (uuid : List Nat) : Nat → Nat → Mem × Nat → Option (Nat × Mem × Nat)
  | 0, next, s => some (next, s)
  | k + 1, next, s => do
    let s := putc 45 s
    let bs ← slice uuid next 2
    let s ← hexLoop upper bs s
    uuidLoop upper uuid k (next + 2) s

/-- `pr_rsv_uuid` (crypto_hash.h:29-45). -/
def printUuid (upper : Bool) (uuid : List Nat) (s : Mem × Nat) : Option (Mem × Nat) := do
  let bs ← slice uuid 0 4
  let s ← hexLoop upper bs s
  let r ← uuidLoop upper uuid 3 4 s
  let s := putc 45 r.2
  let bs ← slice uuid r.1 6
  hexLoop upper bs s

/-- `digest_format` (crypto_hash.h:240-245). -/
inductive Format where
  | lower | upper | raw
deriving DecidableEq

/-- `copy_to_hash_df_commom_impl` (crypto_hash.h:352-382), and for single byte characters the direct
`digest_to_byte_ptr` (crypto_hash.h:427-476), which writes the same bytes. -/
def printDigest (f : Format) (d : List Nat) (s : Mem × Nat) : Option (Mem × Nat) :=
  match f with
  | .raw => some (store s.1 s.2 d, s.2 + d.length)
  | f => hexLoop (f == .upper) d s

/-- `cal_crypto_hash_resrv_size` (crypto_hash.h:340-347). -/
def digestReserve (f : Format) (size : Nat) : Nat := if f = .raw then size else size * 2

/-- A contiguous range: the bytes of its elements, how many there are, the size of an element and of the range object itself,
and whether the elements are `std::byte`. -/
structure Rng where
  bytes : List Nat
  count : Nat
  elem : Nat
  self : Nat
  isByte : Bool

/-- The range is what it says. -/
def Rng.Ok (r : Rng) : Prop := r.bytes.length = r.count * r.elem ∧ (r.isByte → r.elem = 1) ∧ ∀ b ∈ r.bytes, b < 256

/-- The length computed by `hash_compress` (crypto_hash.h:282-294), `hash_compress_upper` (296-308) and `hash_compress_raw_bytes`
(310-322): the latter two multiply by `sizeof(T)`, `T` being the range. -/
def compressLen (f : Format) (r : Rng) : Nat :=
  if r.isByte then r.count else if f = .lower then r.count * r.elem else r.count * r.self

/-- `prv_srv_hash_compress_df_impl` (crypto_hash.h:497-572) for contexts whose `digest_to_byte_ptr` returns nothing, as all of the
library do; `dig` is the context from construction to the digest (`cal_hash_internal`, 488-495). Reading past the range is `none`. -/
def hashCompress (dig : List (List Nat) → Option (List Nat)) (f : Format) (r : Rng) (s : Mem × Nat) : Option (Mem × Nat) := do
  let data ← slice r.bytes 0 (compressLen f r)
  let d ← dig [data]
  printDigest f d s

/-- One call on `basic_crypto_hash_as_file`: `write` (crypto_hash.h:103-126) or `scatter_write` (128-132 with
`update_multiple_blocks`, 19-27); the bytes of the characters. -/
inductive Call where
  | write (bs : List Nat) | scatter (parts : List (List Nat))

/-- The `update` calls made. -/
def Call.updates : Call → List (List Nat)
  | .write bs => [bs]
  | .scatter parts => parts

/-- `print_perm_per_check` (perms.h:64-75) and the step to the next position. -/
def permPut (c mask p : Nat) (s : Mem × Nat) : Mem × Nat := putc (if p &&& mask = 0 then 45 else c) s

/-- `print_status_impl` (perms.h:86-99). -/
def printPerms (p : Nat) (s : Mem × Nat) : Mem × Nat :=
  let s := permPut 114 0o400 p s
  let s := permPut 119 0o200 p s
  let s := permPut 120 0o100 p s
  let s := permPut 114 0o40 p s
  let s := permPut 119 0o20 p s
  let s := permPut 120 0o10 p s
  let s := permPut 114 0o4 p s
  let s := permPut 119 0o2 p s
  permPut 120 0o1 p s

/-- `print_reserve_size` of `perms` (perms.h:78-82). -/
def permReserve : Nat := 9

/-- `pr_vs_iter_impl` (bitset.h:37-48): `k` positions are left to fill, from the right. -/
def bitsLoop (first : Nat) : Nat → Nat → Mem → Mem
  | 0, _, m => m
  | k + 1, p, m => bitsLoop first k (p / 2) (store m (first + k) [48 + p % 2])

/-- The word loop (bitset.h:63): `k` words are left, the next one is word `k - 1`. -/
def wordsLoop (w : Nat) (words : List Nat) : Nat → Mem × Nat → Option (Mem × Nat)
  | 0, s => some s
  | k + 1, s => words[k]?.bind fun x => wordsLoop w words k (bitsLoop s.2 w x s.1, s.2 + w)

/-- `prv_rsv_bitset_impl` (bitset.h:50-65); `w` is the number of bits of a storage word. -/
def printBitset (w : Nat) (words : List Nat) (bits : Nat) (s : Mem × Nat) : Option (Mem × Nat) := do
  let counts := bits / w
  let remain := bits % w
  let s ← if remain ≠ 0 then words[counts]?.map fun x => (bitsLoop s.2 remain x s.1, s.2 + remain) else some s
  wordsLoop w words counts s

/-- `print_file_status_impl` for `file_type` (mode.h:26-56); the argument is the value of the enumeration. -/
def fileTypeText (c : Int) : List Nat :=
  if c = 0 then ascii "none" else if c = -1 then ascii "not_found" else if c = 1 then ascii "regular"
  else if c = 2 then ascii "directory" else if c = 3 then ascii "symlink" else if c = 4 then ascii "block"
  else if c = 5 then ascii "character" else if c = 6 then ascii "fifo" else if c = 7 then ascii "socket"
  else if c = 9 then ascii "remote" else ascii "unknown"

/-- `copy_string_literal` (utils.h:441-447). -/
def lit (l : List Nat) (s : Mem × Nat) : Mem × Nat := (store s.1 s.2 l, s.2 + l.length)

/-- `print_reserve_size` of `file_type` (mode.h:17-21). -/
def fileTypeReserve : Nat := 20

/-- `posix_file_status` (posix_status.h:10-33); `type` is the value of the enumeration. -/
structure Status where
  dev : Nat
  ino : Nat
  perm : Nat
  type : FileType
  nlink : Nat
  uid : Nat
  gid : Nat
  rdev : Nat
  size : Nat
  blksize : Nat
  blocks : Nat
  atim : TS
  mtim : TS
  ctim : TS
  btim : TS
  flags : Nat
  gen : Nat

/-- A number of type `uintmax_t`. -/
def putNum (n : Nat) (s : Mem × Nat) : Option (Mem × Nat) := printInt 64 false {} s.1 s.2 (n : Int)

/-- A timestamp. -/
def putTime (t : TS) (s : Mem × Nat) : Option (Mem × Nat) := TsText.printTs t s.1 s.2

/-- `print_file_status_impl` (posix_status.h:52-97). -/
def printStatus (st : Status) (s : Mem × Nat) : Option (Mem × Nat) := do
  let s ← putNum st.dev (lit (ascii "dev:") s)
  let s ← putNum st.ino (lit (ascii "\nino:") s)
  let s := printPerms st.perm (lit (ascii "\nperm:") s)
  let s := lit (fileTypeText st.type.code) (lit (ascii "\ntype:") s)
  let s ← putNum st.nlink (lit (ascii "\nnlink:") s)
  let s ← putNum st.uid (lit (ascii "\nuid:") s)
  let s ← putNum st.gid (lit (ascii "\ngid:") s)
  let s ← putNum st.rdev (lit (ascii "\nrdev:") s)
  let s ← putNum st.size (lit (ascii "\nsize:") s)
  let s ← putNum st.blksize (lit (ascii "\nblksize:") s)
  let s ← putNum st.blocks (lit (ascii "\nblocks:") s)
  let s ← putTime st.atim (lit (ascii "\natim:") s)
  let s ← putTime st.mtim (lit (ascii "\nmtim:") s)
  let s ← putTime st.ctim (lit (ascii "\nctim:") s)
  let s ← putTime st.btim (lit (ascii "\nbtim:") s)
  let s ← putNum st.flags (lit (ascii "\nflags:") s)
  putNum st.gen (lit (ascii "\ngen:") s)

/-- `print_reserve_size` of `posix_file_status` (posix_status.h:35-49); `sizeof` of a literal counts the terminator. -/
def statusReserve : Nat :=
  reserveSize 64 false 10 false false * 11 +
    (["dev:", "\nino:", "\nperm:", "\ntype:", "\nnlink:", "\nuid:", "\ngid:", "\nrdev:", "\nsize:", "\nblksize:", "\nblocks:", "\natim:", "\nmtim:",
      "\nctim:", "\nbtim:", "\nflags:", "\ngen:"].map fun l => (ascii l).length + 1).sum - 16 +
    permReserve + fileTypeReserve + TsText.tsReserve * 4

end Verif.Forms
