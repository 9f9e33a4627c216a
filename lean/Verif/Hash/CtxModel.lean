import Verif.Lebe.Model
/-!
# Model of `include/fast_io_crypto/hash/md5_sha_hash_context.h`

Bytes are `Nat`s. `native` says whether the host is little endian. An access outside the object's `buffer` array is `none`.
The counter is an unsigned integer of `cs` bytes (`std::uint_least64_t` or `__uint128_t`); the two-word emulation
for compilers without `__int128` is modelled in `Verif/Hash/Counter.lean`. `std::size_t` arithmetic does not wrap: all
lengths are lengths of objects in memory.
-/
namespace Verif.Hash
open Verif

/-- The template parameters: `T::block_size`, `sizeof(counter_type)`, `T::hash_endian == big` and the effect of
`T::update_blocks` on one block. -/
structure Params (S : Type) where
  bs : Nat
  cs : Nat
  big : Bool
  comp : S → List Nat → S

/-- The data members of `md5_sha_common_impl` (md5_sha_hash_context.h:33-36). -/
structure Ctx (S : Type) where
  state : S
  counter : Nat
  off : Nat
  buf : List Nat

/-- Overwriting `l.length` bytes of an array from position `pos`; `none` when that leaves the array. -/
def poke (buf : List Nat) (pos : Nat) (l : List Nat) : Option (List Nat) :=
  if pos + l.length ≤ buf.length then some (buf.take pos ++ l ++ buf.drop (pos + l.length)) else none

/-- The block loop of every `update_blocks` (`for(;blocks_start!=blocks_last;blocks_start+=64)`, e.g.
sha256_scalar.h:51): `none` when the end pointer is stepped over. The first argument bounds the number of iterations. -/
def blockLoop {S : Type} (P : Params S) : Nat → S → List Nat → Option S
  | _, s, [] => some s
  | 0, _, _ :: _ => none
  | n + 1, s, data =>
    if data.length < P.bs then none else blockLoop P n (P.comp s (data.take P.bs)) (data.drop P.bs)

/-- `hasher.update_blocks(first,last)`. -/
def updateBlocks {S : Type} (P : Params S) (s : S) (data : List Nat) : Option S := blockLoop P data.length s data

/-- `update_impl` (md5_sha_hash_context.h:37-52). -/
def updateImpl {S : Type} (P : Params S) (c : Ctx S) (data : List Nat) : Option (Ctx S) :=
  (updateBlocks P c.state data).map fun s =>
    { c with state := s, counter := (c.counter + data.length) % 256 ^ P.cs }

/-- `update_cold_impl` (md5_sha_hash_context.h:53-70). -/
def updateCold {S : Type} (P : Params S) (c : Ctx S) (data : List Nat) : Option (Ctx S) := do
  let remain := P.bs - c.off
  let (c, data) ←
    if remain ≠ P.bs then do
      let b ← poke c.buf c.off (data.take remain)
      let c ← updateImpl P { c with buf := b } b
      pure (c, data.drop remain)
    else pure (c, data)
  let n := data.length / P.bs * P.bs
  let c ← updateImpl P c (data.take n)
  let rest := data.drop n
  let b ← poke c.buf 0 rest
  pure { c with buf := b, off := rest.length }

/-- `update` (md5_sha_hash_context.h:111-131). -/
def update {S : Type} (P : Params S) (c : Ctx S) (data : List Nat) : Option (Ctx S) :=
  if data.length < P.bs - c.off then do
    let b ← poke c.buf c.off data
    pure { c with buf := b, off := c.off + data.length }
  else updateCold P c data

/-- `append_sentinal` (md5_sha_hash_context.h:71-110). -/
def appendSentinal {S : Type} (native : Bool) (P : Params S) (c : Ctx S) (final : Nat) : Option (Ctx S) := do
  let ct := (c.counter + final) % 256 ^ P.cs
  let ct := ct * 8 % 256 ^ P.cs
  let ct := if native = P.big then byteSwap P.cs ct else ct
  let b ← poke c.buf (P.bs - P.cs) (Lebe.repr native P.cs ct)
  let s ← updateBlocks P c.state b
  pure { c with buf := b, state := s }

/-- `do_final` (md5_sha_hash_context.h:133-169). -/
def doFinal {S : Type} (native : Bool) (P : Params S) (c : Ctx S) : Option (Ctx S) := do
  let sz := P.bs - P.cs
  let b ← poke c.buf c.off [0x80]
  let off := c.off + 1
  if off ≤ sz then
    let b ← poke b off (List.replicate (sz - off) 0)
    appendSentinal native P { c with buf := b } c.off
  else
    let b ← poke b off (List.replicate (P.bs - off) 0)
    let s ← updateBlocks P c.state b
    let b ← poke b 0 (List.replicate sz 0)
    appendSentinal native P { c with state := s, buf := b } c.off

/-- `reset` (md5_sha_hash_context.h:187-192): the buffer keeps whatever it contained. -/
def reset {S : Type} (iv : S) (buf : List Nat) : Ctx S := { state := iv, counter := 0, off := 0, buf := buf }

/-- A use of a context: `reset` (the constructor), any number of `update`s, `do_final`. -/
def run {S : Type} (native : Bool) (P : Params S) (iv : S) (buf : List Nat) (chunks : List (List Nat)) : Option S := do
  let c ← chunks.foldlM (update P) (reset iv buf)
  let c ← doFinal native P c
  pure c.state

/-- `hash_digest_to_byte_ptr_common` at run time (md5_sha_hash_context.h:255-316, the branches outside constant
evaluation): `digest_size/wb` whole words of `wb` bytes in the hash's byte order and the first `digest_size%wb` bytes of
the next. -/
def digestBytes (native : Bool) (wb size : Nat) (big : Bool) (words : List Nat) : List Nat :=
  let sw (v : Nat) := if native = big then byteSwap wb v else v
  let sz := size / wb
  let whole := (words.take sz).flatMap fun v => Lebe.repr native wb (sw v)
  if size % wb ≠ 0 then whole ++ (Lebe.repr native wb (sw (words.getD sz 0))).take (size % wb) else whole

/-- The same during constant evaluation (md5_sha_hash_context.h:211-224): the swapped copy `v` is computed (under the
inverted condition) and then not used. -/
def digestBytesConsteval (native : Bool) (wb size : Nat) (big : Bool) (words : List Nat) : List Nat :=
  let sz := size / wb
  let whole := (words.take sz).flatMap fun v => Lebe.repr native wb v
  let sw (v : Nat) := if native = big then byteSwap wb v else v
  if size % wb ≠ 0 then whole ++ (Lebe.repr native wb (sw (words.getD sz 0))).take (size % wb) else whole

end Verif.Hash
