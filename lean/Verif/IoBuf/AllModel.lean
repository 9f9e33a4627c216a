import Mathlib.Data.List.Basic
/-!
# Model of the whole-buffer write loops

`include/fast_io_core_impl/rwreflect/reflectwrite.h` over a device that takes part of what it is offered, and the Windows C
runtime device of `include/fast_io_hosted/platforms/posix.h`.
-/
namespace Verif.IoBuf

/-- A device that takes part of each offer: what it has received and how much it takes of the coming offers (everything when
exhausted). -/
structure SDev where
  got : List Nat
  script : List Nat
deriving DecidableEq, Repr

/-- `write_some_bytes_define` / `write_some_define`: returns how many characters were taken. -/
def writeSome (d : SDev) (bs : List Nat) : SDev × Nat :=
  match d.script with
  | [] => (⟨d.got ++ bs, []⟩, bs.length)
  | k :: t => (⟨d.got ++ bs.take k, t⟩, min k bs.length)

/-- `write_all_bytes_common_chtypeptr_impl` (reflectwrite.h:273-279) and the `write_some_define` loop of
`write_all_common_chtypeptr_impl` (reflectwrite.h:315-318); `fuel` bounds the rounds. -/
def writeAll : Nat → SDev → List Nat → Option SDev
  | 0, _, _ => none
  | fuel + 1, d, bs =>
    let r := writeSome d bs
    if r.2 = bs.length then some r.1 else writeAll fuel r.1 (bs.drop r.2)

/-- `io_scatter_status_t` (concepts/type.h:19-24). -/
structure Status where
  total : Nat
  position : Nat
  inScatter : Nat
deriving DecidableEq, Repr

/-- `scatter_size_to_status` (reflectwrite.h:6-17), loop: `total` is left, element `i` is next. -/
def scatterStatusLoop (sz : Nat) : Nat → Nat → List (List Nat) → Status
  | _, i, [] => ⟨sz, i, 0⟩
  | total, i, b :: bs => if total < b.length then ⟨sz, i, total⟩ else scatterStatusLoop sz (total - b.length) (i + 1) bs

/-- `scatter_size_to_status` (reflectwrite.h:6-17). -/
def scatterStatus (sz : Nat) (base : List (List Nat)) : Status := scatterStatusLoop sz sz 0 base

/-- `scatter_write_some_bytes_define` of a device such as `writev`: it takes a number of characters of the concatenation and
reports it through `scatter_size_to_status`. -/
def scatterWriteSome (d : SDev) (base : List (List Nat)) : SDev × Status :=
  let r := writeSome d base.flatten
  (r.1, scatterStatus r.2 base)

/-- `scatter_write_some_bytes_impl` over `write_some_bytes_define` (reflectwrite.h:398-419): loop from element `i` on. -/
def scatterSomeLoop (d : SDev) (written i : Nat) : List (List Nat) → SDev × Status
  | [] => (d, ⟨written, i, 0⟩)
  | b :: bs =>
    let r := writeSome d b
    if r.2 ≠ b.length then (r.1, ⟨written + r.2, i, r.2⟩)
    else scatterSomeLoop r.1 (written + r.2) (i + 1) bs

/-- `scatter_write_all_bytes_impl` over `scatter_write_some_bytes_define` (reflectwrite.h:445-471). -/
def scatterWriteAll : Nat → SDev → List (List Nat) → Option SDev
  | _, d, [] => some d
  | 0, _, _ => none
  | fuel + 1, d, base =>
    let r := scatterWriteSome d base
    if r.2.position = base.length then some r.1
    else
      let base := base.drop r.2.position
      if r.2.inScatter = 0 then scatterWriteAll fuel r.1 base
      else
        match base with
        | [] => none
        | b :: rest => (writeAll fuel r.1 (b.drop r.2.inScatter)).bind fun d => scatterWriteAll fuel d rest

/-- `scatter_write_all_bytes_impl` over `write_some_bytes_define` (reflectwrite.h:472-482). -/
def scatterAllEach (fuel : Nat) : SDev → List (List Nat) → Option SDev
  | d, [] => some d
  | d, b :: bs => (writeAll fuel d b).bind fun d => scatterAllEach fuel d bs

/-- `write_all_common_chtypeptr_impl` for a buffered stream (reflectwrite.h:286-302): `buf` is the content of the buffer of size
`cap`, the overflow hook sends the buffer and the data to the device. There is no `return` after the copy. -/
def writeAllBuffered (cap : Nat) (dev buf bs : List Nat) : List Nat × List Nat :=
  let buf := if bs.length < cap - buf.length then buf ++ bs else buf
  (dev ++ buf ++ bs, [])

/-- `posix_write_nolock_impl` on Windows (posix.h:501-521): `lim` is `INT_LEAST32_MAX`; `address` is not advanced. -/
def winWrite (lim : Nat) : Nat → SDev → List Nat → Nat → Nat → Option (SDev × Nat)
  | _, d, _, 0, written => some (d, written)
  | 0, _, _, _, _ => none
  | fuel + 1, d, address, toWrite, written =>
    let round := if toWrite < lim then toWrite else lim
    let r := writeSome d (address.take round)
    if r.2 < round then some (r.1, written + r.2)
    else winWrite lim fuel r.1 address (toWrite - round) (written + r.2)

/-- `posix_scatter_write_impl` on Windows (posix.h:528-539), elements not longer than `INT_LEAST32_MAX`. -/
def winScatterWrite (d : SDev) (total i : Nat) : List (List Nat) → SDev × Status
  | [] => (d, ⟨total, i, 0⟩)
  | b :: bs =>
    let r := writeSome d b
    if b.length < r.2 then (r.1, ⟨total + r.2, i, r.2⟩)
    else winScatterWrite r.1 (total + r.2) (i + 1) bs

end Verif.IoBuf
