import Verif.Print.Model
import Verif.IoBuf.OutModel
/-!
# Streams with a buffer, and `concat`

`include/fast_io_core_impl/{buffer_view,dynamic_io_buffer}.h`, `include/fast_io_core_impl/concat/*.h`,
`include/fast_io_unit/string_impl/{ostring_ref,concat}.h`, and the buffered file of `Verif.IoBuf`.

Memory allocation succeeds.
-/
namespace Verif.Print

/-- Outcome of a `Verif.IoBuf` operation as a result: an exception or a dead process is `stop`. -/
def ofIo : Option (IoBuf.St × IoBuf.Out) → R IoBuf.St
  | none => .error .ub
  | some (s, .ok) => .ok s
  | some (_, _) => .error .stop

/-- A buffered output file (`Verif.IoBuf.OutModel`); it has a constant size (general.h:20-46). -/
def fileStream (cfg : IoBuf.Cfg) : Stream IoBuf.St where
  room := IoBuf.room cfg
  push s bs := (IoBuf.append cfg s bs).getD s
  write s bs := ofIo (IoBuf.write cfg s bs)
  overflow s c := ofIo (IoBuf.overflow cfg s c)
  const := some (cfg.bfs, fun s => ofIo (some (IoBuf.prepare s)))

/-- `basic_obuffer_view` (buffer_view.h:75-190): a space of `cap` characters and what it holds. -/
def viewStream (cap : Nat) : Stream (List Nat) where
  room l := cap - l.length
  push l bs := l ++ bs
  write l bs := if cap - l.length < bs.length then .error .stop else .ok (l ++ bs)
  overflow _ _ := .error .stop
  contiguous := true

/-! ## Strings -/

/-- A string under construction: its contents and its capacity. -/
structure Str where
  content : List Nat
  cap : Nat
deriving DecidableEq, Repr

/-- A string type with a buffer (`buffer_strlike`, concepts/strlike.h): the capacity a fresh object has, that of a fresh object
as announced at compile time (`strlike_sso_size`), whether it has its own `append` and `push_back` (`auxiliary_strlike`),
how `reserve` and `append` choose the capacity, and the size of a character in bytes. -/
structure StrCfg where
  fresh : Nat
  sso : Option Nat
  aux : Bool
  reserveCap : Nat → Nat → Nat
  appendCap : Nat → Nat → Nat
  charSize : Nat

/-- `strlike_reserve`: `std::basic_string::reserve` (ostring_ref.h:98-102) or `basic_concat_buffer_strlike_reserve_impl`
(concat_buffer.h:56-84), which moves the contents to a larger space. More characters than can be addressed end the program
(allocation/adapters.h, `typed_generic_allocator_adapter::allocate`, through local_new_array_ptr.h:6-22). -/
def strReserve (c : StrCfg) (s : Str) (n : Nat) : R Str :=
  if s.cap < n then
    if (2 ^ 64 - 1) / c.charSize < n then .error .stop else .ok { s with cap := c.reserveCap s.cap n }
  else .ok s

/-- `cal_new_cap_io_strlike` (strlike_reference_wrapper.h:63-91). -/
def newCap (charSize cap : Nat) : R Nat :=
  if cap = 0 then .ok 1
  else
    let mx := (2 ^ 64 - 1) / charSize
    if mx = cap then .error .stop
    else if mx / 2 ≤ cap then .ok mx
    else .ok (cap * 2)

/-- Storing characters behind the contents; outside the capacity it is undefined. -/
def strStore (s : Str) (bs : List Nat) : R Str :=
  if s.content.length + bs.length ≤ s.cap then .ok { s with content := s.content ++ bs } else .error .ub

/-- `append` of the string type itself. -/
def strAppend (c : StrCfg) (s : Str) (bs : List Nat) : Str :=
  ⟨s.content ++ bs, if s.content.length + bs.length ≤ s.cap then s.cap else c.appendCap s.cap (s.content.length + bs.length)⟩

/-- `obuffer_overflow` (strlike_reference_wrapper.h:93-117). -/
def strOverflow (c : StrCfg) (s : Str) (ch : Nat) : R Str :=
  if c.aux then .ok (strAppend c s [ch])
  else newCap c.charSize s.cap >>= fun n => strReserve c s n >>= fun s => strStore s [ch]

/-- `write_strike_like_cold` (strlike_reference_wrapper.h:122-147): fill what is left, then grow. -/
def strWriteCold (c : StrCfg) (s : Str) (bs : List Nat) : R Str :=
  let d := s.cap - s.content.length
  strStore s (bs.take d) >>= fun s =>
    let rest := bs.drop d
    newCap c.charSize s.cap >>= fun n =>
      if 2 ^ 64 ≤ rest.length + s.cap then .error .stop
      else
        let least := rest.length + s.cap
        strReserve c s (if n < least then least else n) >>= fun s => strStore s rest

/-- `write` (strlike_reference_wrapper.h:151-191). -/
def strWrite (c : StrCfg) (s : Str) (bs : List Nat) : R Str :=
  if c.aux then .ok (strAppend c s bs)
  else if bs.length ≤ s.cap - s.content.length then strStore s bs
  else strWriteCold c s bs

/-- `io_strlike_reference_wrapper` (strlike_reference_wrapper.h) as a stream. -/
def strStream (c : StrCfg) : Stream Str where
  room s := s.cap - s.content.length
  push s bs := { s with content := s.content ++ bs }
  write := strWrite c
  overflow := strOverflow c

/-- One argument's share of `calculate_scatter_dynamic_reserve_size_with_scatter` (concat_general.h:24-50). -/
def Item.extra (i : Item) : Nat :=
  match i.dynamic with
  | some n => n
  | none => if i.scatter then i.text.length else 0

/-- `calculate_scatter_dynamic_reserve_size_with_scatter` (concat_general.h:24-50). -/
def sizeWithScatter (items : List Item) : Nat := (items.map Item.extra).sum

/-- `print_reserve_define_chain_scatter_impl` (concat_general.h:52-74) and the line feed (concat_general.h:236-240) in a space of `size`
characters; text available as a range is copied. -/
def chainScatter (size : Nat) (line : Bool) (items : List Item) : R (List Nat) :=
  chainMem (fun i => i.dynamic.isSome || i.reserve.isSome) line (List.replicate size 0) 0 items

/-- `basic_general_concat_decay_ref_impl_precise` (concat_general.h:178-197): the exact size is announced. -/
def concatPrecise (c : StrCfg) (line : Bool) (s : Str) (i : Item) : R Str :=
  let size := i.text.length + line.toNat
  (if c.sso.getD 0 < size then strReserve c s size else .ok s) >>= fun s =>
    if size ≤ s.cap then .ok { s with content := i.text ++ if line then [10] else [] } else .error .ub

/-- `strlike_reserve` and a chain of arguments of announced size (concat_general.h:222-226, 231-233). -/
def reserveChain (c : StrCfg) (line : Bool) (s : Str) (size : Nat) (items : List Item) : R Str :=
  strReserve c s size >>= fun s => chainLine s.cap line items >>= fun bs => .ok { s with content := bs }

/-- `basic_general_concat_decay_ref_impl` (concat_general.h:199-247). An addition that overflows ends the program. -/
def concatRef (opt : Bool) (c : StrCfg) (line : Bool) (s : Str) (items : List Item) : R Str :=
  if items.all Item.plain then
    let sz := reserveTotal items + line.toNat
    if items.all fun i => i.reserve.isSome then
      match c.sso with
      | some cap =>
        if cap < sz then
          match items with
          | [i] =>
            if i.precise then concatPrecise c line s i
            else reserveChain c line s sz items
          | _ => reserveChain c line s sz items
        else chainLine s.cap line items >>= fun bs => .ok { s with content := bs }
      | none => reserveChain c line s sz items
    else if 2 ^ 64 ≤ sz + sizeWithScatter items then .error .stop
    else
      strReserve c s (sz + sizeWithScatter items) >>= fun s =>
        chainScatter s.cap line items >>= fun bs => .ok { s with content := bs }
  else printBuffered opt (strStream c) line s items

/-- The buffer used when the string type has none (concat_buffer.h:6-32, 86-90): 2048 bytes on the stack. -/
def concatBuffer (charSize : Nat) : StrCfg where
  fresh := 2048 / charSize
  sso := some (2048 / charSize)
  aux := false
  reserveCap _ n := n
  appendCap _ n := n
  charSize := charSize

/-- `basic_general_concat_phase1_decay_impl` (concat_general.h:249-300) for a string type with a buffer, as used by `concat` and
`concatln` (string_impl/concat.h:6-20, 98-112). -/
def concat (opt : Bool) (c : StrCfg) (line : Bool) (items : List Item) : R (List Nat) :=
  if items = [] then .ok (if line then [10] else [])
  else
    match concatRef opt c line ⟨[], c.fresh⟩ items with
    | .ok s => .ok s.content
    | .error e => .error e

/-- `basic_general_concat_phase1_decay_impl` (concat_general.h:249-300) for a string type without a buffer. -/
def concatOther (opt : Bool) (charSize : Nat) (line : Bool) (items : List Item) : R (List Nat) :=
  if items = [] then .ok (if line then [10] else [])
  else
    let one : Option Item :=
      match items with
      | [i] => if line = false ∧ i.scatter then some i else none
      | _ => none
    match one with
    | some i => .ok i.text
    | none =>
      if items.all fun i => i.reserve.isSome then chainLine (reserveTotal items + line.toNat) line items
      else
        match concatRef opt (concatBuffer charSize) line ⟨[], (concatBuffer charSize).fresh⟩ items with
        | .ok s => .ok s.content
        | .error e => .error e

/-! ## `dynamic_io_buffer` -/

/-- `dynamic_io_buffer` (dynamic_io_buffer.h:9-25): the whole space and the position of `buffer_curr` in it. -/
structure DynBuf where
  mem : List Nat
  curr : Nat
deriving DecidableEq, Repr

/-- `dynamic_io_buffer_oreallocate_impl` (dynamic_io_buffer.h:54-65): a new space with the characters before `buffer_curr`. -/
def DynBuf.realloc (b : DynBuf) (size : Nat) : R DynBuf :=
  if b.curr ≤ size then .ok ⟨b.mem.take b.curr ++ List.replicate (size - b.curr) 0, b.curr⟩ else .error .ub

/-- `obuffer_overflow` (dynamic_io_buffer.h:82-95, 142-146): twice the space, then the character. -/
def DynBuf.overflow (b : DynBuf) (c : Nat) : R DynBuf :=
  let n := if (2 ^ 64 - 1) / 2 < b.mem.length then 2 ^ 64 - 1 else b.mem.length * 2
  b.realloc n >>= fun b => storeAt b.mem b.curr [c] >>= fun m => .ok ⟨m, b.curr + 1⟩

/-- `write` (dynamic_io_buffer.h:148-179) with `dynamic_io_buffer_write_impl_unhappy` (dynamic_io_buffer.h:67-80, 97-118): when the space
is large enough the characters are copied to the beginning of the buffer. -/
def DynBuf.write (b : DynBuf) (bs : List Nat) : R DynBuf :=
  if b.mem.length - b.curr < bs.length then
    let least := b.mem.length + bs.length
    let n := if (2 ^ 64 - 1) / 2 < b.mem.length then 2 ^ 64 - 1 else b.mem.length * 2
    b.realloc (if n < least then least else n) >>= fun b =>
      storeAt b.mem b.curr bs >>= fun m => .ok ⟨m, b.curr + bs.length⟩
  else storeAt b.mem 0 bs >>= fun m => .ok ⟨m, bs.length⟩

/-- What has been printed: `[buffer_begin,buffer_curr)`. -/
def DynBuf.out (b : DynBuf) : List Nat := b.mem.take b.curr

/-- `dynamic_io_buffer` as a stream. -/
def dynStream : Stream DynBuf where
  room b := b.mem.length - b.curr
  push b bs := ⟨b.mem.take b.curr ++ bs ++ b.mem.drop (b.curr + bs.length), b.curr + bs.length⟩
  write := DynBuf.write
  overflow := DynBuf.overflow

end Verif.Print
