import Verif.Print.Streams
/-!
# `rgvw(range, separator)`

`include/fast_io_core_impl/range_view.h`. Elements are described, as arguments of `print` are, by `Print.Item`.
`size_t` has 64 bits. That iterators are advanced once per element is reflected in the list of elements.
-/
namespace Verif.Range
open Verif.Print

/-- `sized_range_view_t` (range_view.h:4-15): the separator and the elements. `elemReserve` is the size announced by the type of
the elements (`print_reserve_size(io_reserve_type<...>)`), `none` if only their values announce one. -/
structure Sized where
  elemReserve : Option Nat
  sep : List Nat
  elems : List Item

/-- The size the value of one element announces. -/
def dynOf (i : Item) : Nat := i.dynamic.getD 0

/-- `print_reserve_size` of the view (range_view.h:29-46), in `size_t`. -/
def Sized.size (v : Sized) : Nat :=
  if v.elems.length = 0 then 0
  else
    match v.elemReserve with
    | some n => (n + v.sep.length) % 2 ^ 64 * v.elems.length % 2 ^ 64
    | none => (v.sep.length * v.elems.length + (2 ^ 64 - 1) + (v.elems.map dynOf).sum) % 2 ^ 64

/-- The loop of `print_reserve_define` (range_view.h:56-62): separator, element, ... -/
def defineRest (sep : List Nat) : List Nat → Nat → List Item → R (List Nat × Nat)
  | mem, pos, [] => .ok (mem, pos)
  | mem, pos, i :: rest =>
    storeAt mem pos sep >>= fun mem =>
      storeAt mem (pos + sep.length) (i.text ++ i.junk) >>= fun mem =>
        defineRest sep mem (pos + sep.length + i.text.length) rest

/-- `print_reserve_define` of the view at position `pos` of an array (range_view.h:47-64): the array and the position behind
the text. -/
def Sized.define (v : Sized) (mem : List Nat) (pos : Nat) : R (List Nat × Nat) :=
  match v.elems with
  | [] => .ok (mem, pos)
  | i :: rest =>
    storeAt mem pos (i.text ++ i.junk) >>= fun mem => defineRest v.sep mem (pos + i.text.length) rest

/-- A separator as an argument of `print`: `basic_io_scatter_t`. -/
def sepItem (sep : List Nat) : Item := { text := sep, scatter := true }

/-- `range_view_t` (range_view.h:17-27). -/
structure Unsized where
  sep : List Nat
  elems : List Item

/-- The loop of `print_define` (range_view.h:72-75); `pr` is `print_freestanding` of the stream. -/
def printRest {S : Type} (pr : S → List Item → R S) (sep : List Nat) : S → List Item → R S
  | s, [] => .ok s
  | s, i :: rest => pr s [sepItem sep, i] >>= fun s => printRest pr sep s rest

/-- `print_define` of `range_view_t` (range_view.h:66-76). -/
def Unsized.define {S : Type} (pr : S → List Item → R S) (v : Unsized) (s : S) : R S :=
  match v.elems with
  | [] => .ok s
  | i :: rest => pr s [i] >>= fun s => printRest pr v.sep s rest

/-- `print(out, view)` and `println(out, view)` with a buffer: `print_control` hands the stream to `print_define` and puts the
line feed (print_freestanding.h:378-400). -/
def Unsized.printBuffered {S : Type} (opt : Bool) (st : Stream S) (line : Bool) (s : S) (v : Unsized) : R S :=
  v.define (fun s l => Print.printBuffered opt st false s l) s >>= fun s => if line then put st s 10 else .ok s

/-- `print(device, view)` without a buffer: `print_define` gets the device itself unless a line feed has to follow
(print_freestanding.h:768-786); then a temporary buffer is used (print_freestanding.h:680-700). A device with `writeln` does
not compile in the second case. -/
def Unsized.printDevice (cfg : DevCfg) (opt : Bool) (line : Bool) (d : Dev) (v : Unsized) : R Dev :=
  if line then
    match v.printBuffered opt tmpStream true ⟨[], d⟩ with
    | .ok t => .ok t.flush.dev
    | .error e => .error e
  else v.define (fun d l => Print.printDevice cfg false d l) d

/-- What `rgvw` returns. -/
inductive View
  | sized (v : Sized)
  | unsized (v : Unsized)

/-- `rgvw` (range_view.h:78-141): elements whose type announces a size, in a range whose length is known, become a
`sized_range_view_t`. -/
def rgvw (contiguous sizedRange : Bool) (elemReserve : Option Nat) (sep : List Nat) (elems : List Item) : View :=
  match elemReserve with
  | some _ => if contiguous || sizedRange then .sized ⟨elemReserve, sep, elems⟩ else .unsized ⟨sep, elems⟩
  | none => .unsized ⟨sep, elems⟩

end Verif.Range
