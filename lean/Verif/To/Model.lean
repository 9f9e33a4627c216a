import Verif.Print.Streams
import Verif.IntScan.CtxModel
import Verif.To.Spec
/-!
# Model of `to` and `inplace_to`

`include/fast_io_core_impl/to.h`: the arguments are printed and what was printed is scanned.

Reading outside a range (`none` of the scanner) and storing outside a buffer are `Fail.ub`.  `u16inplace_to` and
`u32inplace_to` (to.h:389-420) are declared to return a value and do not; they are left out.
-/
namespace Verif.To
open Verif.Print Verif.IntScan

/-- A type that can be scanned: `scan_contiguous_define`, and `scan_context_define`, `scan_context_eof_define` with the initial
state, for a scanner with states `S` and values `V` (concepts/operation.h). -/
structure Target (S V : Type) where
  contig : Option (List Nat → Option (Code × Option V))
  ctx : Option (S × (S → List Nat → Option (S × List Nat × Code × Option V)) × (S → Option (Code × Option V)))

/-- Integers have both. -/
def intTarget (cfg : Cfg) : Target CtxState Int where
  contig := some fun l => (scanContig cfg l).map fun o => (o.code, o.value)
  ctx := some ({}, fun st l => (ctxStep cfg st l).map fun s => (s.st, s.rest, s.code, s.value), ctxEof cfg)

/-- `if(code!=parse_code::ok) throw_parse_code(code);` (to.h:167-170): `ok` with a value returns it. -/
def result {V : Type} : Option (Code × Option V) → R (Res V)
  | none => .error .ub
  | some (.ok, some v) => .ok (.value v)
  | some (.ok, none) => .error .ub
  | some (c, _) => .ok (.throws c)

/-- `inplace_to_decay_context_impl`, `inplace_to_decay_buffer_scatter_context_impl`, `inplace_to_decay_buffer_context_impl`
(to.h:9-115): each argument is printed (`fetch`, which keeps a buffer `B`) and the range scanned; if it is used up the next one
follows, whatever the code, otherwise the code decides. -/
def ctxLoop {S V B : Type} (step : S → List Nat → Option (S × List Nat × Code × Option V)) (eof : S → Option (Code × Option V))
    (fetch : B → Item → R (B × List Nat)) : B → S → List Item → R (Res V)
  | _, s, [] => result (eof s)
  | b, s, i :: rest =>
    match fetch b i with
    | .error e => .error e
    | .ok (b, l) =>
      match step s l with
      | none => .error .ub
      | some (s, l', c, v) =>
        if l' ≠ [] then result (some (c, v)) else ctxLoop step eof fetch b s rest

/-- A range is scanned where it is, other arguments are printed into a buffer of `size` characters (to.h:86-97). -/
def fetchArray (size : Nat) (_ : Unit) (i : Item) : R (Unit × List Nat) :=
  if i.scatter then .ok ((), i.text)
  else
    match intoArray size false i with
    | .ok bs => .ok ((), bs)
    | .error e => .error e

/-- `calculate_print_normal_maxium_size` (to.h:117-142). -/
def maxReserve (items : List Item) : Nat := (items.map fun i => i.reserve.getD 0).foldl max 0

/-- `calculate_print_normal_dynamic_maxium_main` (to.h:144-164): only the arguments whose size depends on the value are looked
at. -/
def maxDynamic (items : List Item) : Nat := (items.map fun i => i.dynamic.getD 0).foldl max 0

/-- `print_control<false>` to the `dynamic_io_buffer` (to.h:17-20, 31), which has been set back to its beginning. -/
def fetchDyn (b : DynBuf) (i : Item) : R (DynBuf × List Nat) :=
  match control dynStream false { b with curr := 0 } i with
  | .ok b => .ok (b, b.out)
  | .error e => .error e

/-- `to_impl_with_reserve_recursive` (to.h:183-203) in a space of `size` characters: ranges are copied. -/
def toChain (size : Nat) (items : List Item) : R (List Nat) :=
  chainMem (fun i => !i.scatter) false (List.replicate size 0) 0 items

/-- The end of the contiguous paths: `deal_with_single_to` (to.h:166-172) on what was printed. -/
def scanAll {V : Type} (contig : List Nat → Option (Code × Option V)) : R (List Nat) → R (Res V)
  | .ok l => result (contig l)
  | .error e => .error e

/-- Whether the arguments are scanned one by one (to.h:249, 299). -/
def Target.piecewise {S V : Type} (t : Target S V) (items : List Item) : Bool :=
  t.ctx.isSome && !(t.contig.isSome && decide (items.length = 1))

/-- The buffer of the piecewise scan (to.h:252-267). -/
def pieceSize (items : List Item) : Nat :=
  if items.all Item.scatter then 0
  else if items.all fun i => i.reserve.isSome || i.scatter then maxReserve items
  else maxDynamic items

/-- Printing everything into one array (to.h:271-288). -/
def printAll (items : List Item) : R (List Nat) :=
  if items.all Item.scatter ∧ items.length = 1 then .ok (items.map Item.text).flatten
  else if items.all fun i => i.reserve.isSome then toChain (reserveTotal items) items
  else if 2 ^ 64 ≤ sizeWithScatter items then .error .stop
  else toChain (sizeWithScatter items) items

/-- `basic_inplace_to_decay` (to.h:239-311); `opt` as in `printBuffered`. -/
def toValue {S V : Type} (opt : Bool) (t : Target S V) (items : List Item) : R (Res V) :=
  match t.piecewise items, t.ctx, t.contig with
  | true, some (s0, step, eof), _ =>
    if items.all Item.plain then ctxLoop step eof (fetchArray (pieceSize items)) () s0 items
    else ctxLoop step eof fetchDyn ⟨[], 0⟩ s0 items
  | _, _, some contig =>
    if items.all Item.plain then scanAll contig (printAll items)
    else scanAll contig ((printBuffered opt dynStream false ⟨[], 0⟩ items).map DynBuf.out)
  | _, _, none => .error .ub -- does not compile

end Verif.To
