import Verif.LcPrint.Spec
import Verif.Print.Streams
/-!
# Model of printing with a locale

`include/fast_io_i18n/lc_print_status.h`, `include/fast_io_i18n/imbuer.h` (which only pairs the locale with the stream) and
`include/fast_io_unit/string_impl/lc_concat.h`, on top of the model of `print` and `concat` in `Verif.Print`.

As there, a `mutex_stream` only adds the lock around the same calls (lc_print_status.h:391-396) and is left out.
-/
namespace Verif.LcPrint
open Verif.Print

/-- `print_scatter_define(all,t)`: a range, printed as such (lc_print_status.h:192). -/
def LcArg.asScatter (a : LcArg) : Item := { text := a.lcText, scatter := true }

/-- `print_reserve_size(all,t)` and `print_reserve_define(all,p,t)`: what is stored in a space. -/
def LcArg.asDynamic (a : LcArg) (n : Nat) : Item := { text := a.lcText, junk := a.lcJunk, dynamic := some n }

/-- `lc_print_control` for a stream with a buffer (lc_print_status.h:187-235), with `lc_print_control_reserve_bad_path`
(lc_print_status.h:165-183); the sizes are compared as `std::ptrdiff_t`. -/
def lcControl {S : Type} (st : Stream S) (line : Bool) (s : S) (a : LcArg) : R S :=
  if a.lcScatter then controlScatter st line s a.asScatter
  else
    match a.lcDynamic with
    | some n =>
      if 2 ^ 63 ≤ n ∨ (n : Int) < (st.room s : Int) - (line.toNat : Int) then place st s line (a.asDynamic n)
      else if line ∧ n = 2 ^ 64 - 1 then .error .stop
      else intoArray (n + line.toNat) line (a.asDynamic n) >>= fun bs => st.write s bs
    | none =>
      match a.lcCustom with
      | some l => runPrims st s l >>= fun s => if line then put st s 10 else .ok s
      | none => control st line s a.plain

/-- The fold `(lc_print_control<false>(lc,out,args),...)` (lc_print_status.h:264). -/
def lcFold {S : Type} (st : Stream S) : S → List LcArg → R S
  | s, [] => .ok s
  | s, a :: rest => lcControl st false s a >>= fun s => lcFold st s rest

/-- `lc_print_controls_line` (lc_print_status.h:237-271); arguments behind the last one that knows about locales are printed
together by `print_controls_line` (print_freestanding.h:562-590). -/
def lcControls {S : Type} (optimised : Bool) (st : Stream S) (line : Bool) : S → List LcArg → R S
  | s, [] => .ok s
  | s, [a] => lcControl st line s a
  | s, a :: b :: rest =>
    lcControl st false s a >>= fun s =>
      if (b :: rest).any LcArg.localised then
        if line then lcControls optimised st line s (b :: rest) else lcFold st s (b :: rest)
      else printBuffered optimised st line s ((b :: rest).map LcArg.plain)

/-- `lc_print_status_define_further_decay` for a stream with a buffer (lc_print_status.h:385-407). -/
def lcPrintBuffered {S : Type} (optimised : Bool) (st : Stream S) (line : Bool) (s : S) (args : List LcArg) : R S :=
  if args = [] then if line then put st s 10 else .ok s
  else lcControls optimised st line s args

/-! ## Streams without a buffer -/

/-- One step of `lc_scatter_print_with_dynamic_reserve_recursive` (lc_print_status.h:85-125) and of
`lc_scatter_print_with_dynamic_only_reserve_recursive` (lc_print_status.h:128-161), which is the same without the case of a
size announced by the type. -/
def lcScatterOne (ar : Arrays) (a : LcArg) : R (Arrays × Piece) :=
  if a.lcScatter then .ok (ar, .ext a.lcText)
  else if a.lcDynamic.isSome then do
    let m ← storeAt ar.heap ar.hp (a.lcText ++ a.lcJunk)
    .ok ({ ar with heap := m, hp := ar.hp + a.lcText.length }, .heap ar.hp a.lcText.length)
  else scatterOne false ar a.plain

/-- The list of pieces (lc_print_status.h:85-161); when no argument left has a localised range or size the rest is done
without the locale (lc_print_status.h:118-124, 154-160). -/
def lcScatterAll : Arrays → List LcArg → R (Arrays × List Piece)
  | ar, [] => .ok (ar, [])
  | ar, a :: rest =>
    match lcScatterOne ar a with
    | .error e => .error e
    | .ok (ar, p) =>
      match (if rest.all (fun b => !b.lcDynamic.isSome && !b.lcScatter) then scatterAll false ar (rest.map LcArg.plain)
        else lcScatterAll ar rest) with
      | .error e => .error e
      | .ok (ar, ps) => .ok (ar, p :: ps)

/-- `lc_scatter_print_recursive` (lc_print_status.h:273-293). -/
def lcRanges (args : List LcArg) : List (List Nat) :=
  args.map fun a => if a.lcScatter then a.lcText else a.plain.text

/-- `calculate_lc_scatter_dynamic_reserve_size` (lc_print_status.h:54-82). -/
def lcDynamicTotal (args : List LcArg) : Nat :=
  (args.map fun a =>
    match a.lcDynamic with
    | some n => n
    | none => if a.plain.reserve.isSome then 0 else a.plain.dynamic.getD 0).sum

/-- Can be put into a list of pieces (lc_print_status.h:305-311). -/
def LcArg.piecewise (a : LcArg) : Bool := a.plain.plain || a.lcDynamic.isSome || a.lcScatter

/-- `lc_print_fallback` (lc_print_status.h:296-383). The arrays start with arbitrary contents, here zeros. -/
def lcFallback (optimised : Bool) (cfg : DevCfg) (line : Bool) (d : Dev) (args : List LcArg) : R Dev :=
  if args.all fun a => !a.localised then printDevice cfg line d (args.map LcArg.plain)
  else if cfg.scatter ∧ args.all LcArg.piecewise then
    if args.all fun a => a.plain.scatter || a.lcScatter then
      .ok (d.call ((lcRanges args).flatten ++ if line then [10] else []))
    else
      let reserved := reserveTotal (args.map LcArg.plain)
      -- an addition that overflows ends the program
      if 2 ^ 64 ≤ reserved ∨ 2 ^ 64 ≤ lcDynamicTotal args then .error .stop
      else
        match lcScatterAll ⟨List.replicate reserved 0, List.replicate (lcDynamicTotal args) 0, 0, 0⟩ args with
        | .error e => .error e
        | .ok (ar, ps) => .ok (d.call ((ps.map (Piece.read ar)).flatten ++ if line then [10] else []))
  else
    match lcControls optimised tmpStream line ⟨[], d⟩ args with
    | .error e => .error e
    | .ok t => .ok t.flush.dev

/-- `lc_print_control` for a device without a buffer (lc_print_status.h:187-235); there is no `put` for it. -/
def lcDevControl (cfg : DevCfg) (line : Bool) (d : Dev) (a : LcArg) : R Dev :=
  if a.lcScatter then devControl cfg line d a.asScatter
  else
    match a.lcDynamic with
    | some n =>
      if line ∧ n = 2 ^ 64 - 1 then .error .stop
      else intoArray (n + line.toNat) line (a.asDynamic n) >>= fun bs => .ok (d.call bs)
    | none =>
      match a.lcCustom with
      | some l => if line then .error .ub else devPrims d l
      | none => devControl cfg line d a.plain

/-- The condition for printing a single argument directly (lc_print_status.h:408-414, 419). The first alternative there,
`printable<output,Args>`, names the stream where a character type is wanted and never holds. -/
def lcDirect (cfg : DevCfg) (line : Bool) (a : LcArg) : Bool :=
  ((!line || cfg.writeln) && (a.plain.scatter || a.lcScatter || a.lcDynamic.isSome || a.plain.reserve.isSome || a.plain.dynamic.isSome))
    || (line && a.lcDynamic.isSome)

/-- `lc_print_status_define_further_decay` for a device without a buffer (lc_print_status.h:385-425). -/
def lcPrintDevice (optimised : Bool) (cfg : DevCfg) (line : Bool) (d : Dev) (args : List LcArg) : R Dev :=
  if args = [] ∧ line = false then .ok d
  else
    match args with
    | [a] => if lcDirect cfg line a then lcDevControl cfg line d a else lcFallback optimised cfg line d [a]
    | _ => lcFallback optimised cfg line d args

/-! ## Strings -/

/-- One argument's share of `lc_calculate_scatter_dynamic_reserve_size_with_scatter` (lc_concat.h:9-53): a size announced by the
type counts as nothing. -/
def LcArg.extra (a : LcArg) : Nat :=
  match a.lcDynamic with
  | some n => n
  | none => if a.lcScatter then a.lcText.length else a.plain.extra

/-- What `lc_print_reserve_define_chain_scatter_impl` (lc_concat.h:56-86) stores for an argument. -/
def LcArg.stored (a : LcArg) : Item :=
  match a.lcDynamic with
  | some n => a.asDynamic n
  | none => if a.lcScatter then a.asScatter else a.plain

/-- `lc_print_reserve_define_chain_scatter_impl` (lc_concat.h:56-86) in a space of `size` characters. -/
def lcChain (size : Nat) (line : Bool) (args : List LcArg) : R (List Nat) :=
  chainScatter size line (args.map LcArg.stored)

/-- `lc_concat_decay_impl` (lc_concat.h:94-138) for a string type with a buffer. Whether an argument has a localised
`print_define` is asked about a stream instead of a character type (lc_concat.h:99), so the answer is no. The single
argument with a localised range (lc_concat.h:117-121) is a copy of the range. -/
def lcConcat (optimised : Bool) (c : StrCfg) (line : Bool) (args : List LcArg) : R (List Nat) :=
  if args.all fun a => !(a.lcDynamic.isSome || a.lcScatter) then concat optimised c line (args.map LcArg.plain)
  else if args.all LcArg.piecewise then
    let one : Option LcArg :=
      match args with
      | [a] => if line = false ∧ a.lcScatter then some a else none
      | _ => none
    match one with
    | some a => .ok a.lcText
    | none =>
      let total := line.toNat + (args.map LcArg.extra).sum
      if 2 ^ 64 ≤ total then .error .stop
      else
        strReserve c ⟨[], c.fresh⟩ total >>= fun s => lcChain s.cap line args
  else
    match lcPrintBuffered optimised (strStream c) line ⟨[], c.fresh⟩ args with
    | .ok s => .ok s.content
    | .error e => .error e

end Verif.LcPrint
