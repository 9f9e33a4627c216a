import Verif.Copy.Model
import Verif.Width.Spec
import Verif.IntPrint.Model
/-!
# Model of the `width` manipulators and of `cond`

`include/fast_io_freestanding_impl/width.h`, `include/fast_io_freestanding_impl/cond.h`. What is printed inside a field is
an `Item`. `constant` and `byteSized` select the paths of the copying functions (`Verif.Copy`).
-/
namespace Verif.Width
open Verif Verif.Copy

/-- A printable argument: one that announces a size and writes itself (`print_reserve_size`, `print_reserve_define`;
static and dynamic sizes are not told apart), or one that is a run of characters somewhere in memory
(`print_scatter_define`). -/
inductive Item where
  | reserve (size : Nat) (define : Mem → Nat → Option (Mem × Nat))
  | scatter (base len : Nat)

/-- `print_reserve_size_width_impl` (width.h:245-268). -/
def sizeWidth (t : Item) (wid : Nat) : Nat :=
  match t with
  | .reserve sz _ => if wid < sz then sz else wid
  | .scatter _ len => if wid < len then len else wid

/-- The text itself is written first (width.h:322-330, 339-348): `copy_scatter` (utils.h:450-454) or
`print_reserve_define`. -/
def writeItem (constant : Bool) (t : Item) (m : Mem) (iter : Nat) : Option (Mem × Nat) :=
  match t with
  | .reserve _ define => define m iter
  | .scatter base len => nonOverlappedCopyN constant m base len iter

/-- `handle_common_ch` (width.h:270-296). -/
def handleCommon (constant byteSized : Bool) (pl : Placement) (m : Mem) (first last wd fillch : Nat) : Mem × Nat :=
  let diff := last - first
  if wd ≤ diff then (m, last)
  else
    let toFill := wd - diff
    if pl = .left then ((myFillN constant byteSized m last toFill fillch).1, first + wd)
    else if pl = .middle then
      let leftIndent := toFill / 2
      let rightIndent := toFill - leftIndent
      let m := (myCopy constant m first last (first + leftIndent)).1
      let m := (myFillN constant byteSized m first leftIndent fillch).1
      let m := (myFillN constant byteSized m (first + wd - rightIndent) rightIndent fillch).1
      (m, first + wd)
    else
      let m := (myCopy constant m first last (first + toFill)).1
      let m := (myFillN constant byteSized m first toFill fillch).1
      (m, first + wd)

/-- `handle_common_internal_ch` (width.h:298-312). -/
def handleInternal (constant byteSized : Bool) (m : Mem) (first last wd fillch internalLen : Nat) : Mem × Nat :=
  let diff1 := last - first
  if wd ≤ diff1 ∨ diff1 < internalLen then (m, last)
  else
    let first := first + internalLen
    let wd := wd - internalLen
    let diff := last - first
    let toFill := wd - diff
    let m := (myCopy constant m first last (first + toFill)).1
    let m := (myFillN constant byteSized m first toFill fillch).1
    (m, first + wd)

/-- `handle_common_rt_ch` (width.h:360-393). -/
def handleRt (constant byteSized : Bool) (pl : Placement) (m : Mem) (first last wd fillch : Nat) : Mem × Nat :=
  let diff := last - first
  if wd ≤ diff then (m, last)
  else
    let toFill := wd - diff
    if pl = .left then ((myFillN constant byteSized m last toFill fillch).1, first + wd)
    else if pl = .middle then
      let leftIndent := toFill / 2
      let rightIndent := toFill - leftIndent
      let m := (myCopy constant m first last (first + leftIndent)).1
      let m := (myFillN constant byteSized m first leftIndent fillch).1
      let m := (myFillN constant byteSized m (first + wd - rightIndent) rightIndent fillch).1
      (m, first + wd)
    else if pl = .right then
      let m := (myCopy constant m first last (first + toFill)).1
      let m := (myFillN constant byteSized m first toFill fillch).1
      (m, first + wd)
    else (m, last)

/-- `print_reserve_define_width_ch_impl` (width.h:314-350): the placement is part of the type. `shift` is
`print_define_internal_shift`, if the type has it. -/
def defineWidth (constant byteSized : Bool) (pl : Placement) (t : Item) (shift : Option Nat) (m : Mem) (iter wdt fillch : Nat) :
    Option (Mem × Nat) :=
  (writeItem constant t m iter).map fun r =>
    if pl = .internal then
      match shift with
      | some s => handleInternal constant byteSized r.1 iter r.2 wdt fillch s
      | none => handleCommon constant byteSized .right r.1 iter r.2 wdt fillch
    else handleCommon constant byteSized pl r.1 iter r.2 wdt fillch

/-- `print_reserve_define_width_rt_ch_impl` (width.h:395-431): the placement is an argument. -/
def defineWidthRt (constant byteSized : Bool) (pl : Placement) (t : Item) (shift : Option Nat) (m : Mem)
    (iter wdt fillch : Nat) : Option (Mem × Nat) :=
  (writeItem constant t m iter).map fun r =>
    if pl = .internal then
      match shift with
      | some s => handleInternal constant byteSized r.1 iter r.2 wdt fillch s
      | none => handleRt constant byteSized .right r.1 iter r.2 wdt fillch
    else handleRt constant byteSized pl r.1 iter r.2 wdt fillch

/-- The fill character that `left`, `middle`, `right` and `internal` with three arguments (width.h:150-239) put into the
manipulator; `byReference`: the argument is neither an alias nor small and trivially copyable. `left` leaves the member out
of the initializer there (width.h:170), which makes it zero. -/
def frontFill (pl : Placement) (byReference : Bool) (ch : Nat) : Nat :=
  if pl = .left ∧ byReference then 0 else ch

/-- `print_define_internal_shift` of an integer (integers/impl.h:1757-1771), where there is one. -/
def intShift (signed showpos : Bool) (t : Int) : Option Nat :=
  if showpos then some 1 else if signed then some (if t < 0 then 1 else 0) else none

/-- An integer as the argument of a manipulator (integers/impl.h:1682-1745). -/
def intItem (bits : Nat) (signed : Bool) (f : IntPrint.Fmt) (t : Int) : Item :=
  .reserve (IntPrint.reserveSize bits signed f.base f.showbase f.showpos)
    (fun m p => IntPrint.printInt bits signed f m p t)

/-! ## `cond` -/

/-- What `cond` (cond.h:22-47) returns: one of its arguments if their types are the same, or a `condition`. -/
inductive Cond where
  | chosen (t : Item)
  | condition (t1 t2 : Item) (pred : Bool)

/-- `cond` (cond.h:22-47); `sz1`, `sz2` are `sizeof` of the two types, `sameType` says that they are the same type. -/
def cond (sameType : Bool) (sz1 sz2 : Nat) (pred : Bool) (t1 t2 : Item) : Cond :=
  if sameType then (if pred then .chosen t1 else .chosen t2)
  else if sz1 < sz2 then .condition t2 t1 (!pred)
  else .condition t1 t2 pred

/-- `cond_print_reserve_size_impl` (cond.h:91-106) and the sizes of the items themselves. -/
def itemSize : Item → Nat
  | .reserve sz _ => sz
  | .scatter _ len => len

/-- The announced size (cond.h:51-65: the larger one if both are static; cond.h:126-138: the chosen one). -/
def condSize (static : Bool) : Cond → Nat
  | .chosen t => itemSize t
  | .condition t1 t2 pred =>
    if static then (if itemSize t1 < itemSize t2 then itemSize t2 else itemSize t1)
    else if pred then itemSize t1 else itemSize t2

/-- Printing it (cond.h:67-79, 108-120, 140-155). -/
def condDefine (constant : Bool) (c : Cond) (m : Mem) (iter : Nat) : Option (Mem × Nat) :=
  match c with
  | .chosen t => writeItem constant t m iter
  | .condition t1 t2 pred => if pred then writeItem constant t1 m iter else writeItem constant t2 m iter

end Verif.Width
