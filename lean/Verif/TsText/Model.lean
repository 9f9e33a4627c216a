import Verif.TsText.Spec
import Verif.Time.TextModel
import Verif.Lc.Model
/-!
# Model of printing and scanning timestamps as decimal numbers

`basic_timestamp` in `fast_io_core_impl/iso/iso8601.h`, its fraction in `iso/isos.h`, and with a locale in
`fast_io_i18n/lc_numbers/integers.h`.
-/
namespace Verif.TsText
open Verif Verif.IntPrint Verif.IntScan Verif.Time

/-- `print_reserve_bsc_timestamp_impl<false>` (iso8601.h:610-617) as called by `print_reserve_define` for every epoch
(iso8601.h:629-637): the seconds since the epoch of the type. -/
def printTs (t : TS) (m : Mem) (iter : Nat) : Option (Mem × Nat) :=
  (printInt 64 true {} m iter t.sec).bind fun s => if t.sub ≠ 0 then printFrac t.sub s else some s

/-- `print_reserve_size` of a timestamp (iso8601.h:282-288); `digits10` of a 64-bit unsigned type is 19. -/
def tsReserve : Nat := reserveSize 64 true 10 false false + 1 + 19

/-- The part of `basic_lc_all` that is used: also `numeric.decimal_point` (`fast_io_i18n/lc.h:66-71`). -/
structure NumericP extends Lc.Numeric where
  point : List Nat

/-- `output_iso8601_subseconds_main` (iso/isos.h:9-18). -/
def fracMain (sub : Nat) (s : Mem × Nat) : Option (Mem × Nat) := do
  let r ← fracStrip 20 sub 19
  let m ← genMain 64 10 false s.1 (s.2 + r.2) r.1 r.2
  some (m, s.2 + r.2)

/-- `print_reserve_define_grouping_timestamp_impl` (`lc_numbers/integers.h:341-357`). -/
def lcPrintTs (nu : NumericP) (t : TS) (m : Mem) (iter : Nat) : Option (Mem × Nat) :=
  (Lc.lcPrintInt nu.toNumeric 64 true {} m iter t.sec).bind fun s =>
    if t.sub ≠ 0 then
      let s := if nu.point.length = 1 then putc (nu.point.headD 0) s else (store s.1 s.2 nu.point, s.2 + nu.point.length)
      fracMain t.sub s
    else some s

/-- `print_reserve_size_grouping_timestamp_impl` (`lc_numbers/integers.h:333-339`). -/
def lcTsReserve (nu : NumericP) : Nat :=
  let s := reserveSize 64 true 10 false false
  s + (s - 1) * nu.sep.length + nu.point.length + 19

/-- The integer scan of the seconds, `scan_int_contiguous_define_impl<10,false,false,false>` (iso8601.h:719). -/
def secCfg (cfg : TCfg) : Cfg := Cfg.mk 64 true 10 false false cfg.cw cfg.simd cfg.sse 2 false

/-- `scn_cnt_define_unix_timestamp_impl<false>` (iso8601.h:715-742): the characters left, the code, the timestamp stored. -/
def scanUnix (cfg : TCfg) (l : List Nat) : Option (List Nat × Code × Option TS) :=
  (scanContig (secCfg cfg) l).bind fun o =>
    if o.code ≠ .ok then some (o.rest, o.code, none)
    else o.value.bind fun sec =>
      match o.rest with
      | [] => some ([], .ok, some ⟨sec, 0⟩)
      | c :: l =>
        if c ≠ 46 then some (c :: l, .invalid, none)
        else (scanFrac cfg l).bind fun f => some (f.1, f.2.1, if f.2.1 = .ok then some ⟨sec, f.2.2⟩ else none)

/-- `scan_contiguous_define` (iso8601.h:1463-1475): other epochs than 1970 are converted after the scan. What is stored when the
scan fails is not modelled. -/
def scanTs (cfg : TCfg) (off : Int) (l : List Nat) : Option (List Nat × Code × Option TS) :=
  (scanUnix cfg l).bind fun r =>
    if off = 0 then some r
    else match r.2.2 with
      | none => some r
      | some t => (convert 0 off t).bind fun t => some (r.1, r.2.1, some t)

end Verif.TsText
