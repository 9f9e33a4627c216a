import Verif.Ip.Spec
import Verif.IntScan.CtxModel
import Verif.Core.Bytes
/-!
# Model of the internet address printers and scanners

`include/fast_io_core_impl/socket/addrprt.h`, `addrscn.h`. Characters are written to memory (`Verif.Core.Mem`);
a range to be scanned is the list of its characters. `none` is undefined behaviour (here: reading past the end).
-/
namespace Verif.Ip
open Verif Verif.IntPrint Verif.IntScan

/-! ## Printing -/

/-- Write one character and advance. -/
def put (c : Nat) (s : Mem × Nat) : Mem × Nat := (store s.1 s.2 [c], s.2 + 1)

/-- `prtrsv_inaddr_common_define_impl` (addrprt.h:9-22): the loop over the octets; `first` is `i==start`. -/
def prtInaddr : Bool → List Nat → Mem × Nat → Option (Mem × Nat)
  | _, [], s => some s
  | first, o :: os, s =>
    let s := if first then s else put 46 s
    (printInt 8 false {} s.1 s.2 o).bind (prtInaddr false os)

/-- `prtrsv_ipport_define_impl` (addrprt.h:114-120). -/
def prtPort (s : Mem × Nat) (port : Nat) : Option (Mem × Nat) :=
  let s := put 58 s
  printInt 16 false {} s.1 s.2 port

/-- `prtrsv_ipport_zero_define_impl` (addrprt.h:122-145). -/
def prtPortZero (s : Mem × Nat) : Mem × Nat := (store s.1 s.2 [58, 48], s.2 + 2)

/-- `prtrsv_inaddr_define_impl` (addrprt.h:147-156). -/
def prtPosixInAddr (showport : Bool) (s : Mem × Nat) (v : List Nat) : Option (Mem × Nat) :=
  (prtInaddr true v s).map fun s => if showport then prtPortZero s else s

/-- `prtrsv_ipv4_define_impl` (addrprt.h:158-167). -/
def prtIpv4 (showport : Bool) (s : Mem × Nat) (v : List Nat) (port : Nat) : Option (Mem × Nat) :=
  (prtInaddr true v s).bind fun s => if showport then prtPort s port else some s

/-- `for(;j!=e&&*j==0;++j);` (addrprt.h:45-46). -/
def zeroEnd (w : List Nat) (j : Nat) : Nat := j + ((w.drop j).takeWhile (· == 0)).length

theorem le_zeroEnd (w : List Nat) (j : Nat) : j ≤ zeroEnd w j := Nat.le_add_right _ _

/-- The search for the run to abbreviate (addrprt.h:39-66). Pointers are indices; `mp`, `me` are `maxposition`,
`maxposition_end`. -/
def runLoop (w : List Nat) (i mp me : Nat) : Nat × Nat :=
  if h : i < w.length then
    if w[i] = 0 then
      let j := zeroEnd w (i + 1)
      if 1 < j - i ∧ me - mp < j - i then runLoop w j i j else runLoop w j mp me
    else runLoop w (i + 1) mp me
  else (mp, me)
termination_by w.length - i
decreasing_by
  · have := le_zeroEnd w (i + 1); omega
  · have := le_zeroEnd w (i + 1); omega
  · omega

/-- The format of a group (addrprt.h:97, `print_reserve_integral_define<16,false,false,false,uppercase,full>`). -/
def groupFmt (upper full : Bool) : Fmt := { base := 16, upper := upper, full := full }

/-- `::fast_io::big_endian(*i)` (`utils.h`): a byte swap on little-endian machines. -/
def bigEndian (little : Bool) (w : Nat) : Nat := if little then byteSwap 2 w else w

/-- The printing loop of the abbreviated form (addrprt.h:67-101). The fuel bounds the number of iterations; running
out of it (`none`) would be a loop that does not end. -/
def prtShort (little upper full : Bool) (w : List Nat) (mp me : Nat) : Nat → Nat → Mem × Nat → Option (Mem × Nat)
  | 0, _, _ => none
  | fuel + 1, i, s =>
    if i = w.length then some s
    else if mp = i then prtShort little upper full w mp me fuel me (store s.1 s.2 [58, 58], s.2 + 2)
    else (w[i]?).bind fun x =>
      let s := if i ≠ 0 ∧ i ≠ me then put 58 s else s
      (printInt 16 false (groupFmt upper full) s.1 s.2 (bigEndian little x)).bind
        (prtShort little upper full w mp me fuel (i + 1))

/-- The loop of the form with all groups (addrprt.h:103-112). -/
def prtLong (little upper full : Bool) : Bool → List Nat → Mem × Nat → Option (Mem × Nat)
  | _, [], s => some s
  | first, x :: xs, s =>
    let s := if first then s else put 58 s
    (printInt 16 false (groupFmt upper full) s.1 s.2 (bigEndian little x)).bind (prtLong little upper full false xs)

/-- `prtrsv_in6addr_common_define_impl` (addrprt.h:24-112); `w` are the eight words as stored. -/
def prtIn6addr (little shorten upper bracket full : Bool) (w : List Nat) (s : Mem × Nat) : Option (Mem × Nat) :=
  let body := fun s =>
    if shorten then
      let r := runLoop w 0 w.length w.length
      prtShort little upper full w r.1 r.2 (w.length + 1) 0 s
    else prtLong little upper full true w s
  if bracket then (body (put 91 s)).map (put 93) else body s

/-- `prtrsv_inaddr6_define_impl` (addrprt.h:169-178). -/
def prtPosixIn6Addr (little shorten upper bracket showport full : Bool) (w : List Nat) (s : Mem × Nat) :
    Option (Mem × Nat) :=
  (prtIn6addr little shorten upper (if showport then true else bracket) full w s).map fun s =>
    if showport then prtPortZero s else s

/-- `prtrsv_ipv6_define_impl` (addrprt.h:180-189). -/
def prtIpv6 (little shorten upper bracket showport full : Bool) (w : List Nat) (port : Nat) (s : Mem × Nat) :
    Option (Mem × Nat) :=
  (prtIn6addr little shorten upper (if showport then true else bracket) full w s).bind fun s =>
    if showport then prtPort s port else some s

/-- `ip_address` (ip.h:18-26): a union with a flag. -/
inductive IpAddress
  | v4 (octets : List Nat)
  | v6 (words : List Nat)

/-- `prtrsv_ip_address_define_impl` (addrprt.h:191-212) without the port. -/
def prtIpAddress0 (little shorten upper bracket full : Bool) (v : IpAddress) (s : Mem × Nat) : Option (Mem × Nat) :=
  match v with
  | .v4 o => prtInaddr true o s
  | .v6 w => prtIn6addr little shorten upper bracket full w s

/-- `prtrsv_ip_address_define_impl` (addrprt.h:191-212) as called by `print_reserve_define` (addrprt.h:361-366), which
asks for brackets whenever the port is shown. -/
def prtIpAddress (little shorten upper bracket showport full : Bool) (v : IpAddress) (s : Mem × Nat) :
    Option (Mem × Nat) :=
  (prtIpAddress0 little shorten upper (if showport then true else bracket) full v s).map fun s =>
    if showport then prtPortZero s else s

/-- `prtrsv_ip_define_impl` (addrprt.h:214-223). -/
def prtIp (little shorten upper bracket showport full : Bool) (v : IpAddress) (port : Nat) (s : Mem × Nat) :
    Option (Mem × Nat) :=
  (prtIpAddress0 little shorten upper (if showport then true else bracket) full v s).bind fun s =>
    if showport then prtPort s port else some s

/-- `print_reserve_size` (addrprt.h:259-329): what the caller allocates. `portsize`/`v4intsize` are
`print_integer_reserved_size_cache<10,false,false,...>` of 16 and 8 bit types. -/
def ipReserve (v4only showport bracket : Bool) : Nat :=
  let portsize := reserveSize 16 false 10 false false
  let v4intsize := reserveSize 8 false 10 false false
  let v4total := (v4intsize + 1) * 4 - 1
  let v6total := (portsize + 1) * 8 - 1
  if v4only then (if showport then v4total + portsize + 1 else v4total)
  else if showport then v6total + 2 + 2 + portsize
  else if bracket then v6total + 2
  else v6total

/-! ## Scanning IPv4 from contiguous memory -/

/-- What the caller observes of a scan of a `V`. -/
structure Out (V : Type) where
  rest : List Nat
  code : Code
  value : Option V
deriving DecidableEq, Repr

/-- Settings of the integer scans (`scan_int_contiguous_define_impl<10,true,false,false>` into an 8 or 16 bit type).
`extra`: the state's buffer has 6 characters for both types (addrscn.h:26-27). -/
def octetCfg (cw simd : Nat) (sse noskipws : Bool) : Cfg :=
  { bits := 8, signed := false, base := 10, noskipws := noskipws, skipzero := false, cw := cw, simd := simd, sse := sse, extra := 3 }
def portCfg (cw simd : Nat) (sse : Bool) : Cfg :=
  { bits := 16, signed := false, base := 10, noskipws := true, skipzero := false, cw := cw, simd := simd, sse := sse, extra := 1 }

/-- The integer stored by a successful scan. -/
def stored (v : Option Int) : Nat := (v.getD 0).toNat

/-- An octet scanned in the window `[begin,begin+3)` (addrscn.h:48, 60, 74); the window must lie in the text. -/
def octet3 (cfg : Cfg) (l : List Nat) : Option Outcome :=
  if l.length < 3 then none
  else (scanContig cfg (l.take 3)).map fun o => ⟨o.rest ++ l.drop 3, o.code, o.value⟩

/-- `if (ec != ok) return {itr, ec};` and continue behind the number (addrscn.h:49-56). -/
def thenOk {V : Type} (r : Option Outcome) (k : List Nat → Nat → Option (Out V)) : Option (Out V) :=
  r.bind fun o => if o.code ≠ .ok then some ⟨o.rest, o.code, none⟩ else k o.rest (stored o.value)

/-- `if (begin == end || *begin != ch) return {begin, invalid}; ++begin;` (addrscn.h:57-59). -/
def thenChar {V : Type} (ch : Nat) (l : List Nat) (k : List Nat → Option (Out V)) : Option (Out V) :=
  match l with
  | [] => some ⟨[], .invalid, none⟩
  | c :: t => if c ≠ ch then some ⟨c :: t, .invalid, none⟩ else k t

/-- `scn_cnt_define_inaddr_impl` (addrscn.h:44-99). -/
def scnInaddr (cw simd : Nat) (sse : Bool) (l : List Nat) : Option (Out Addr4) :=
  let cfg := octetCfg cw simd sse true
  if l.length < 7 then some ⟨l, .invalid, none⟩
  else thenOk (octet3 cfg l) fun l a => thenChar 46 l fun l =>
    thenOk (octet3 cfg l) fun l b => thenChar 46 l fun l =>
      if l.length < 3 then some ⟨l, .invalid, none⟩
      else thenOk (octet3 cfg l) fun l c => thenChar 46 l fun l =>
        thenOk (scanContig cfg l) fun l d => some ⟨l, .ok, some ⟨a, b, c, d⟩⟩

/-- `scn_cnt_define_port_impl` (addrscn.h:207-217). -/
def scnPort (cw simd : Nat) (sse : Bool) (l : List Nat) : Option (Out Nat) :=
  thenChar 58 l fun l => thenOk (scanContig (portCfg cw simd sse) l) fun l p => some ⟨l, .ok, some p⟩

/-- `scan_contiguous_define` for `ipv4` (addrscn.h:536-550). -/
def scnIpv4 (cw simd : Nat) (sse requireport : Bool) (l : List Nat) : Option (Out (Addr4 × Nat)) :=
  (scnInaddr cw simd sse l).bind fun o =>
    match o.code, o.value with
    | .ok, some x =>
      if requireport then (scnPort cw simd sse o.rest).map fun q => ⟨q.rest, q.code, q.value.map fun p => (x, p)⟩
      else some ⟨o.rest, .ok, some (x, 0)⟩
    | c, _ => some ⟨o.rest, c, none⟩

/-! ## Resumable scanning of IPv4 -/

/-- `scan_ipv4_context_phase` (addrscn.h:6-15) with the two port phases (addrscn.h:32-33). -/
inductive V4Phase | addr0 | dot0 | addr1 | dot1 | addr2 | dot2 | addr3 | portMark | port
deriving DecidableEq, Repr

/-- `ip_scan_state_t` (addrscn.h:23-34) together with the object scanned into. -/
structure V4State where
  int : CtxState := {}
  phase : V4Phase := .addr0
  addr : Addr4 := ⟨0, 0, 0, 0⟩
  port : Nat := 0

/-- Result of one call. -/
structure V4Step where
  st : V4State
  rest : List Nat
  code : Code

/-- One `addrN` case (addrscn.h:106-123, 134-151, 162-179): scan an octet; on success reset the integer scanner and
go on. -/
def ctxOctet (cfg : Cfg) (set : V4State → Nat → V4State) (l : List Nat) (s : V4State)
    (k : V4State → List Nat → Option V4Step) : Option V4Step :=
  if l = [] then some ⟨s, [], .part⟩
  else (ctxStep cfg s.int l).bind fun r =>
    if r.code ≠ .ok then some ⟨{ s with int := r.st }, r.rest, r.code⟩
    else k { set s (stored r.value) with int := ⟨[], .zero⟩ } r.rest

/-- One `dotN` case (addrscn.h:124-133). -/
def ctxDot (next : V4Phase) (l : List Nat) (s : V4State) (k : V4State → List Nat → Option V4Step) : Option V4Step :=
  match l with
  | [] => some ⟨s, [], .part⟩
  | c :: t => if c ≠ 46 then some ⟨s, c :: t, .invalid⟩ else k { s with phase := next } t

/-- Case `addr3` (addrscn.h:190-203): nothing is reset. -/
def ctxAddr3 (cw simd : Nat) (sse : Bool) (s : V4State) (l : List Nat) : Option V4Step :=
  if l = [] then some ⟨s, [], .part⟩
  else (ctxStep (octetCfg cw simd sse true) s.int l).bind fun r =>
    if r.code ≠ .ok then some ⟨{ s with int := r.st }, r.rest, r.code⟩
    else some ⟨{ s with int := r.st, addr := { s.addr with d := stored r.value } }, r.rest, .ok⟩

def ctxDot2 (cw simd : Nat) (sse : Bool) (s : V4State) (l : List Nat) : Option V4Step :=
  ctxDot .addr3 l s (ctxAddr3 cw simd sse)
def ctxAddr2 (cw simd : Nat) (sse : Bool) (s : V4State) (l : List Nat) : Option V4Step :=
  ctxOctet (octetCfg cw simd sse true) (fun s v => { s with addr := { s.addr with c := v }, phase := .dot2 }) l s
    (ctxDot2 cw simd sse)
def ctxDot1 (cw simd : Nat) (sse : Bool) (s : V4State) (l : List Nat) : Option V4Step :=
  ctxDot .addr2 l s (ctxAddr2 cw simd sse)
def ctxAddr1 (cw simd : Nat) (sse : Bool) (s : V4State) (l : List Nat) : Option V4Step :=
  ctxOctet (octetCfg cw simd sse true) (fun s v => { s with addr := { s.addr with b := v }, phase := .dot1 }) l s
    (ctxDot1 cw simd sse)
def ctxDot0 (cw simd : Nat) (sse : Bool) (s : V4State) (l : List Nat) : Option V4Step :=
  ctxDot .addr1 l s (ctxAddr1 cw simd sse)
/-- Case `addr0` skips white space (addrscn.h:106-111: `noskipws` is `false`). -/
def ctxAddr0 (cw simd : Nat) (sse : Bool) (s : V4State) (l : List Nat) : Option V4Step :=
  ctxOctet (octetCfg cw simd sse false) (fun s v => { s with addr := { s.addr with a := v }, phase := .dot0 }) l s
    (ctxDot0 cw simd sse)

/-- `scn_ctx_define_inaddr_impl` (addrscn.h:101-205); the port phases do not occur. -/
def ctxInaddr (cw simd : Nat) (sse : Bool) (s : V4State) (l : List Nat) : Option V4Step :=
  match s.phase with
  | .addr0 => ctxAddr0 cw simd sse s l
  | .dot0 => ctxDot0 cw simd sse s l
  | .addr1 => ctxAddr1 cw simd sse s l
  | .dot1 => ctxDot1 cw simd sse s l
  | .addr2 => ctxAddr2 cw simd sse s l
  | .dot2 => ctxDot2 cw simd sse s l
  | .addr3 => ctxAddr3 cw simd sse s l
  | _ => none

/-- `scan_context_eof_define` for `posix_in_addr` (addrscn.h:599-607). -/
def eofInaddr (cw simd : Nat) (sse : Bool) (s : V4State) : Option (Code × Option Addr4) :=
  if s.phase ≠ .addr3 then some (.eof, none)
  else (scanNoSpace (octetCfg cw simd sse true) s.int.buf).map fun o =>
    (o.code, o.value.map fun v => { s.addr with d := v.toNat })

/-- The driver (`scan_context_status_impl`, `scan_freestanding.h:189-222`) for `posix_in_addr`; see `IntScan.runCtx`. -/
def runInaddr (cw simd : Nat) (sse : Bool) : V4State → List (List Nat) → Option (Out Addr4)
  | s, [] => (eofInaddr cw simd sse s).map fun r => ⟨[], r.1, r.2⟩
  | s, l :: ls => (ctxInaddr cw simd sse s l).bind fun r =>
    if r.code = .part then runInaddr cw simd sse r.st ls
    else some ⟨r.rest ++ ls.flatten, r.code, if r.code = .ok then some r.st.addr else none⟩

/-- `scn_ctx_define_port_impl` (addrscn.h:219-241), case `port`. -/
def ctxPortNum (cw simd : Nat) (sse : Bool) (s : V4State) (l : List Nat) : Option V4Step :=
  if l = [] then some ⟨s, [], .part⟩
  else (ctxStep (portCfg cw simd sse) s.int l).bind fun r =>
    some ⟨{ s with int := r.st, port := if r.code = .ok then stored r.value else s.port }, r.rest, r.code⟩

/-- `scn_ctx_define_port_impl` (addrscn.h:219-241). -/
def ctxPort (cw simd : Nat) (sse : Bool) (s : V4State) (l : List Nat) : Option V4Step :=
  match s.phase with
  | .portMark =>
    match l with
    | [] => some ⟨s, [], .part⟩
    | c :: t => if c ≠ 58 then some ⟨s, c :: t, .invalid⟩ else ctxPortNum cw simd sse { s with phase := .port } t
  | .port => ctxPortNum cw simd sse s l
  | _ => none

/-- `scan_context_define` for `ipv4` (addrscn.h:615-656). -/
def ctxIpv4 (cw simd : Nat) (sse : Bool) (s : V4State) (l : List Nat) : Option V4Step :=
  match s.phase with
  | .portMark => ctxPort cw simd sse s l
  | .port => ctxPort cw simd sse s l
  | _ => (ctxInaddr cw simd sse s l).bind fun r =>
    if r.code ≠ .ok then some r
    else ctxPort cw simd sse { r.st with int := ⟨[], .zero⟩, phase := .portMark } r.rest

/-- `scan_context_eof_define` for `ipv4` (addrscn.h:658-667). -/
def eofIpv4 (cw simd : Nat) (sse : Bool) (s : V4State) : Option (Code × Option (Addr4 × Nat)) :=
  if s.phase ≠ .port then some (.eof, none)
  else (scanNoSpace (portCfg cw simd sse) s.int.buf).map fun o =>
    (o.code, o.value.map fun v => (s.addr, v.toNat))

/-- The driver for `ipv4`. -/
def runIpv4 (cw simd : Nat) (sse : Bool) : V4State → List (List Nat) → Option (Out (Addr4 × Nat))
  | s, [] => (eofIpv4 cw simd sse s).map fun r => ⟨[], r.1, r.2⟩
  | s, l :: ls => (ctxIpv4 cw simd sse s l).bind fun r =>
    if r.code = .part then runIpv4 cw simd sse r.st ls
    else some ⟨r.rest ++ ls.flatten, r.code, if r.code = .ok then some (r.st.addr, r.st.port) else none⟩

/-! ## Scanning IPv6 from contiguous memory -/

/-- Result of `scn_cnt_define_in6addr_4_digits_impl`: position, code, stored word. -/
abbrev GOut := Out Nat

/-- `if constexpr (big_endian) t = retval[0]; else t = retval[0] << 8;` (addrscn.h:281-284 and three more times). -/
def word1 (little : Bool) (r0 : Nat) : Nat := if little then (r0 * 256) % 65536 else r0

/-- `t = retval[0] | retval[1] << 8` on big-endian machines, `t = retval[0] << 8 | retval[1]` on others
(addrscn.h:337-340 and twice more). -/
def word2 (little : Bool) (r0 r1 : Nat) : Nat := if little then (r0 * 256 ||| r1) % 65536 else (r0 ||| r1 * 256) % 65536

/-- `scn_cnt_define_in6addr_4_digits_impl` (addrscn.h:258-378). `retval` bytes are computed modulo 256. -/
def scnGroup (little : Bool) (cw : Nat) (l : List Nat) : Option GOut :=
  match l with
  | [] => some ⟨[], .invalid, none⟩
  | c :: l1 =>
    if c = 58 then some ⟨c :: l1, .eof, none⟩
    else (charDigit cw 16 c).bind fun
      | none => some ⟨c :: l1, .invalid, none⟩
      | some d0 => match l1 with
        | [] => some ⟨[], .ok, some (word1 little d0)⟩
        | c1 :: l2 => (charDigit cw 16 c1).bind fun
          | none => some ⟨c1 :: l2, .ok, some (word1 little d0)⟩
          | some d1 =>
            let r0 := (d0 * 16 + d1) % 256
            match l2 with
            | [] => if d0 = 0 then some ⟨[], .invalid, none⟩ else some ⟨[], .ok, some (word1 little r0)⟩
            | c2 :: l3 => (charDigit cw 16 c2).bind fun
              | none => if d0 = 0 then some ⟨c2 :: l3, .invalid, none⟩ else some ⟨c2 :: l3, .ok, some (word1 little r0)⟩
              | some d2 => match l3 with
                | [] => if d0 = 0 then some ⟨[], .invalid, none⟩ else some ⟨[], .ok, some (word2 little r0 d2)⟩
                | c3 :: l4 => (charDigit cw 16 c3).bind fun
                  | none =>
                    if d0 = 0 then some ⟨c3 :: l4, .invalid, none⟩
                    else some ⟨c3 :: l4, .ok, some (word2 little r0 d2)⟩
                  | some d3 =>
                    let r1 := (d2 * 16 + d3) % 256
                    match l4 with
                    | [] => some ⟨[], .ok, some (word2 little r0 r1)⟩
                    | c4 :: l5 => (charDigit cw 16 c4).bind fun
                      | none => some ⟨c4 :: l5, .ok, some (word2 little r0 r1)⟩
                      | some _ => some ⟨c4 :: l5, .overflow, none⟩

/-- `scn_cnt_define_in6addr_nonshorten_impl` (addrscn.h:424-452): the seven groups followed by `:` and the last one.
`*itr` is read without a test for the end. `n` counts the groups still to be read before the last. -/
def scnLong (little : Bool) (cw : Nat) : Nat → List Nat → List Nat → Option (Out (List Nat))
  | 0, acc, l => (scnGroup little cw l).map fun o =>
    match o.code, o.value with
    | .ok, some x => ⟨o.rest, .ok, some (acc ++ [x])⟩
    | .eof, _ => ⟨o.rest, .invalid, none⟩
    | c, _ => ⟨o.rest, c, none⟩
  | n + 1, acc, l => (scnGroup little cw l).bind fun o =>
    match o.code, o.value with
    | .ok, some x =>
      match o.rest with
      | [] => none
      | c :: t => if c ≠ 58 then some ⟨c :: t, .invalid, none⟩ else scnLong little cw n (acc ++ [x]) t
    | .eof, _ => some ⟨o.rest, .invalid, none⟩
    | c, _ => some ⟨o.rest, c, none⟩

/-- The loop state of `scn_cnt_define_in6addr_shorten_impl` (addrscn.h:383-390): position, `seg_cnt`,
`shorten_begin_index`, `cur_zero_len`, `max_zero_len`, and the words stored so far. -/
structure ShortSt where
  pos : List Nat
  seg : Nat := 0
  shortenBegin : Nat := 0
  curZero : Nat := 0
  maxZero : Nat := 0
  words : List Nat := []
deriving DecidableEq

/-- One iteration of `while (state.seg_cnt < 8)` (addrscn.h:391-421): `.inl` the next state, `.inr` the value
returned. (Falling out of the loop reaches the end of a function without a return statement.) -/
def shortStep (little : Bool) (cw : Nat) (s : ShortSt) : Option (ShortSt ⊕ Out (List Nat)) :=
  if ¬ s.seg < 8 then none
  else (scnGroup little cw s.pos).bind fun o =>
    match o.code, o.value with
    | .ok, some x =>
      if x ≠ 0 then
        if s.maxZero < s.curZero then
          some (.inl { s with pos := o.rest, words := s.words ++ [x], maxZero := s.curZero, curZero := 0, seg := s.seg + 1 })
        else some (.inl { s with pos := o.rest, words := s.words ++ [x], seg := s.seg + 1 })
      else some (.inl { s with pos := o.rest, words := s.words ++ [x], curZero := (s.curZero + 1) % 256, seg := s.seg + 1 })
    | .eof, _ =>
      if s.shortenBegin ≠ 0 then some (.inr ⟨o.rest, .invalid, none⟩) else some (.inl { s with pos := o.rest })
    | c, _ => some (.inr ⟨o.rest, c, none⟩)

/-- The abbreviated scan run for at most `fuel` iterations: outer `none` is undefined behaviour, inner `none` means
still running. -/
def shortRun (little : Bool) (cw : Nat) : Nat → ShortSt → Option (Option (Out (List Nat)))
  | 0, _ => some none
  | fuel + 1, s => (shortStep little cw s).bind fun
    | .inl s' => shortRun little cw fuel s'
    | .inr o => some (some o)

/-- `scn_cnt_define_in6addr_impl` (addrscn.h:461-480) without abbreviation (`allowv6shorten == false`; `requirev6full`
makes no difference, addrscn.h:454-459). White space is skipped before the bracket and again behind it. -/
def scnIn6addr (little : Bool) (cw simd : Nat) (bracket : Bool) (l : List Nat) : Option (Out (List Nat)) :=
  let cfg := octetCfg cw simd false false
  let l := findSpace cfg l
  if bracket then
    match l with
    | [] => some ⟨[], .invalid, none⟩
    | c :: t =>
      if c ≠ 91 then scnLong little cw 7 [] (findSpace cfg (c :: t))
      else (scnLong little cw 7 [] (findSpace cfg t)).bind fun o =>
        if o.code ≠ .ok then some o
        else match o.rest with
          | [] => some ⟨[], .invalid, none⟩
          | c :: t => if c ≠ 93 then some ⟨c :: t, .invalid, none⟩ else some ⟨t, .ok, o.value⟩
  else scnLong little cw 7 [] l

end Verif.Ip
