import Verif.IntScan.Model
/-!
# Model of the resumable integer scanner

`sto_contiguous.h:734-1230` (`scan_context_define_parse_impl`, `scan_context_eof_define_parse_impl`) and its
driver `scan_context_status_impl` (`scan_freestanding.h:185-222`).  `shbase = false` throughout, so the `prefix`
phase does not occur.
-/
namespace Verif.IntScan
open Verif Verif.IntPrint

/-- `scan_integral_context_phase` (`sto_contiguous.h:735-747`). -/
inductive Phase | space | sign | zero | zeroSkip | zeroInvalid | digit | overflow
deriving DecidableEq, Repr

/-- `scan_integer_context` (`sto_contiguous.h:750-770`): the first `size` characters of the buffer, the phase. -/
structure CtxState where
  buf : List Nat := []
  phase : Phase := .space

/-- The capacity of the buffer (`sto_contiguous.h:755-756`):
`print_integer_reserved_size_cache<base,false,signed,unsigned_type>+2`, the 2 being `cfg.extra` (`integers/impl.h:1290-1323`). -/
def ctxCap (cfg : Cfg) : Nat := (if cfg.signed then 1 else 0) + maxIntSize cfg.bits false cfg.base + cfg.extra

/-- Result of one call: new state, unconsumed part of the chunk, code, value stored. -/
structure Step where
  st : CtxState
  rest : List Nat
  code : Code
  value : Option Int

/-- `sc_int_ctx_digit_phase` (`sto_contiguous.h:985-1026`). The returned position is `p-start+first`; it is
undefined if that points in front of `first`. -/
def ctxDigit (cfg : Cfg) (st : CtxState) (l : List Nat) : Option Step :=
  (skipDigits cfg l).bind fun it =>
    let n := l.length - it.length
    if n < ctxCap cfg - st.buf.length then
      let buf' := st.buf ++ l.take n
      if it = [] then some ⟨⟨buf', .digit⟩, [], .part, none⟩
      else if buf' = [] then some ⟨⟨buf', st.phase⟩, it, .ok, some 0⟩
      else (scanNoSpace { cfg with skipzero := false, noskipws := true } buf').bind fun o =>
        let p := buf'.length - o.rest.length
        if p < st.buf.length then none
        else some ⟨⟨buf', st.phase⟩, l.drop (p - st.buf.length), o.code, o.value⟩
    else if it = [] then some ⟨⟨st.buf, .overflow⟩, [], .part, none⟩
    else some ⟨st, it, .overflow, none⟩

/-- `sc_int_ctx_zero_phase` (`sto_contiguous.h:937-982`) followed by the treatment of its result
(`1128-1158`); `phase0` is the phase at entry of the whole call. -/
def ctxZero (cfg : Cfg) (st : CtxState) (phase0 : Phase) (l : List Nat) : Option Step :=
  match l with
  | [] => some ⟨⟨st.buf, .zero⟩, [], .part, none⟩
  | c :: t => (charDigit cfg.cw cfg.base c).bind fun
    | none =>
      if cfg.skipzero ∧ phase0 = .zeroSkip then some ⟨st, c :: t, .ok, some 0⟩
      else some ⟨st, c :: t, .invalid, none⟩
    | some _ =>
      if c = 48 then
        let t' := if cfg.skipzero then findNoneZero cfg t else t
        match t' with
        | [] => some ⟨⟨st.buf, if cfg.skipzero then .zeroSkip else .zeroInvalid⟩, [], .part, none⟩
        | c' :: t'' => (charDigit cfg.cw cfg.base c').bind fun
          | none => some ⟨st, c' :: t'', .ok, some 0⟩
          | some _ => if cfg.skipzero then ctxDigit cfg st (c' :: t'') else some ⟨st, c' :: t'', .invalid, none⟩
      else ctxDigit cfg st (c :: t)

/-- `sc_int_ctx_sign_phase<true,false>` (`sto_contiguous.h:784-838`) for signed types, then the zero phase. -/
def ctxSign (cfg : Cfg) (st : CtxState) (phase0 : Phase) (l : List Nat) : Option Step :=
  if cfg.signed then
    match l with
    | [] => some ⟨⟨st.buf, .sign⟩, [], .part, none⟩
    | c :: t => if c = 45 then ctxZero cfg ⟨[45], st.phase⟩ phase0 t else ctxZero cfg st phase0 (c :: t)
  else ctxZero cfg st phase0 l

/-- `sc_int_ctx_zero_invalid_phase` (`sto_contiguous.h:1028-1041`): note `++first` *before* the character is
looked at. -/
def ctxZeroInvalid (cfg : Cfg) (st : CtxState) (l : List Nat) : Option Step :=
  match l with
  | [] => some ⟨st, [], .part, none⟩
  | [_] => none
  | _ :: c :: t => (charDigit cfg.cw cfg.base c).bind fun
    | none => some ⟨st, c :: t, .ok, some 0⟩
    | some _ => some ⟨st, c :: t, .invalid, none⟩

/-- `sc_int_ctx_skip_digits_phase` (`sto_contiguous.h:1043-1048`). -/
def ctxSkip (cfg : Cfg) (st : CtxState) (l : List Nat) : Option Step :=
  (skipDigits cfg l).bind fun r => some ⟨st, r, if r = [] then .part else .invalid, none⟩

/-- `scan_context_define_parse_impl` (`sto_contiguous.h:1050-1188`). -/
def ctxStep (cfg : Cfg) (st : CtxState) (l : List Nat) : Option Step :=
  match st.phase with
  | .space =>
    if cfg.noskipws then ctxSign cfg st .space l
    else
      let l' := findSpace cfg l
      if l' = [] then some ⟨st, [], .part, none⟩ else ctxSign cfg st .space l'
  | .sign => ctxSign cfg st .sign l
  | .zero => ctxZero cfg st .zero l
  | .zeroSkip => ctxZero cfg st .zeroSkip l
  | .digit => ctxDigit cfg st l
  | .zeroInvalid => if cfg.skipzero then some ⟨st, l, .invalid, none⟩ else ctxZeroInvalid cfg st l
  | .overflow => ctxSkip cfg st l

/-- `scan_context_eof_define_parse_impl` (`sto_contiguous.h:1190-1230`): code and value. -/
def ctxEof (cfg : Cfg) (st : CtxState) : Option (Code × Option Int) :=
  match st.phase with
  | .space => some (if cfg.noskipws then .invalid else .eof, none)
  | .digit => (scanNoSpace { cfg with skipzero := false, noskipws := true } st.buf).map fun o => (o.code, o.value)
  | .overflow => some (.overflow, none)
  | .zeroSkip => some (.ok, some 0)
  | .zeroInvalid => some (.ok, some 0)
  | _ => some (.invalid, none)

/-- The driver (`scan_context_status_impl`, `scan_freestanding.h:189-222`): feed the buffer contents of successive
refills until the scanner stops asking for more; at end of file call the end-of-file function. A refill
discards whatever was left in the old buffer. The unconsumed input is what is left of the current buffer and
all the later ones. -/
def runCtx (cfg : Cfg) : CtxState → List (List Nat) → Option Outcome
  | st, [] => (ctxEof cfg st).map fun r => ⟨[], r.1, r.2⟩
  | st, l :: ls => (ctxStep cfg st l).bind fun s =>
    if s.code = .part then runCtx cfg s.st ls else some ⟨s.rest ++ ls.flatten, s.code, s.value⟩

end Verif.IntScan
