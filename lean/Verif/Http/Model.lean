import Verif.Line.Model
import Verif.Http.Spec
/-!
# Model of the HTTP header scanner

`include/fast_io_core_impl/http_header.h` and the driver of resumable scanners in
`include/fast_io_core_impl/scan_freestanding.h`.  Character ranges are lists (a suffix of the block stands for the pointer
to its start), the header buffer is an explicit array.  `none`: undefined behaviour.
-/
namespace Verif.Http
open Verif.Line (FindCfg findCh)

/-- `parse_code` values that occur. -/
inductive Code where
  | ok | part | invalid
  deriving Repr, DecidableEq

/-- `basic_http_header_buffer` (`http_header.h:6-34`): `mem` is the array `buffer` of `buffer_size` elements. -/
structure HB where
  mem : List Nat
  len : Nat := 0
  reqEnd : Nat := 0
  codeStart : Nat := 0
  codeEnd : Nat := 0
  reasonStart : Nat := 0
  reasonEnd : Nat := 0
  deriving Repr, DecidableEq

/-- The characters `[a,b)` of the buffer. -/
def HB.slice (h : HB) (a b : Nat) : Option (List Nat) :=
  if a ≤ b ∧ b ≤ h.mem.length then some ((h.mem.drop a).take (b - a)) else none

/-- What printing the buffer shows (`print_alias_define`, `http_header.h:47-51`). -/
def HB.text (h : HB) : Option (List Nat) := h.slice 0 h.len
/-- `request()` (`http_header.h:22-25`). -/
def HB.request (h : HB) : Option (List Nat) := h.slice 0 h.reqEnd
/-- `code()` (`http_header.h:26-29`). -/
def HB.code (h : HB) : Option (List Nat) := h.slice h.codeStart h.codeEnd
/-- `reason()` (`http_header.h:30-33`). -/
def HB.reason (h : HB) : Option (List Nat) := h.slice h.reasonStart h.reasonEnd

/-- `try_copy_into_buffer` (`http_header.h:55-65`). The subtraction is in `std::size_t`; writing outside the array is
undefined. -/
def tryCopy (b : HB) (src : List Nat) : Option (HB × Bool) :=
  let diff := src.length
  let remain := (b.mem.length + 2 ^ 64 - b.len) % 2 ^ 64
  if remain < diff then some (b, false)
  else if b.mem.length < b.len + diff then none
  else some ({ b with mem := b.mem.take b.len ++ src ++ b.mem.drop (b.len + diff), len := b.len + diff }, true)

/-- `determine_http_header_location` (`http_header.h:67-106`). The position `i` is the rest of the header from there; its
offset is `header_length` minus the length of that rest. -/
def determine (cfg : FindCfg) (b : HB) : Option (HB × Code) :=
  (b.slice 0 b.len).bind fun t =>
    if t.head? = some 32 then some (b, .invalid)
    else
      match findCh cfg 32 false t with
      | [] => some (b, .invalid)
      | c :: i =>
        let b := { b with reqEnd := b.len - (c :: i).length }
        let i := findCh cfg 32 true i
        if i = [] then some (b, .invalid)
        else
          let b := { b with codeStart := b.len - i.length }
          let i := findCh cfg 32 false i
          if i = [] then some (b, .invalid)
          else
            let b := { b with codeEnd := b.len - i.length }
            let i := findCh cfg 32 true i
            if i = [] then some (b, .invalid)
            else
              let b := { b with reasonStart := b.len - i.length }
              let i := findCh cfg 13 false i
              if i = [] then some (b, .invalid)
              else some ({ b with reasonEnd := b.len - i.length }, .ok)

/-- Result of `scan_context_define`: the buffer, the state, the rest of the block from the returned position on, and the code. -/
structure Res where
  b : HB
  st : Nat
  rest : List Nat
  code : Code
  deriving Repr, DecidableEq

/-- Copy `[first1,first)` and report that more input is needed, in the given state (the statements
`if(!try_copy_into_buffer(...)) return {first,invalid}; state=..; return {first,partial};`, e.g. `http_header.h:164-170`).
In the cases 1 and 2 of the switch the state is assigned before the copy; after `invalid` the state is not used. -/
def leave (b : HB) (all rest : List Nat) (st : Nat) : Option Res :=
  (tryCopy b (all.take (all.length - rest.length))).bind fun r =>
    if r.2 then some ⟨r.1, st, rest, .part⟩ else some ⟨r.1, st, rest, .invalid⟩

/-- Copy `[first1,first)` and analyse the status line (`http_header.h:153-155`, `208-211`); the state is not used afterwards. -/
def done (cfg : FindCfg) (b : HB) (all rest : List Nat) : Option Res :=
  (tryCopy b (all.take (all.length - rest.length))).bind fun r =>
    if r.2 then (determine cfg r.1).bind fun d => some ⟨d.1, 0, rest, d.2⟩ else some ⟨r.1, 0, rest, .invalid⟩

/-- The loop `for(;;)` of `http_header_scan_context_define_impl` (`http_header.h:160-212`); `all` is the block from
`first1` on, `l` from `first` on. A round that does not advance would repeat for ever (`none`). -/
def scanFrom (cfg : FindCfg) (b : HB) (all : List Nat) (l : List Nat) : Option Res :=
  match findCh cfg 13 false l with
  | [] => leave b all [] 0
  | _ :: [] => leave b all [] 1
  | _ :: c :: r =>
    if c ≠ 10 then some ⟨b, 0, c :: r, .invalid⟩
    else
      match r with
      | [] => leave b all [] 2
      | d :: r =>
        if d ≠ 13 then
          if _h : (d :: r).length < l.length then scanFrom cfg b all (d :: r) else none
        else
          match r with
          | [] => leave b all [] 3
          | e :: r => if e ≠ 10 then some ⟨b, 0, e :: r, .invalid⟩ else done cfg b all r
termination_by l.length

/-- `case 3` of the switch (`http_header.h:148-156`). -/
def case3 (cfg : FindCfg) (b : HB) (all : List Nat) : List Nat → Option Res
  | [] => none
  | c :: r => if c ≠ 10 then scanFrom cfg b all (c :: r) else done cfg b all r

/-- `case 2` (`http_header.h:134-147`). -/
def case2 (cfg : FindCfg) (b : HB) (all : List Nat) : List Nat → Option Res
  | [] => none
  | c :: r =>
    if c ≠ 13 then scanFrom cfg b all (c :: r)
    else if r = [] then leave b all [] 3 else case3 cfg b all r

/-- `case 1` (`http_header.h:120-133`). -/
def case1 (cfg : FindCfg) (b : HB) (all : List Nat) : List Nat → Option Res
  | [] => none
  | c :: r =>
    if c ≠ 10 then scanFrom cfg b all (c :: r)
    else if r = [] then leave b all [] 2 else case2 cfg b all r

/-- `http_header_scan_context_define_impl` (`http_header.h:108-213`). -/
def scanBlock (cfg : FindCfg) (b : HB) (st : Nat) (l : List Nat) : Option Res :=
  if l = [] then some ⟨b, st, [], .part⟩
  else if st = 1 then case1 cfg b l l
  else if st = 2 then case2 cfg b l l
  else if st = 3 then case3 cfg b l l
  else scanFrom cfg b l l

/-- Result of the scan: the buffer, the characters not consumed, the code (`invalid` is thrown). -/
structure Out where
  b : HB
  rest : List Nat
  code : Code
  deriving Repr, DecidableEq

/-- The driver (`scan_context_status_impl`, `scan_freestanding.h:184-222`; for a contiguous stream, `scan_single_impl`,
`281-308`, with one block): blocks until the code is not `partial`; at the end of the stream `scan_context_eof_define`
(`http_header.h:222-226`) reports `invalid`. -/
def scanHeader (cfg : FindCfg) (b : HB) (st : Nat) : List (List Nat) → Option Out
  | [] => some ⟨b, [], .invalid⟩
  | l :: ls =>
    (scanBlock cfg b st l).bind fun r =>
      if r.code = .part then scanHeader cfg r.b r.st ls else some ⟨r.b, r.rest ++ ls.flatten, r.code⟩

/-! ## The line iterator -/

/-- `basic_http_line_generator` (`http_header.h:234-242`), as offsets into the buffer. -/
structure Gen where
  cur : Nat
  last : Nat
  keyEnd : Nat
  valStart : Nat
  valEnd : Nat
  deriving Repr, DecidableEq

/-- `find_ch_impl<ch,findnot>(buffer+a,buffer+b)`, as an offset; a range with `b < a` or beyond the buffer is undefined. -/
def findAt (cfg : FindCfg) (h : HB) (ch : Nat) (nt : Bool) (a b : Nat) : Option Nat :=
  (h.slice a b).bind fun l => some (b - (findCh cfg ch nt l).length)

/-- `line_generator` (`http_header.h:250-256`). -/
def lineGenerator (h : HB) : Gen := ⟨h.reasonEnd, h.len, h.reasonEnd, h.reasonEnd, h.reasonEnd⟩

/-- `operator++` (`http_header.h:258-292`). -/
def advance (cfg : FindCfg) (h : HB) (g : Gen) : Option Gen :=
  let last := g.last
  let cur := g.valEnd
  if (last : Int) - cur ≤ 4 then some ⟨last, last, last, last, last⟩
  else
    (findAt cfg h 10 false cur last).bind fun cur =>
      if cur = last then some ⟨cur, last, last, last, last⟩
      else
        (findAt cfg h 13 false cur last).bind fun lineLast =>
          (findAt cfg h 32 true (cur + 1) lineLast).bind fun cur =>
            (findAt cfg h 58 false cur lineLast).bind fun curr =>
              let keyEnd := curr
              let curr := if curr ≠ lineLast then curr + 1 else curr
              (findAt cfg h 32 true curr lineLast).bind fun curr =>
                some ⟨cur, last, keyEnd, curr, lineLast⟩

/-- `operator*` (`http_header.h:318-322`): key and value. -/
def Gen.deref (h : HB) (g : Gen) : Option (List Nat × List Nat) :=
  (h.slice g.cur g.keyEnd).bind fun k => (h.slice g.valStart g.valEnd).bind fun v => some (k, v)

/-- At most `n` rounds of `for(auto line : line_generator(h))` after `begin()`: the pairs seen and whether the loop has
ended (`operator==`, `http_header.h:306-316`). -/
def collect (cfg : FindCfg) (h : HB) : Nat → Gen → Option (List (List Nat × List Nat) × Bool)
  | 0, g => some ([], g.cur == g.last)
  | n + 1, g =>
    if g.cur = g.last then some ([], true)
    else (g.deref h).bind fun p => (advance cfg h g).bind fun g => (collect cfg h n g).bind fun r => some (p :: r.1, r.2)

/-- The whole loop; `begin` (`http_header.h:294-298`) is an increment. -/
def forFields (cfg : FindCfg) (n : Nat) (h : HB) : Option (List (List Nat × List Nat) × Bool) :=
  (advance cfg h (lineGenerator h)).bind (collect cfg h n)

end Verif.Http
