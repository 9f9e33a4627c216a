import Verif.Mmap.Spec
/-!
# Memory-mapped files (model)

`include/fast_io_hosted/platforms/posix_mapping.h` and `omap.h`, on Linux with 64 bit addresses and pages of 4096 bytes.
-/
namespace Verif.Mmap

/-- A page of the address space: memory of the rest of the program, or a page of a file that starts at byte `off` (always a multiple of
4096) with its protection. -/
inductive Page
  | rest
  | file (f off : Nat) (p : Access)
deriving DecidableEq, Repr

/-- The objects (`address_begin`, `address_end`, posix_mapping.h:132) and the address space by page. -/
structure St where
  vars : Nat → Option (Nat × Nat)
  pages : Nat → Option Page

/-- `MAP_FAILED`. -/
def failed : Nat := 2 ^ 64 - 1

/-- Pages that `len` bytes take. -/
def npages (len : Nat) : Nat := (len + 4095) / 4096

/-- `to_posix_file_map_attribute` (posix_mapping.h:102-115) with `MAP_SHARED` (:137). -/
def protOf : Attr → Access
  | .executeRead => ⟨true, false, true, true⟩
  | .executeReadWrite => ⟨true, false, true, true⟩
  | .executeWriteCopy => ⟨false, true, true, true⟩
  | .readOnly => ⟨true, false, false, true⟩
  | .readWrite => ⟨true, true, false, true⟩
  | .writeCopy => ⟨false, true, false, true⟩

/-- The system call `mmap(nullptr,len,prot,flags,fd,off)` (posix_mapping.h:10-46): it refuses empty lengths and offsets that are not multiples
of the page size; otherwise it may refuse, or chooses free pages in user space, not the first page. (`ans`: the first page; other answers do
not occur and count as refusals.) The result is the address. -/
def mmap (s : St) (r : Region) (ans : Option Nat) : Option (St × Nat) :=
  if r.len = 0 ∨ r.off % 4096 ≠ 0 then none
  else
    match ans with
    | none => none
    | some p =>
      if 0 < p ∧ p + npages r.len ≤ 2 ^ 35 ∧ ∀ i < npages r.len, s.pages (p + i) = none then
        some ({ s with pages := fun q =>
          if p ≤ q ∧ q < p + npages r.len then some (.file r.file (r.off + (q - p) * 4096) (protOf r.attr)) else s.pages q }, p * 4096)
      else none

/-- The system call `munmap(addr,len)` (posix_mapping.h:48-56): `false` if it fails; otherwise no page in the range is mapped any more, to
whomever it belonged. -/
def munmap (s : St) (a len : Nat) : St × Bool :=
  if a % 4096 ≠ 0 ∨ len = 0 then (s, false)
  else ({ s with pages := fun q => if a / 4096 ≤ q ∧ q < a / 4096 + npages len then none else s.pages q }, true)

/-- `if(this->address_begin!=MAP_FAILED) sys_munmap(this->address_begin,address_end-address_begin)` (posix_mapping.h:147-148, 246-247). -/
def unmapOpt (s : St) (o : Nat × Nat) : St := if o.1 ≠ failed then (munmap s o.1 (o.2 - o.1)).1 else s

/-- `x` holds `o`. -/
def setVar (s : St) (x : Nat) (o : Option (Nat × Nat)) : St := { s with vars := upd s.vars x o }

/-- One operation: `none`: the program is terminated; the flag says that it took effect (a constructor that throws does not, nor do operations
on objects that do not exist). Constructors: posix_mapping.h:133-144, move assignment: :145-154, `close`: :235-243 (an exception in a
`noexcept` function terminates the program), destructor: :244-248. -/
def step (s : St) : Op → Option (St × Bool)
  | .init x => if s.vars x = none then some (setVar s x (some (0, 0)), true) else some (s, false)
  | .map x r ans =>
    if s.vars x = none then
      match mmap s r ans with
      | none => some (s, false)
      | some (s, a) => some (setVar s x (some (a, a + r.len)), true)
    else some (s, false)
  | .move x y =>
    match s.vars x, s.vars y with
    | none, some o => some (setVar (setVar s x (some o)) y (some (failed, failed)), true)
    | _, _ => some (s, false)
  | .assignMove x y =>
    match s.vars x, s.vars y with
    | some n, some _ =>
      let s := unmapOpt s n
      let s := setVar s x (s.vars y)
      some (setVar s y (some (failed, failed)), true)
    | _, _ => some (s, false)
  | .close x =>
    match s.vars x with
    | some n =>
      if n.1 ≠ failed then
        let r := munmap s n.1 (n.2 - n.1)
        if r.2 then some (setVar r.1 x (some (failed, failed)), true) else none
      else some (s, true)
    | none => some (s, false)
  | .destroy x =>
    match s.vars x with
    | some n => some (setVar (unmapOpt s n) x none, true)
    | none => some (s, false)

/-- A program, with what took effect. -/
def run : St → List Op → Option (St × List (Op × Bool))
  | s, [] => some (s, [])
  | s, op :: ops => (step s op).bind fun r => (run r.1 ops).map fun q => (q.1, (op, r.2) :: q.2)

/-- No object; `base`: the memory of the rest of the program. -/
def start (base : Nat → Bool) : St := ⟨fun _ => none, fun q => if base q then some .rest else none⟩

/-! ## Streams over mappings (`omap.h`) -/

/-- Memory: the byte at an address, if it can be accessed. -/
abbrev Mem := Nat → Option Nat

/-- `begin_ptr`, `curr_ptr`, `end_ptr` as byte addresses (omap.h:11, 78). -/
structure Ptrs where
  b : Nat
  c : Nat
  e : Nat
deriving DecidableEq, Repr

/-- The constructors from a mapping at `a` with `n` bytes (omap.h:13, 81); `w`: size of the character type. -/
def ofMap (w a n o : Nat) : Ptrs := ⟨a + o, a + o, a + o + n / w * w⟩

/-- Loads `n` bytes. -/
def load (m : Mem) (a : Nat) : Nat → Option (List Nat)
  | 0 => some []
  | n + 1 => (m a).bind fun x => (load m (a + 1) n).map (x :: ·)

/-- Stores bytes; every address must be accessible. -/
def store (m : Mem) (a : Nat) : List Nat → Option Mem
  | [] => some m
  | x :: l => if m a = none then none else store (fun q => if q = a then some x else m q) (a + 1) l

/-- `read` into room for `k` characters (omap.h:84-94): what is read, as bytes. `none`: memory that is not mapped is accessed. -/
def read (w : Nat) (m : Mem) (s : Ptrs) (k : Nat) : Option (List Nat × Ptrs) :=
  let remain := (s.e - s.c) / w
  let k := if remain < k then remain else k
  (load m s.c (k * w)).map fun l => (l, { s with c := s.c + k * w })

def readAll (w : Nat) (m : Mem) : Ptrs → List Nat → Option (List (List Nat))
  | _, [] => some []
  | s, k :: ks => (read w m s k).bind fun r => (readAll w m r.2 ks).map (r.1 :: ·)

/-- Result of writing: the program is terminated, or goes on. -/
inductive Wr
  | term
  | done (m : Mem) (s : Ptrs)

/-- `write` of the characters with the bytes `l` (omap.h:25-32, 36-39). -/
def write (w : Nat) (m : Mem) (s : Ptrs) (l : List Nat) : Option Wr :=
  if (s.e - s.c) / w < l.length / w then some .term
  else (store m s.c (l.take (l.length / w * w))).map fun m => .done m { s with c := s.c + l.length / w * w }

def writeAll (w : Nat) : Mem → Ptrs → List (List Nat) → Option Wr
  | m, s, [] => some (.done m s)
  | m, s, l :: ls => (write w m s l).bind fun
    | .term => some .term
    | .done m s => writeAll w m s ls

/-- `written_bytes` (omap.h:15-18). -/
def Ptrs.written (w : Nat) (s : Ptrs) : Nat := (s.c - s.b) / w * w

end Verif.Mmap
