import Verif.DirIter.Spec
/-!
# Directory iteration (model)

`include/fast_io_hosted/filesystem/posix.h`: `posix_directory_iterator`, `basic_posix_recursive_directory_iterator`. File systems do not change
during the iteration. An allocation that fails terminates the program.
-/
namespace Verif.DirIter

/-- An open directory (`DIR*`): its identity, where it is (a ghost), what is in it, and what `readdir` has still to deliver. -/
structure Stream where
  id : Nat
  path : List Name
  full : Listing
  rest : Listing

/-- `struct dirent*` with `d_namlen`: the directory stream the memory belongs to, the bytes of `d_name` with the terminator, `d_type`;
where it is (a ghost). -/
structure Entry where
  home : Nat
  dname : List Nat
  t : Nat
  path : List Name

/-- `basic_posix_recursive_directory_iterator` (posix.h:328-344); the back of the stack comes first. -/
structure It where
  dirp : Stream
  entry : Option Entry
  namlen : Nat
  stack : List Stream

/-- The process: identities of open directories, the next identity, and the answers of the system calls to come (`some e`: fails with
error number `e`; when there are no more, they succeed). -/
structure World where
  opened : List Nat
  next : Nat
  faults : List (Option Nat)

/-- The answer of the next system call. -/
def World.ask (w : World) : Option Nat × World :=
  match w.faults with
  | [] => (none, w)
  | f :: fs => (f, { w with faults := fs })

/-- `closedir`. -/
def World.close (w : World) (id : Nat) : World := { w with opened := w.opened.erase id }

/-- What `readdir` delivers: an error, the end, or an entry. -/
inductive Got where
  | error (e : Nat)
  | eof
  | entry (e : Entry)

/-- The entry with name `n` of type `t` in the buffer of `s`. -/
def Stream.mk' (s : Stream) (n : Name) (t : Nat) : Entry := ⟨s.id, n ++ [0], t, s.path ++ [n]⟩

/-- `readdir(3)`: null and `errno` set, null, or the next entry, in a buffer of the stream. -/
def readdir (s : Stream) (w : World) : Got × Stream × World :=
  match w.ask with
  | (some e, w) => (.error e, s, w)
  | (none, w) =>
    match s.rest with
    | .done => (.eof, s, w)
    | .file n t r => (.entry (s.mk' n t), { s with rest := r }, w)
    | .dir n t _ r => (.entry (s.mk' n t), { s with rest := r }, w)
    | .dot n t r => (.entry (s.mk' n t), { s with rest := r }, w)

/-- The directory called `n` in a listing. -/
def lookup (n : Name) : Listing → Option Listing
  | .done => none
  | .file m _ r => if n = m then none else lookup n r
  | .dir m _ s r => if n = m then some s else lookup n r
  | .dot m _ r => if n = m then none else lookup n r

/-- The string at `d_name`. -/
def cname (l : List Nat) : Name := l.takeWhile (· ≠ 0)

/-- `posix_directory_file(posix_file(posix_fs_dirent{fd,name},open_mode::directory))` (posix.h:397, 85-90): `openat` relative to the
stream `s`, then `fdopendir`; if that fails the destructor of `posix_file` closes the descriptor. Not a directory: error 20. -/
def openSub (s : Stream) (n : Name) (w : World) : (Nat ⊕ Stream) × World :=
  match w.ask with
  | (some e, w) => (.inl e, w)
  | (none, w) =>
    match lookup n s.full with
    | none => (.inl 20, w)
    | some l =>
      match World.ask { w with opened := w.next :: w.opened, next := w.next + 1 } with
      | (some e, w') => (.inl e, w'.close w.next)
      | (none, w') => (.inr ⟨w.next, s.path ++ [n], l, l⟩, w')

/-- How `++` ends. -/
inductive Res where
  | ok
  | threw (e : Nat)
deriving DecidableEq

/-- The stream being read (posix.h:397, 449). -/
def It.cur (it : It) : Stream := it.stack.headD it.dirp

/-- `cstr_len` of the name (posix.h:404). -/
def It.setLen (it : It) : It :=
  match it.entry with
  | none => { it with namlen := 0 }
  | some e => { it with namlen := (cname e.dname).length }

/-- One turn of the loop of `operator++` after an entry was read (posix.h:382-412): `none` goes round again. -/
def afterRead (e : Entry) (it : It) (w : World) : It × World × Option Res :=
  if e.t = 4 then
    if (e.dname.getD 0 0 = 46 ∧ e.dname.getD 1 0 = 0) ∨ (e.dname.getD 0 0 = 46 ∧ e.dname.getD 1 0 = 46 ∧ e.dname.getD 2 0 = 0) then (it, w, none)
    else
      match openSub it.cur (cname e.dname) w with
      | (.inl er, w) => (it, w, some (.threw er))
      | (.inr s, w) => ({ it with stack := s :: it.stack }.setLen, w, some .ok)
  else (it.setLen, w, some .ok)

/-- `operator++` (posix.h:352-414). The loop is counted; `none`: not finished. -/
def incr : Nat → It → World → Option (Res × It × World)
  | 0, _, _ => none
  | n + 1, it, w =>
    match it.stack with
    | [] =>
      match readdir it.dirp w with
      | (.error e, _, w) => some (.threw e, it, w)
      | (.eof, _, w) => some (.ok, { it with entry := none }, w)
      | (.entry e, s, w) =>
        match afterRead e { it with dirp := s, entry := some e } w with
        | (it, w, none) => incr n it w
        | (it, w, some r) => some (r, it, w)
    | s :: ss =>
      match readdir s w with
      | (.error e, _, w) => some (.threw e, it, w)
      | (.eof, s, w) => incr n { it with stack := ss } (w.close s.id)
      | (.entry e, s, w) =>
        match afterRead e { it with stack := s :: ss, entry := some e } w with
        | (it, w, none) => incr n it w
        | (it, w, some r) => some (r, it, w)

/-- `pop` (posix.h:416-429); it is `noexcept`, `some none` terminates the program. -/
def pop (n : Nat) (it : It) (w : World) : Option (Option (It × World)) :=
  match it.stack with
  | [] => some (some ({ it with entry := none, namlen := 0 }, w))
  | s :: ss =>
    match incr n { it with stack := ss } (w.close s.id) with
    | none => none
    | some (.ok, it, w) => some (some (it, w))
    | some (.threw _, _, _) => some none

/-- Comparison with the end (posix.h:454-457). -/
def It.atEnd (it : It) : Bool := it.stack.isEmpty && it.entry.isNone

/-- `begin` of a recursive generator (posix.h:431-439): `rewinddir`, then `++`. -/
def begin' (n : Nat) (s : Stream) (w : World) : Option (Res × It × World) :=
  incr n ⟨{ s with rest := s.full }, none, 0, []⟩ w

/-- What the user sees of the iterator: `filename(*it)`, the directory `at(*it)` and `drt(*it)` refer to (by its path), `depth(it)`
(posix.h:346-350, 447-451, 165-186); whether the memory of the entry is still there; where the entry really is (a ghost). -/
structure Seen where
  name : Name
  at' : List Name
  depth : Nat
  alive : Bool
  path : List Name
deriving DecidableEq

/-- What is seen at the iterator, which is not at the end. -/
def It.see (it : It) (w : World) : Option Seen :=
  it.entry.map fun e => ⟨e.dname.take it.namlen, it.cur.path, it.stack.length, decide (e.home ∈ w.opened), e.path⟩

/-- How a loop over a generator ends: at the end, by an exception, by termination of the program. -/
inductive End where
  | finished
  | threw (e : Nat)
  | terminated
deriving DecidableEq

/-- A user's loop `for(;it!=end;)`, calling `pop` where `leave` says so and `++` otherwise; what is seen. -/
def drive (leave : Seen → Bool) : Nat → It → World → Option (List Seen × End × It × World)
  | 0, _, _ => none
  | n + 1, it, w =>
    if it.atEnd then some ([], .finished, it, w)
    else match it.see w with
      | none => none
      | some v =>
        if leave v then
          match pop n it w with
          | none => none
          | some none => some ([v], .terminated, it, w)
          | some (some (it, w)) => (drive leave n it w).map fun r => (v :: r.1, r.2)
        else
          match incr n it w with
          | none => none
          | some (.threw e, it, w) => some ([v], .threw e, it, w)
          | some (.ok, it, w) => (drive leave n it w).map fun r => (v :: r.1, r.2)

/-- The destructor of the iterator closes the directories of the stack. -/
def destroy (it : It) (w : World) : World := it.stack.foldl (fun w s => w.close s.id) w

/-- `for(auto e:recursive(at(dir)))` with `pop` where `leave` says so; the generator keeps its own stream open. -/
def loop (leave : Seen → Bool) (n : Nat) (s : Stream) (w : World) : Option (List Seen × End × World) :=
  match begin' n s w with
  | none => none
  | some (.threw e, it, w) => some ([], .threw e, destroy it w)
  | some (.ok, it, w) => (drive leave n it w).map fun r => (r.1, r.2.1, destroy r.2.2.1 r.2.2.2)

/-! ## Iteration over one directory, on shared descriptors -/

/-- An open file description of a directory: its entries (name and type) and the position in it. `dup` shares it. -/
structure Ofd where
  ents : List (Name × Nat)
  pos : Nat

/-- A `DIR*` on that description: the entries read ahead. -/
abbrev Buf := List (Name × Nat)

/-- How the system answers to `getdents`: an error, or some entries (`k + 1` if there are as many). -/
inductive Answer where
  | error (e : Nat)
  | block (k : Nat)

/-- `readdir(3)`: entries are taken from the buffer; when it is empty the next ones are got from the system, at the shared position. -/
def readdir1 (o : Ofd) (b : Buf) (as : List Answer) : (Nat ⊕ Option (Name × Nat)) × Ofd × Buf × List Answer :=
  match b with
  | e :: b => (.inr (some e), o, b, as)
  | [] =>
    match as with
    | .error e :: as => (.inl e, o, [], as)
    | .block k :: as =>
      match (o.ents.drop o.pos).take (k + 1) with
      | [] => (.inr none, o, [], as)
      | e :: b => (.inr (some e), { o with pos := o.pos + (b.length + 1) }, b, as)
    | [] =>
      match o.ents.drop o.pos with
      | [] => (.inr none, o, [], [])
      | e :: b => (.inr (some e), { o with pos := o.pos + (b.length + 1) }, b, [])

/-- `rewinddir(3)`: the position of the description, the buffer of the stream. -/
def rewind (o : Ofd) : Ofd × Buf := ({ o with pos := 0 }, [])

/-- The loop `while(it!=end){see(*it);++it;}` of a `posix_directory_iterator` (posix.h:247-270, 281-296), beginning with `++`. -/
def rest1 : Nat → Ofd → Buf → List Answer → Option (List (Name × Nat) × End × Ofd × List Answer)
  | 0, _, _, _ => none
  | n + 1, o, b, as =>
    match readdir1 o b as with
    | (.inl e, o, _, as) => some ([], .threw e, o, as)
    | (.inr none, o, _, as) => some ([], .finished, o, as)
    | (.inr (some e), o, b, as) => (rest1 n o b as).map fun r => (e :: r.1, r.2)

/-- `for(auto e:current(at(dir)))` (posix.h:272-279, 298-301): the descriptor is duplicated, `begin` rewinds. -/
def loop1 (n : Nat) (o : Ofd) (as : List Answer) : Option (List (Name × Nat) × End × Ofd × List Answer) :=
  rest1 n (rewind o).1 (rewind o).2 as

/-- Two such loops, nested: in the first turn of the outer one the inner one runs. What the outer one and the inner one see. -/
def nested (n : Nat) (o : Ofd) (as : List Answer) : Option (List (Name × Nat) × List (Name × Nat)) :=
  match readdir1 (rewind o).1 (rewind o).2 as with
  | (.inr (some e), o, b, as) =>
    (loop1 n o as).bind fun r => (rest1 n r.2.2.1 b r.2.2.2).map fun q => (e :: q.1, r.1)
  | _ => none

end Verif.DirIter
