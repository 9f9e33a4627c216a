import Verif.Vec.Spec
/-!
# Model of `fast_io::vector`

`include/fast_io_dsal/impl/vector.h`, `include/fast_io_dsal/impl/freestanding.h`, `include/fast_io_dsal/impl/common.h`. Addresses count
elements, not bytes. A cell that is not allocated is `none`; an allocated one holds no object, an object that has been moved
from, or an element. Undefined behaviour (access to memory that is not allocated, use of an element that is not there, a
destructor without an object, freeing memory that holds objects of a type with a destructor) is `Fail.ub`. Throwing constructors are not
modelled.
-/
namespace Verif.Vec

inductive Cell where
  | empty | moved | val (x : Nat)
  deriving DecidableEq, Repr

/-- Why a call does not return: `fast_terminate`, no memory, undefined behaviour. -/
inductive Fail where
  | terminate | exhausted | ub
  deriving DecidableEq, Repr

/-- The memory. `next`: nothing is allocated from there on (addresses are never used again); `extra n` is how much more an
`allocate_at_least(n)` returns; `leaks` counts the objects whose memory was reused without their destructor (for types that
have one). -/
structure Heap where
  cells : Nat → Option Cell
  next : Nat
  extra : Nat → Nat
  leaks : Nat

/-- The element type: trivially relocatable (and destructible) or not, `sizeof`, whether the constructor used by `emplace` is
`noexcept`. -/
structure Kind where
  triv : Bool
  size : Nat
  nothrow : Bool

/-- `vector_internal` (vector.h:194-200). -/
structure Vec where
  first : Nat
  curr : Nat
  last : Nat

/-- `vector()` (vector.h:231). -/
def Vec.new : Vec := ⟨0, 0, 0⟩

abbrev M := Except Fail

/-- Writing one cell. -/
def Heap.set (h : Heap) (a : Nat) (c : Cell) : Heap := { h with cells := fun b => if b = a then some c else h.cells b }

/-- Reading an element. -/
def Heap.read (h : Heap) (a : Nat) : M Nat :=
  match h.cells a with
  | some (.val x) => .ok x
  | _ => .error .ub

/-- `std::construct_at`. -/
def construct (k : Kind) (h : Heap) (a x : Nat) : M Heap :=
  match h.cells a with
  | none => .error .ub
  | some .empty => .ok (h.set a (.val x))
  | some _ => .ok { h.set a (.val x) with leaks := if k.triv then h.leaks else h.leaks + 1 }

/-- `std::destroy_at`, or nothing for a type without a destructor. -/
def destroyAt (k : Kind) (h : Heap) (a : Nat) : M Heap :=
  if k.triv then .ok h
  else match h.cells a with
    | some (.val _) => .ok (h.set a .empty)
    | some .moved => .ok (h.set a .empty)
    | _ => .error .ub

/-- `std::destroy` of `n` elements. -/
def destroyN (k : Kind) : Heap → Nat → Nat → M Heap
  | h, _, 0 => .ok h
  | h, a, n + 1 => do destroyN k (← destroyAt k h a) (a + 1) n

/-- Whether `n` cells from `a` on are allocated. -/
def Heap.allocated (h : Heap) (a n : Nat) : Bool := (List.range n).all fun i => (h.cells (a + i)).isSome

/-- `memmove` / `memcpy` of cells. -/
def moveCells (h : Heap) (src n dst : Nat) : M Heap :=
  if h.allocated src n && h.allocated dst n then
    .ok { h with cells := fun a => if dst ≤ a ∧ a < dst + n then h.cells (src + (a - dst)) else h.cells a }
  else .error .ub

/-- The loop of `uninitialized_relocate` (freestanding.h:49-66). -/
def relocateLoop (k : Kind) : Heap → Nat → Nat → Nat → M Heap
  | h, _, 0, _ => .ok h
  | h, src, n + 1, dst => do
    let x ← h.read src
    let h ← construct k (h.set src .moved) dst x
    let h ← destroyAt k h src
    relocateLoop k h (src + 1) n (dst + 1)

/-- `uninitialized_relocate` (freestanding.h:9-68). -/
def relocate (k : Kind) (h : Heap) (src n dst : Nat) : M Heap :=
  if k.triv then moveCells h src n dst else relocateLoop k h src n dst

/-- The loop of `uninitialized_move_backward` (freestanding.h:164-167): `n` elements that end at `last`. -/
def moveBackLoop (k : Kind) : Heap → Nat → Nat → Nat → M Heap
  | h, _, 0, _ => .ok h
  | h, last, n + 1, dlast => do
    let x ← h.read (last - 1)
    let h ← construct k (h.set (last - 1) .moved) (dlast - 1) x
    moveBackLoop k h (last - 1) n (dlast - 1)

/-- `uninitialized_move_backward` (freestanding.h:122-170). -/
def moveBackward (k : Kind) (h : Heap) (first last dlast : Nat) : M Heap :=
  if k.triv then moveCells h first (last - first) (dlast - (last - first))
  else moveBackLoop k h last (last - first) dlast

/-- An allocation of `n` elements with `count` returned; allocators cannot deliver more than `PTRDIFF_MAX` bytes. -/
def allocCount (k : Kind) (h : Heap) (count : Nat) : M (Heap × Nat) :=
  if 2 ^ 63 ≤ count * k.size then .error .exhausted
  else .ok ({ h with cells := fun a => if h.next ≤ a ∧ a < h.next + count then some .empty else h.cells a,
                     next := h.next + count + 1 }, h.next)

/-- `allocate_at_least` (allocation/adapters.h:499-536). -/
def allocAtLeast (k : Kind) (h : Heap) (n : Nat) : M (Heap × Nat × Nat) := do
  let (h', p) ← allocCount k h (n + h.extra n)
  .ok (h', p, n + h.extra n)

/-- `deallocate_n`: the memory must not hold objects with a destructor. -/
def free (k : Kind) (h : Heap) (a n : Nat) : M Heap :=
  if (List.range n).all fun i => match h.cells (a + i) with
      | none => false
      | some .empty => true
      | some _ => k.triv
  then .ok { h with cells := fun b => if a ≤ b ∧ b < a + n then none else h.cells b }
  else .error .ub

/-- `cal_grow_twice_size<size,false>` (common.h:101-129), for types that are not trivially relocatable. -/
def growTwiceSize (size cap : Nat) : M Nat :=
  let mx := (2 ^ 64 - 1) / size
  if cap = mx then .error .terminate
  else if mx / 2 < cap then .ok 1
  else if cap = 0 then .ok size
  else .ok ((cap * 2) % 2 ^ 64)

/-- The capacity `grow_twice_iter_impl` asks for (vector.h:77-101, in bytes there; vector.h:512-530). -/
def twice (k : Kind) (v : Vec) : M Nat :=
  let cap := v.last - v.first
  if k.triv then
    (if cap = 0 then .ok 1 else if 2 ^ 64 ≤ cap * k.size * 2 then .error .exhausted else .ok (cap * 2))
  else growTwiceSize k.size cap

/-- `grow_to_byte_size_iter_impl` (vector.h:28-47) and `grow_to_size_iter_impl` (vector.h:472-507): new memory, the elements in
front of `iter` to its beginning, the others behind a gap. Returns the new place of `iter`. -/
def growTo (k : Kind) (h : Heap) (v : Vec) (newcap iter gap : Nat) : M (Heap × Vec × Nat) := do
  let (h, p, count) ← allocAtLeast k h newcap
  let h ← relocate k h v.first (iter - v.first) p
  let newiter := p + (iter - v.first)
  let h ← relocate k h iter (v.curr - iter) (newiter + gap)
  let h ← free k h v.first (v.last - v.first)
  .ok (h, ⟨p, p + (v.curr - v.first), p + count⟩, newiter)

/-- `grow_to_size_impl` (vector.h:49-72, 556-574): the multiplication of the trivial path ends the program on overflow. -/
def growToSize (k : Kind) (h : Heap) (v : Vec) (newcap : Nat) : M (Heap × Vec) := do
  if k.triv ∧ 2 ^ 64 ≤ newcap * k.size then .error .exhausted
  else
    let (h, v, _) ← growTo k h v newcap v.curr 1
    .ok (h, v)

/-- `grow_twice_impl` (vector.h:107-110, 578-597). -/
def growTwice (k : Kind) (h : Heap) (v : Vec) : M (Heap × Vec) := do
  let n ← twice k v
  let (h, v, _) ← growTo k h v n v.curr 1
  .ok (h, v)

/-- `reserve` (vector.h:600-607). -/
def reserve (k : Kind) (h : Heap) (v : Vec) (n : Nat) : M (Heap × Vec) :=
  if n ≤ v.last - v.first then .ok (h, v) else growToSize k h v n

/-- `shrink_to_fit` (vector.h:609-616). -/
def shrinkToFit (k : Kind) (h : Heap) (v : Vec) : M (Heap × Vec) :=
  if v.curr = v.last then .ok (h, v) else growToSize k h v (v.curr - v.first)

/-- `pop_back` (vector.h:622-629). -/
def popBack (k : Kind) (h : Heap) (v : Vec) : M (Heap × Vec) := do
  if v.curr = v.first then .error .terminate
  else
    let h ← destroyAt k h (v.curr - 1)
    .ok (h, { v with curr := v.curr - 1 })

/-- The argument of an insertion: a value, or a reference to an address (an element of the vector itself). -/
inductive Arg where
  | value (x : Nat)
  | ref (a : Nat)

/-- What is read through it. -/
def Arg.get (h : Heap) : Arg → M Nat
  | .value x => .ok x
  | .ref a => h.read a

/-- `emplace_back` (vector.h:878-892) of one argument of the element type, `push_back` (vector.h:636-643). -/
def pushBack (k : Kind) (h : Heap) (v : Vec) (arg : Arg) : M (Heap × Vec) := do
  let (h, v) ← if v.curr = v.last then growTwice k h v else .ok (h, v)
  let x ← arg.get h
  let h ← construct k h v.curr x
  .ok (h, { v with curr := v.curr + 1 })

/-- `move_backward_common_impl` (vector.h:531-554) and `move_backward_impl` (vector.h:112-123). -/
def makeRoom (k : Kind) (h : Heap) (v : Vec) (iter : Nat) : M (Heap × Vec × Nat) := do
  if v.curr = v.last then
    let n ← twice k v
    growTo k h v n iter 1
  else
    let h ← moveBackward k h iter v.curr (v.curr + 1)
    .ok (h, v, iter)

/-- `emplace` (vector.h:895-942), `insert` (vector.h:957-965), at run time: the value is made before the elements move only
if its constructor may throw. Returns the place of the new element. -/
def emplace (k : Kind) (h : Heap) (v : Vec) (iter : Nat) (arg : Arg) : M (Heap × Vec × Nat) := do
  if k.nothrow then
    let (h, v, p) ← makeRoom k h v iter
    let x ← arg.get h
    let h ← construct k h p x
    .ok (h, { v with curr := v.curr + 1 }, p)
  else
    let x ← arg.get h
    let (h, v, p) ← makeRoom k h v iter
    let h ← construct k h p x
    .ok (h, { v with curr := v.curr + 1 }, p)

/-- `emplace_index` (vector.h:944-955), `insert_index` (vector.h:967-975). -/
def emplaceIndex (k : Kind) (h : Heap) (v : Vec) (idx : Nat) (arg : Arg) : M (Heap × Vec × Nat) :=
  if v.curr - v.first < idx then .error .terminate else emplace k h v (v.first + idx) arg

/-- `erase_common` (vector.h:978-988): what `uninitialized_relocate` returns is not used, the end stays where it was. -/
def eraseCommon (k : Kind) (h : Heap) (v : Vec) (it : Nat) : M (Heap × Vec) := do
  let lastele := v.curr
  let h ← destroyAt k h it
  let h ← relocate k h (it + 1) (lastele - (it + 1)) it
  .ok (h, { v with curr := lastele })

/-- `erase_index` of one element (vector.h:1018-1028). -/
def eraseIndex (k : Kind) (h : Heap) (v : Vec) (idx : Nat) : M (Heap × Vec) :=
  if v.curr - v.first ≤ idx then .error .terminate else eraseCommon k h v (v.first + idx)

/-- `erase_iters_common` (vector.h:990-999). -/
def eraseIters (k : Kind) (h : Heap) (v : Vec) (first last : Nat) : M (Heap × Vec) := do
  let h ← destroyN k h first (last - first)
  let h ← relocate k h last (v.curr - last) first
  .ok (h, { v with curr := first + (v.curr - last) })

/-- `erase_index` of a range (vector.h:1046-1056). -/
def eraseRange (k : Kind) (h : Heap) (v : Vec) (i j : Nat) : M (Heap × Vec) :=
  if j < i ∨ v.curr - v.first ≤ j then .error .terminate else eraseIters k h v (v.first + i) (v.first + j)

/-- `clear` (vector.h:670-677). -/
def clear (k : Kind) (h : Heap) (v : Vec) : M (Heap × Vec) := do
  let h ← destroyN k h v.first (v.curr - v.first)
  .ok (h, { v with curr := v.first })

/-- `destroy` (vector.h:234-246), the destructor (vector.h:457-460). -/
def destroy (k : Kind) (h : Heap) (v : Vec) : M Heap := do
  let (h, v) ← clear k h v
  free k h v.first (v.last - v.first)

/-- The loop of the copy constructor (vector.h:429-433). -/
def copyLoop (k : Kind) : Heap → Nat → Nat → Nat → M Heap
  | h, _, 0, _ => .ok h
  | h, src, n + 1, dst => do
    let x ← h.read src
    let h ← construct k h dst x
    copyLoop k h (src + 1) n (dst + 1)

/-- The copy constructor (vector.h:399-435). -/
def copy (k : Kind) (h : Heap) (v : Vec) : M (Heap × Vec) := do
  let n := v.curr - v.first
  if n = 0 then .ok (h, .new)
  else
    let (h, p) ← allocCount k h n
    let h ← if k.triv then moveCells h v.first n p else copyLoop k h v.first n p
    .ok (h, ⟨p, p + n, p + n⟩)

/-- The move constructor (vector.h:445-449): the new vector and what is left of the old one. -/
def move (v : Vec) : Vec × Vec := (v, .new)

/-- `operator[]` (vector.h:718-742). -/
def index (h : Heap) (v : Vec) (pos : Nat) : M Nat :=
  if v.curr - v.first ≤ pos then .error .terminate else h.read (v.first + pos)

/-- `front` (vector.h:749-773). -/
def front (h : Heap) (v : Vec) : M Nat := if v.first = v.curr then .error .terminate else h.read v.first

/-- `back` (vector.h:779-803). -/
def back (h : Heap) (v : Vec) : M Nat := if v.first = v.curr then .error .terminate else h.read (v.curr - 1)

/-- `size` (vector.h:678-681). -/
def size (v : Vec) : Nat := v.curr - v.first

/-- One operation of a history, through the functions that take indices. -/
def step (k : Kind) (h : Heap) (v : Vec) : Op → M (Heap × Vec)
  | .pushBack x => pushBack k h v (.value x)
  | .popBack => popBack k h v
  | .insert i x => do
    let (h, v, _) ← emplaceIndex k h v i (.value x)
    .ok (h, v)
  | .erase i => eraseIndex k h v i
  | .eraseRange i j => eraseRange k h v i j
  | .reserve n => reserve k h v n
  | .shrinkToFit => shrinkToFit k h v
  | .clear => clear k h v

/-- A history. -/
def run (k : Kind) : Heap → Vec → List Op → M (Heap × Vec)
  | h, v, [] => .ok (h, v)
  | h, v, o :: os => do
    let (h, v) ← step k h v o
    run k h v os

end Verif.Vec
