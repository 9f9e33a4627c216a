import Verif.Vec.Lemmas5
/-!
# C40: `fast_io::vector` is a sequence

`Inv k h v l` is the representation invariant; `c40_observers` says what it means to a user of the vector.
-/
namespace Verif.Vec

/-- Memory with nothing in it. -/
def noMemory : Heap := ⟨fun _ => none, 0, fun _ => 0, 0⟩

/-- A vector of a trivially copyable type of four bytes, and of a type with a destructor and a copy constructor that may throw. -/
def plain : Kind := ⟨true, 4, true⟩
def owning : Kind := ⟨false, 8, false⟩

/-- The elements read one after another. -/
def readAll (h : Heap) (v : Vec) : M (List Nat) := (List.range (size v)).mapM (index h v)

/-- What a history that begins with the empty vector leaves. -/
def shows (k : Kind) (ops : List Op) : M (List Nat) := do
  let (h, v) ← run k noMemory .new ops
  readAll h v

/-- What a user sees. -/
structure Sees (h : Heap) (v : Vec) (l : List Nat) : Prop where
  size : size v = l.length
  index : ∀ i, index h v i = if hi : i < l.length then .ok l[i] else .error .terminate
  front : front h v = match l.head? with | some x => .ok x | none => .error .terminate
  back : back h v = match l.getLast? with | some x => .ok x | none => .error .terminate

/-- Every observer of a vector agrees with the sequence it holds, and out-of-range positions end the program. -/
theorem c40_observers (k : Kind) (h : Heap) (v : Vec) (l : List Nat) (inv : Inv k h v l) : Sees h v l := by
  have hs := inv.size
  have e : v.curr - v.first = l.length := by omega
  refine ⟨e, ?_, ?_, ?_⟩
  · intro i
    unfold index
    rw [e]
    by_cases hi : i < l.length
    · rw [if_neg (by omega), dif_pos hi]
      unfold Heap.read; rw [inv.elems i hi]
    · rw [if_pos (by omega), dif_neg hi]
  · unfold front
    cases l with
    | nil => rw [if_pos (by simpa using hs.symm)]; rfl
    | cons x l =>
      rw [if_neg (by simp at hs; omega)]
      have := inv.elems 0 (by simp)
      simp only [Nat.add_zero, List.getElem_cons_zero] at this
      unfold Heap.read; rw [this]; rfl
  · unfold back
    by_cases hl : l = []
    · subst hl; rw [if_pos (by simpa using hs.symm)]; rfl
    · have hp : 0 < l.length := List.length_pos_iff.mpr hl
      rw [if_neg (by omega)]
      have := inv.elems (l.length - 1) (by omega)
      rw [show v.first + (l.length - 1) = v.curr - 1 by omega] at this
      unfold Heap.read; rw [this, List.getLast?_eq_some_getLast hl, List.getLast_eq_getElem]

/-- One operation: the sequence it is to leave, or the end of the program where it is out of range, or the end of the program
because a growth was needed and refused. Nothing outside of the vector's memory changes, and no memory is lost. What is missing: the operations
excluded by `Covered`, which do not do this (`c40_erase_violated`, `c40_erase_range_violated`), and arguments that refer to the
vector itself (`c40_alias_partial`). -/
theorem c40_step_partial (k : Kind) (hk : k.Ok) (h : Heap) (v : Vec) (l : List Nat) (inv : Inv k h v l) (op : Op) (hc : Covered k l op) :
    match op.apply l with
    | none => step k h v op = .error .terminate
    | some l' => (step k h v op = .error .exhausted ∧ Short k h v op) ∨
        ∃ h' v', step k h v op = .ok (h', v') ∧ Inv k h' v' l' ∧ Frame h v h' v' ∧ h'.leaks = h.leaks + lostBy k v l op :=
  step_spec k hk h v l inv op hc

/-- Any history that begins with an empty vector: where all operations are in range, the vector shows the mathematical sequence afterwards and its
destructor gives back all memory, with every element destroyed exactly once unless elements with a destructor were inserted in front of others;
where one is out of range the program is ended. -/
theorem c40_history_partial (k : Kind) (hk : k.Ok) (h : Heap) (hh : ∀ a, h.next ≤ a → h.cells a = none) (ops : List Op)
    (hc : CoveredAll k ops []) :
    match applyAll ops [] with
    | none => run k h .new ops = .error .terminate ∨ run k h .new ops = .error .exhausted
    | some l => run k h .new ops = .error .exhausted ∨ ∃ h' v', run k h .new ops = .ok (h', v') ∧ Sees h' v' l ∧
        (∀ a, a < h.next → h'.cells a = h.cells a) ∧
        ∃ h'', destroy k h' v' = .ok h'' ∧ h''.cells = h.cells ∧ (AtEnd k ops [] → h''.leaks = h.leaks) := by
  have inv : Inv k h .new [] :=
    ⟨rfl, Nat.le_refl _, by simp [Vec.new], fun i hi => by simp at hi, fun a q1 q2 => by simp [Vec.new] at q1 q2, Nat.zero_le _, hh⟩
  have h1 := run_spec k hk ops h .new [] inv hc
  cases hr : applyAll ops [] with
  | none => rw [hr] at h1; exact h1
  | some l =>
    rw [hr] at h1
    simp only at h1 ⊢
    rcases h1 with h1 | ⟨h', v', h1, i1, f1, lk⟩
    · exact Or.inl h1
    · right
      obtain ⟨h'', hd, d1, _, _, d2⟩ := destroy_spec k h' v' l i1
      have hoth : ∀ a, a < h.next → h'.cells a = h.cells a := fun a ha => f1.others a ha (by simp [Vec.new])
      refine ⟨h', v', h1, c40_observers k h' v' l i1, hoth, h'', hd, ?_, fun he => by rw [d1, lk he]⟩
      funext a
      rw [d2]
      by_cases ha : a < h.next
      · have hblk := f1.block
        by_cases q : v'.first ≤ a ∧ a < v'.last
        · exfalso
          rcases hblk with ⟨b1, b2⟩ | b1
          · simp [Vec.new] at b1 b2; omega
          · omega
        · rw [if_neg q]; exact hoth a ha
      · rw [hh a (by omega)]
        by_cases q : v'.first ≤ a ∧ a < v'.last
        · rw [if_pos q]
        · rw [if_neg q]
          by_contra hne
          rcases f1.kept a hne with q' | ⟨q', _⟩
          · exact q q'
          · exact q' (hh a (by omega))

-- a history with every operation it covers, of both kinds
example : CoveredAll plain [.pushBack 1, .insert 0 2, .reserve 9, .pushBack 3, .eraseRange 0 1, .popBack, .shrinkToFit, .clear] [] := by
  simp [CoveredAll, Covered, Op.apply]
example : shows plain [.pushBack 1, .insert 0 2, .reserve 9, .pushBack 3, .eraseRange 0 1, .insert 2 7, .shrinkToFit] = .ok [1, 3, 7] := by
  decide +kernel
example : shows owning [.pushBack 1, .insert 0 2, .reserve 9, .pushBack 3, .eraseRange 0 1, .insert 2 7, .shrinkToFit] = .ok [1, 3, 7] := by
  decide +kernel
example : plain.Ok ∧ owning.Ok := by simp [Kind.Ok, plain, owning]

/-- `reserve(n)` makes room for `n` elements, keeps the elements, and pushing up to the capacity does not move them. -/
theorem c40_reserve (k : Kind) (h : Heap) (v : Vec) (l : List Nat) (inv : Inv k h v l) (n : Nat) (h' : Heap) (v' : Vec)
    (hr : reserve k h v n = .ok (h', v')) :
    n ≤ v'.last - v'.first ∧ Inv k h' v' l ∧
    ∀ x, size v' < v'.last - v'.first → ∃ h'', pushBack k h' v' (.value x) = .ok (h'', { v' with curr := v'.curr + 1 }) := by
  have key : n ≤ v'.last - v'.first ∧ Inv k h' v' l := by
    unfold reserve at hr
    by_cases hn : n ≤ v.last - v.first
    · rw [if_pos hn] at hr
      simp only [Except.ok.injEq, Prod.mk.injEq] at hr
      obtain ⟨rfl, rfl⟩ := hr
      exact ⟨hn, inv⟩
    · rw [if_neg hn] at hr
      have hs := inv.size
      have hcp := inv.cap
      rcases growToSize_spec k h v l inv n (by omega) with ⟨q, _⟩ | ⟨⟨h1, v1, q, i1, _, _⟩, q2⟩
      · rw [q] at hr; exact absurd hr (by simp)
      · have := q2 _ hr
        rw [q] at hr
        simp only [Except.ok.injEq, Prod.mk.injEq] at hr
        obtain ⟨rfl, rfl⟩ := hr
        exact ⟨this, i1⟩
  refine ⟨key.1, key.2, fun x hx => ?_⟩
  have hs := key.2.size
  unfold size at hx
  have hlt : v'.curr < v'.last := by omega
  obtain ⟨r, _, _⟩ := pushBack_room key.2 hlt x
  refine ⟨h'.set v'.curr (.val x), ?_⟩
  unfold pushBack
  rw [if_neg (by omega)]
  simp only [ok_bind, Arg.get, r]

/-- The copy constructor: a second vector with the same sequence, in memory of its own; the original stays as it is. It never runs out of
memory in this model (it asks for no more than the original has). -/
theorem c40_copy (k : Kind) (h : Heap) (v : Vec) (l : List Nat) (inv : Inv k h v l) :
    ∃ h' w, copy k h v = .ok (h', w) ∧ Inv k h' w l ∧ Inv k h' v l ∧ Frame h .new h' w ∧ h'.leaks = h.leaks ∧
      (w.last ≤ v.first ∨ v.last ≤ w.first ∨ w.last = w.first) :=
  copy_spec k h v l inv

/-- The move constructor: the new vector holds the sequence, the old one is empty. -/
theorem c40_move (k : Kind) (h : Heap) (v : Vec) (l : List Nat) (inv : Inv k h v l) :
    Inv k h (move v).1 l ∧ Inv k h (move v).2 [] :=
  ⟨inv, rfl, Nat.le_refl _, by simp [move, Vec.new], fun i hi => by simp at hi, fun a q1 q2 => by simp [move, Vec.new] at q1 q2,
    Nat.zero_le _, inv.fresh⟩

/-- Vectors do not disturb each other: while one is used, every other one keeps its sequence, and their memory stays apart. -/
theorem c40_independent (k : Kind) (h : Heap) (v w : Vec) (lw : List Nat) (h' : Heap) (v' : Vec) (f : Frame h v h' v')
    (hfr : ∀ a, h'.next ≤ a → h'.cells a = none)
    (iw : Inv k h w lw) (hd : w.last ≤ v.first ∨ v.last ≤ w.first) (hcap : v.first ≤ v.last) :
    Inv k h' w lw ∧ (w.last ≤ v'.first ∨ v'.last ≤ w.first) := by
  have hb := iw.below
  have hcw := iw.cap
  have hsw := iw.size
  have hsame : ∀ a, w.first ≤ a → a < w.last → h'.cells a = h.cells a := by
    intro a q1 q2
    exact f.others a (by omega) (by omega)
  refine ⟨⟨iw.size, iw.cap, iw.bytes, ?_, ?_, Nat.le_trans hb f.next, hfr⟩, ?_⟩
  · intro i hi
    rw [hsame _ (by omega) (by omega)]; exact iw.elems i hi
  · intro a q1 q2
    rw [hsame _ (by omega) q2]; exact iw.spare a q1 q2
  · rcases f.block with ⟨b1, b2⟩ | b1
    · rw [b1, b2]; exact hd
    · exact Or.inl (by omega)

-- a copy, an insertion into the copy, and the original afterwards
example : (do
    let (h, v) ← run owning noMemory .new [.pushBack 1, .pushBack 2, .pushBack 3]
    let (h, w) ← copy owning h v
    let (h, w) ← run owning h w [.insert 1 9, .popBack]
    .ok ((← readAll h v), (← readAll h w))) = (.ok ([1, 2, 3], [1, 9, 2]) : M _) := by decide +kernel

/-- The full claim about arguments that are elements of the vector: the value they have when the call is made is inserted. It holds for `push_back` while
there is spare capacity, for `insert` if the element type's copy constructor may throw (the value is made first), and for `insert` behind
the argument while there is spare capacity. What is missing: the other cases, see `c40_alias_violated`. -/
theorem c40_alias_partial (k : Kind) (h : Heap) (v : Vec) (l : List Nat) (inv : Inv k h v l) (j : Nat) (hj : j < l.length) :
    (v.curr < v.last → pushBack k h v (.ref (v.first + j)) = pushBack k h v (.value l[j])) ∧
    (∀ i, k.nothrow = false → emplace k h v (v.first + i) (.ref (v.first + j)) = emplace k h v (v.first + i) (.value l[j])) ∧
    (∀ i, i ≤ l.length → j < i → v.curr < v.last →
      emplace k h v (v.first + i) (.ref (v.first + j)) = emplace k h v (v.first + i) (.value l[j])) := by
  have hs := inv.size
  have hread : h.read (v.first + j) = .ok l[j] := by unfold Heap.read; rw [inv.elems j hj]
  refine ⟨fun hlt => ?_, fun i hk => ?_, fun i hi hji hlt => ?_⟩
  · unfold pushBack
    simp only [show v.curr ≠ v.last by omega, if_false, ok_bind, Arg.get, hread]
  · unfold emplace
    simp only [hk, Bool.false_eq_true, if_false, Arg.get, hread]
  · unfold emplace
    cases hkn : k.nothrow
    · simp only [Bool.false_eq_true, if_false, Arg.get, hread]
    · simp only [if_true]
      unfold makeRoom
      rw [if_neg (by omega)]
      have hmv : ∀ h1, moveBackward k h (v.first + i) v.curr (v.curr + 1) = .ok h1 → h1.read (v.first + j) = .ok l[j] := by
        intro h1 hm
        have := moveBackward_out k h v l inv (by omega) i hi h1 hm (v.first + j) (by omega)
        unfold Heap.read; rw [this, inv.elems j hj]
      cases hm : moveBackward k h (v.first + i) v.curr (v.curr + 1) with
      | error e => rfl
      | ok h1 => simp only [ok_bind, Arg.get, hmv h1 hm]

/-- `erase` of one element does not make the vector shorter: with a trivially copyable type the last element is there twice, with another type the
program destroys the last element a second time. -/
theorem c40_erase_violated :
    (Op.erase 0).apply [1, 2, 3] = some [2, 3] ∧
    shows plain [.pushBack 1, .pushBack 2, .pushBack 3, .erase 0] = .ok [2, 3, 3] ∧
    (do let (h, v) ← run owning noMemory .new [.pushBack 1, .pushBack 2, .pushBack 3, .erase 0]
        readAll h v) = .error .ub ∧
    (do let (h, v) ← run owning noMemory .new [.pushBack 1, .pushBack 2, .pushBack 3, .erase 0]
        let h ← destroy owning h v
        .ok h.leaks) = (.error .ub : M Nat) := by decide +kernel

/-- Erasing a range up to the end by indices ends the program, and so does erasing everything; erasing an empty range of a type with a
destructor destroys the elements behind it. -/
theorem c40_erase_range_violated :
    (Op.eraseRange 1 3).apply [1, 2, 3] = some [1] ∧
    shows plain [.pushBack 1, .pushBack 2, .pushBack 3, .eraseRange 1 3] = .error .terminate ∧
    (Op.eraseRange 0 0).apply [1, 2, 3] = some [1, 2, 3] ∧
    shows owning [.pushBack 1, .pushBack 2, .pushBack 3, .eraseRange 0 0] = .error .ub := by decide +kernel

/-- The element given to `push_back` is read after the memory it lies in has been freed; the element given to `insert` is read after it has been
moved, which yields its neighbour. -/
theorem c40_alias_violated :
    (do let (h, v) ← run plain noMemory .new [.pushBack 1, .pushBack 2]
        let (h, v) ← pushBack plain h v (.ref v.first)
        readAll h v) = .error .ub ∧
    (do let (h, v) ← run plain noMemory .new [.reserve 8, .pushBack 1, .pushBack 2, .pushBack 3]
        let (h, v, _) ← emplace plain h v v.first (.ref (v.first + 2))
        readAll h v) = .ok [2, 1, 2, 3] := by decide +kernel

/-- Inserting in front of elements with a destructor while there is spare capacity overwrites them without calling it: `len - i` objects
are lost. -/
theorem c40_insert_leak_violated :
    (do let (h, v) ← run owning noMemory .new [.reserve 8, .pushBack 1, .pushBack 2, .pushBack 3, .insert 0 9]
        let h' ← destroy owning h v
        .ok (← readAll h v, h'.leaks)) = .ok ([9, 1, 2, 3], 3) := by decide +kernel

end Verif.Vec
