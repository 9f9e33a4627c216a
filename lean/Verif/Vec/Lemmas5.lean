import Verif.Vec.Lemmas4
/-! Histories, copies and destruction of `Verif.Vec`. -/
namespace Verif.Vec

/-- The operations whose behaviour is that of a sequence, in a state `l`: not the erasure of one element, not the erasure of a
range that ends at the end, not the erasure of an empty range of elements with a destructor. -/
def Covered (k : Kind) (l : List Nat) : Op → Prop
  | .erase i => l.length ≤ i
  | .eraseRange i j => j ≠ l.length ∧ (i ≠ j ∨ k.triv = true)
  | _ => True

/-- An allocation of `m` elements for some `m` up to `n` is refused. -/
def Refused (k : Kind) (h : Heap) (n : Nat) : Prop := ∃ m, m ≤ n ∧ 2 ^ 63 ≤ (m + h.extra m) * k.size

/-- The only reasons for which an operation may run out of memory. -/
def Short (k : Kind) (h : Heap) (v : Vec) : Op → Prop
  | .pushBack _ => v.curr = v.last ∧ Refused k h (max (2 * (v.last - v.first)) (max 1 k.size))
  | .insert _ _ => v.curr = v.last ∧ Refused k h (max (2 * (v.last - v.first)) (max 1 k.size))
  | .reserve n => v.last - v.first < n ∧ Refused k h n
  | .shrinkToFit => v.curr ≠ v.last ∧ Refused k h (v.curr - v.first)
  | _ => False

/-- Objects lost by an operation. -/
def lostBy (k : Kind) (v : Vec) (l : List Nat) : Op → Nat
  | .insert i _ => lost k v l i
  | _ => 0

theorem step_spec (k : Kind) (hk : k.Ok) (h : Heap) (v : Vec) (l : List Nat) (inv : Inv k h v l) (op : Op) (hc : Covered k l op) :
    match op.apply l with
    | none => step k h v op = .error .terminate
    | some l' => (step k h v op = .error .exhausted ∧ Short k h v op) ∨ Gives k h v l' (lostBy k v l op) (step k h v op) := by
  have hs := inv.size
  have hcp := inv.cap
  cases op with
  | pushBack x =>
    simp only [Op.apply, step, lostBy]
    rcases pushBack_spec k hk h v l inv x with ⟨h1, h2, h3⟩ | h1
    · exact Or.inl ⟨h1, h2, h3⟩
    · exact Or.inr h1
  | popBack =>
    have := popBack_spec k h v l inv
    simp only [Op.apply, step, lostBy]
    by_cases hl : l = []
    · rw [if_pos hl] at this; simp only [hl, if_true]; exact this
    · rw [if_neg hl] at this; simp only [hl, if_false]; exact Or.inr this
  | insert i x =>
    simp only [Op.apply, step, lostBy, emplaceIndex]
    by_cases hi : i ≤ l.length
    · simp only [hi, if_true]
      rw [if_neg (by omega)]
      rcases emplace_spec k hk h v l inv i x hi with ⟨h1, h2, h3⟩ | ⟨h', v', p, h1, _, h3, h4, h5⟩
      · left; rw [h1]; exact ⟨rfl, h2, h3⟩
      · right; rw [h1]; exact ⟨h', v', rfl, h3, h4, h5⟩
    · simp only [hi, if_false]
      rw [if_pos (by omega)]; rfl
  | erase i =>
    simp only [Covered] at hc
    simp only [Op.apply, step, eraseIndex]
    rw [if_neg (by omega), if_pos (by omega)]
  | eraseRange i j =>
    simp only [Covered] at hc
    simp only [Op.apply, step, eraseRange, lostBy]
    by_cases hij : i ≤ j ∧ j ≤ l.length
    · simp only [hij, and_self, if_true]
      rw [if_neg (by omega)]
      right
      exact eraseIters_spec k h v l inv i j hij.1 hij.2 (by
        rcases hc.2 with h1 | h1
        · exact Or.inl (by omega)
        · exact Or.inr (Or.inl h1))
    · rw [if_neg hij, if_pos (by omega)]
  | reserve n =>
    simp only [Op.apply, step, reserve, lostBy]
    by_cases hn : n ≤ v.last - v.first
    · rw [if_pos hn]
      exact Or.inr ⟨h, v, rfl, inv, Frame.refl h v, rfl⟩
    · rw [if_neg hn]
      rcases growToSize_spec k h v l inv n (by omega) with ⟨h1, h2⟩ | h1
      · exact Or.inl ⟨h1, by omega, n, Nat.le_refl _, h2⟩
      · exact Or.inr h1.1
  | shrinkToFit =>
    simp only [Op.apply, step, shrinkToFit, lostBy]
    by_cases hn : v.curr = v.last
    · rw [if_pos hn]
      exact Or.inr ⟨h, v, rfl, inv, Frame.refl h v, rfl⟩
    · rw [if_neg hn]
      rcases growToSize_spec k h v l inv (v.curr - v.first) (by omega) with ⟨h1, h2⟩ | h1
      · exact Or.inl ⟨h1, hn, _, Nat.le_refl _, h2⟩
      · exact Or.inr h1.1
  | clear =>
    simp only [Op.apply, step, lostBy]
    exact Or.inr (clear_spec k h v l inv).1

/-- A history of sequences. -/
def applyAll : List Op → List Nat → Option (List Nat)
  | [], l => some l
  | o :: os, l => (o.apply l).bind (applyAll os)

/-- Every operation of the history is covered where it happens. -/
def CoveredAll (k : Kind) : List Op → List Nat → Prop
  | [], _ => True
  | o :: os, l => Covered k l o ∧ ∀ l', o.apply l = some l' → CoveredAll k os l'

/-- No operation of the history inserts in front of an element, or the elements have no destructor. -/
def AtEnd (k : Kind) : List Op → List Nat → Prop
  | [], _ => True
  | o :: os, l => (k.triv = true ∨ ∀ i x, o = .insert i x → l.length ≤ i) ∧ ∀ l', o.apply l = some l' → AtEnd k os l'

theorem run_spec (k : Kind) (hk : k.Ok) : ∀ (ops : List Op) (h : Heap) (v : Vec) (l : List Nat), Inv k h v l →
    CoveredAll k ops l →
    match applyAll ops l with
    | none => run k h v ops = .error .terminate ∨ run k h v ops = .error .exhausted
    | some l' => run k h v ops = .error .exhausted ∨ ∃ h' v', run k h v ops = .ok (h', v') ∧ Inv k h' v' l' ∧ Frame h v h' v' ∧
        (AtEnd k ops l → h'.leaks = h.leaks)
  | [], h, v, l, inv, _ => Or.inr ⟨h, v, rfl, inv, Frame.refl h v, fun _ => rfl⟩
  | o :: os, h, v, l, inv, hc => by
    have h1 := step_spec k hk h v l inv o hc.1
    simp only [applyAll, run]
    cases ho : o.apply l with
    | none =>
      rw [ho] at h1
      simp only at h1
      rw [h1]
      exact Or.inl rfl
    | some l1 =>
      rw [ho] at h1
      simp only at h1
      simp only [Option.bind_some]
      rcases h1 with ⟨h1, _⟩ | ⟨h', v', h1, i1, f1, lk⟩
      · rw [h1]
        simp only [error_bind]
        cases applyAll os l1 <;> simp
      · have h2 := run_spec k hk os h' v' l1 i1 (hc.2 l1 ho)
        rw [h1]
        simp only [ok_bind]
        cases hr : applyAll os l1 with
        | none => rw [hr] at h2; exact h2
        | some l2 =>
          rw [hr] at h2
          simp only at h2 ⊢
          rcases h2 with h2 | ⟨h'', v'', h2, i2, f2, lk2⟩
          · exact Or.inl h2
          · refine Or.inr ⟨h'', v'', h2, i2, f1.trans f2, fun he => ?_⟩
            rw [lk2 (he.2 l1 ho), lk]
            suffices lostBy k v l o = 0 by omega
            cases o with
            | insert i x =>
              simp only [lostBy, lost]
              rcases he.1 with ht | ht
              · rw [if_neg (by simp [ht])]
              · have := ht i x rfl
                split <;> omega
            | _ => rfl

/-- The destructor. -/
theorem destroy_spec (k : Kind) (h : Heap) (v : Vec) (l : List Nat) (inv : Inv k h v l) :
    ∃ h', destroy k h v = .ok h' ∧ h'.leaks = h.leaks ∧ h'.next = h.next ∧ h'.extra = h.extra ∧
      ∀ a, h'.cells a = if v.first ≤ a ∧ a < v.last then none else h.cells a := by
  have hcp := inv.cap
  have hs := inv.size
  obtain ⟨h1, r, m, c⟩ := destroyN_spec k l h v.first inv.elems
  have e : v.curr - v.first = l.length := by omega
  have hold : ∀ a, v.first ≤ a → a < v.last → ∃ c, h1.cells a = some c ∧ (k.triv = false → c = .empty) := by
    intro a q1 q2
    rw [c]
    by_cases h3 : k.triv = false ∧ v.first ≤ a ∧ a < v.first + l.length
    · rw [if_pos h3]; exact ⟨_, rfl, fun _ => rfl⟩
    · rw [if_neg h3]
      by_cases h4 : a < v.curr
      · rw [inv.cell a q1 h4]
        exact ⟨_, rfl, fun hh => absurd ⟨hh, q1, by omega⟩ h3⟩
      · exact inv.spare a (by omega) q2
  have hfree : free k h1 v.first (v.last - v.first) = .ok { h1 with cells := fun b => if v.first ≤ b ∧ b < v.first + (v.last - v.first) then none else h1.cells b } := by
    unfold free
    rw [if_pos]
    rw [List.all_eq_true]
    intro j hj
    rw [List.mem_range] at hj
    obtain ⟨c, hc, he⟩ := hold (v.first + j) (by omega) (by omega)
    rw [hc]
    cases hk : k.triv
    · rw [he hk]
    · cases c <;> rfl
  refine ⟨{ h1 with cells := fun b => if v.first ≤ b ∧ b < v.first + (v.last - v.first) then none else h1.cells b }, ?_, m.2.2, m.1, m.2.1, ?_⟩
  · unfold destroy clear
    rw [e, r]
    simp only [ok_bind]
    exact hfree
  · intro a
    simp only []
    by_cases q : v.first ≤ a ∧ a < v.last
    · rw [if_pos q, if_pos (by omega)]
    · rw [if_neg q, if_neg (by omega), c, if_neg (by omega)]

theorem copyLoop_spec (k : Kind) : ∀ (l : List Nat) (h : Heap) (src dst : Nat), src + l.length ≤ dst → At h src l →
    (∀ i, i < l.length → h.cells (dst + i) = some .empty) →
    ∃ h', copyLoop k h src l.length dst = .ok h' ∧ SameMeta h h' ∧
      ∀ a, h'.cells a = if dst ≤ a ∧ a < dst + l.length then some (.val (l.getD (a - dst) 0)) else h.cells a
  | [], h, src, dst, _, _, _ => ⟨h, rfl, SameMeta.refl h, fun a => by rw [List.length_nil, if_neg (by omega)]⟩
  | x :: l, h, src, dst, ho, hs, hd => by
    simp only [List.length_cons] at ho hd
    have h0 : h.cells src = some (.val x) := by
      have := hs 0 (by simp)
      simp only [Nat.add_zero, List.getElem_cons_zero] at this
      exact this
    have hd0 : h.cells dst = some .empty := by simpa using hd 0 (by omega)
    obtain ⟨h', r, m, c⟩ := copyLoop_spec k l (h.set dst (.val x)) (src + 1) (dst + 1) (by omega)
      (by
        intro i hi
        have := hs (i + 1) (by simp; omega)
        simp only [List.getElem_cons_succ] at this
        simp only [Heap.set]
        rw [if_neg (by omega), show src + 1 + i = src + (i + 1) by omega, this])
      (by
        intro i hi
        simp only [Heap.set]
        rw [if_neg (by omega), show dst + 1 + i = dst + (i + 1) by omega]
        exact hd (i + 1) (by omega))
    refine ⟨h', ?_, m, ?_⟩
    · simp only [List.length_cons, copyLoop, Heap.read, h0, ok_bind]
      rw [construct_good k h dst x ⟨_, hd0, fun _ => rfl⟩]
      simp only [ok_bind, r]
    · intro a
      rw [c]
      simp only [List.length_cons, Heap.set]
      by_cases h1 : dst + 1 ≤ a ∧ a < dst + 1 + l.length
      · rw [if_pos h1, if_pos (by omega), show a - dst = (a - (dst + 1)) + 1 by omega]; simp
      · rw [if_neg h1]
        by_cases h2 : a = dst
        · subst h2; rw [if_pos rfl, if_pos (by omega)]; simp
        · rw [if_neg h2, if_neg (by omega)]

/-- The memory after an allocation. -/
def freshHeap (h : Heap) (n : Nat) : Heap :=
  { h with cells := fun a => if h.next ≤ a ∧ a < h.next + n then some .empty else h.cells a, next := h.next + n + 1 }

/-- The copy constructor: the copy holds the sequence, the original and everything else is untouched. -/
theorem copy_spec (k : Kind) (h : Heap) (v : Vec) (l : List Nat) (inv : Inv k h v l) :
    ∃ h' w, copy k h v = .ok (h', w) ∧ Inv k h' w l ∧ Inv k h' v l ∧ Frame h .new h' w ∧ h'.leaks = h.leaks ∧
      (w.last ≤ v.first ∨ v.last ≤ w.first ∨ w.last = w.first) := by
  have hs := inv.size
  have hcp := inv.cap
  have hbl := inv.below
  unfold copy
  have e : v.curr - v.first = l.length := by omega
  simp only []
  rw [e]
  by_cases h0 : l.length = 0
  · rw [if_pos h0]
    have hl : l = [] := List.length_eq_zero_iff.mp h0
    subst hl
    refine ⟨h, .new, rfl, ⟨rfl, Nat.le_refl _, by simp [Vec.new], ?_, ?_, Nat.zero_le _, inv.fresh⟩, inv, Frame.refl _ _, rfl,
      Or.inr (Or.inr rfl)⟩
    · intro i hi; simp at hi
    · intro a q1 q2; simp [Vec.new] at q1 q2
  · rw [if_neg h0]
    have hsz : ¬ 2 ^ 63 ≤ l.length * k.size := by
      have : l.length * k.size ≤ (v.last - v.first) * k.size := Nat.mul_le_mul_right _ (by omega)
      have := inv.bytes
      omega
    have hal : allocCount k h l.length = .ok (freshHeap h l.length, h.next) := by
      unfold allocCount; rw [if_neg hsz]; rfl
    have hcopy : ∃ h2, (if k.triv = true then moveCells (freshHeap h l.length) v.first l.length h.next
          else copyLoop k (freshHeap h l.length) v.first l.length h.next) = .ok h2 ∧
        SameMeta (freshHeap h l.length) h2 ∧
        ∀ a, h2.cells a = if h.next ≤ a ∧ a < h.next + l.length then some (.val (l.getD (a - h.next) 0)) else h.cells a := by
      generalize hh1 : freshHeap h l.length = h1
      have hat : At h1 v.first l := by
        intro j hj
        rw [← hh1]; simp only [freshHeap]
        rw [if_neg (by omega)]; exact inv.elems j hj
      have hemp : ∀ i, i < l.length → h1.cells (h.next + i) = some .empty := by
        intro j hj
        rw [← hh1]; simp only [freshHeap]
        rw [if_pos (by omega)]
      have hout : ∀ a, ¬ (h.next ≤ a ∧ a < h.next + l.length) → h1.cells a = h.cells a := by
        intro a ha; rw [← hh1]; simp only [freshHeap]; rw [if_neg ha]
      have key : ∃ h2, (if k.triv = true then moveCells h1 v.first l.length h.next else copyLoop k h1 v.first l.length h.next) = .ok h2 ∧
          SameMeta h1 h2 ∧
          ∀ a, h2.cells a = if h.next ≤ a ∧ a < h.next + l.length then some (.val (l.getD (a - h.next) 0)) else h1.cells a := by
        split
        · apply moveCells_spec h1 l _ _ hat
          intro i hi; rw [hemp i hi]; rfl
        · exact copyLoop_spec k l h1 _ _ (by omega) hat hemp
      obtain ⟨h2, a1, a2, a3⟩ := key
      refine ⟨h2, a1, a2, fun a => ?_⟩
      rw [a3]
      by_cases q : h.next ≤ a ∧ a < h.next + l.length
      · rw [if_pos q, if_pos q]
      · rw [if_neg q, if_neg q, hout a q]
    obtain ⟨h2, r2, m2, c2⟩ := hcopy
    obtain ⟨m1, m3, m4⟩ := m2
    simp only [freshHeap] at m1 m3 m4
    refine ⟨h2, ⟨h.next, h.next + l.length, h.next + l.length⟩, by
      rw [hal]
      simp only [ok_bind]
      by_cases hkt : k.triv = true
      · rw [if_pos hkt] at r2 ⊢; rw [r2]; rfl
      · rw [if_neg hkt] at r2 ⊢; rw [r2]; rfl, ⟨rfl, Nat.le_refl _, ?_, ?_, ?_, ?_, ?_⟩, ⟨hs, hcp, inv.bytes, ?_, ?_, by omega, ?_⟩, ⟨by omega, m3, ?_, ?_, ?_⟩, m4, ?_⟩
    · simp only []
      rw [show h.next + l.length - h.next = l.length by omega]; omega
    · intro j hj
      simp only []
      rw [c2, if_pos (by omega)]; simp [hj]
    · intro a q1 q2; simp only [] at q1 q2; omega
    · simp only []; omega
    · intro a ha; rw [c2, if_neg (by omega)]; exact inv.fresh a (by omega)
    · intro j hj; rw [c2, if_neg (by omega)]; exact inv.elems j hj
    · intro a q1 q2; rw [c2, if_neg (by omega)]; exact inv.spare a q1 q2
    · intro a ha; rw [c2, if_neg (by omega)]; exact inv.fresh a (by omega)
    · intro a ha _; rw [c2, if_neg (by omega)]
    · intro a ha
      simp only [Vec.new]
      by_cases q : h.next ≤ a ∧ a < h.next + l.length
      · exact Or.inl q
      · rw [c2, if_neg q] at ha
        exact Or.inr ⟨ha, by omega⟩
    · exact Or.inr (Nat.le_refl _)
    · simp only []; omega

end Verif.Vec
