import Verif.Vec.Model
/-! Lemmas about the memory operations of `Verif.Vec`. -/
namespace Verif.Vec

@[simp] theorem ok_bind {α β : Type} (a : α) (f : α → M β) : ((Except.ok a : M α) >>= f) = f a := rfl
@[simp] theorem error_bind {α β : Type} (e : Fail) (f : α → M β) : ((Except.error e : M α) >>= f) = Except.error e := rfl

/-- Memory into which an element may be constructed without losing an object. -/
def Good (k : Kind) (c : Option Cell) : Prop := ∃ x, c = some x ∧ (k.triv = false → x = .empty)

/-- `n` elements `l` from `p` on. -/
def At (h : Heap) (p : Nat) (l : List Nat) : Prop := ∀ i, (hi : i < l.length) → h.cells (p + i) = some (.val l[i])

theorem construct_good (k : Kind) (h : Heap) (a x : Nat) (hg : Good k (h.cells a)) :
    construct k h a x = .ok (h.set a (.val x)) := by
  obtain ⟨c, hc, he⟩ := hg
  unfold construct
  cases c with
  | empty => simp [hc]
  | moved =>
    cases ht : k.triv
    · exact absurd (he ht) (by simp)
    · simp [hc, Heap.set]
  | val y =>
    cases ht : k.triv
    · exact absurd (he ht) (by simp)
    · simp [hc, Heap.set]

theorem allocated_iff (h : Heap) (a n : Nat) : h.allocated a n = true ↔ ∀ i, i < n → (h.cells (a + i)).isSome := by
  simp [Heap.allocated]

/-- Same bookkeeping. -/
def SameMeta (h h' : Heap) : Prop := h'.next = h.next ∧ h'.extra = h.extra ∧ h'.leaks = h.leaks

theorem SameMeta.refl (h : Heap) : SameMeta h h := ⟨rfl, rfl, rfl⟩
theorem SameMeta.trans {a b c : Heap} (h1 : SameMeta a b) (h2 : SameMeta b c) : SameMeta a c :=
  ⟨h2.1.trans h1.1, h2.2.1.trans h1.2.1, h2.2.2.trans h1.2.2⟩

theorem relocateLoop_spec (k : Kind) (hk : k.triv = false) : ∀ (l : List Nat) (h : Heap) (src dst : Nat),
    dst < src ∨ src + l.length ≤ dst → At h src l →
    (∀ i, i < l.length → ¬ (src ≤ dst + i ∧ dst + i < src + l.length) → h.cells (dst + i) = some .empty) →
    ∃ h', relocateLoop k h src l.length dst = .ok h' ∧ SameMeta h h' ∧
      ∀ a, h'.cells a = if dst ≤ a ∧ a < dst + l.length then some (.val (l.getD (a - dst) 0))
        else if src ≤ a ∧ a < src + l.length then some .empty else h.cells a
  | [], h, src, dst, _, _, _ => by
    refine ⟨h, rfl, SameMeta.refl h, fun a => ?_⟩
    simp only [List.length_nil, Nat.add_zero]
    rw [if_neg (by omega), if_neg (by omega)]
  | x :: l, h, src, dst, ho, hs, hd => by
    simp only [List.length_cons] at ho hd
    have h0 : h.cells src = some (.val x) := by
      have := hs 0 (by simp)
      simp only [Nat.add_zero, List.getElem_cons_zero] at this
      exact this
    have hd0 : h.cells dst = some .empty := by simpa using hd 0 (by omega) (by omega)
    have hne : dst ≠ src := by omega
    -- the state after one element
    let h3 : Heap := { h with cells := fun a => if a = dst then some (.val x) else if a = src then some .empty else h.cells a }
    have hstep : relocateLoop k h src (l.length + 1) dst = relocateLoop k h3 (src + 1) l.length (dst + 1) := by
      simp only [relocateLoop, Heap.read, h0, ok_bind]
      rw [construct_good k _ dst x ⟨.empty, by simp [Heap.set, hne, hd0], fun _ => rfl⟩]
      simp only [ok_bind, destroyAt, hk, Bool.false_eq_true, if_false]
      have : ((h.set src .moved).set dst (.val x)).cells src = some .moved := by simp [Heap.set, Ne.symm hne]
      rw [this]
      simp only [ok_bind]
      congr 1
      simp only [Heap.set, h3, Heap.mk.injEq, and_true]
      funext a
      by_cases h1 : a = src
      · subst h1; simp [Ne.symm hne]
      · by_cases h2 : a = dst <;> simp [h1, h2, hne]
    obtain ⟨h', hr, hm, hc⟩ := relocateLoop_spec k hk l h3 (src + 1) (dst + 1) (by omega)
      (by
        intro i hi
        have := hs (i + 1) (by simp; omega)
        simp only [List.getElem_cons_succ] at this
        simp only [h3]
        rw [if_neg (by omega), if_neg (by omega), show src + 1 + i = src + (i + 1) by omega, this])
      (by
        intro i hi hn
        simp only [h3]
        rw [if_neg (by omega)]
        by_cases h1 : dst + 1 + i = src
        · rw [if_pos h1]
        · rw [if_neg h1, show dst + 1 + i = dst + (i + 1) by omega]
          exact hd (i + 1) (by omega) (by omega))
    refine ⟨h', by rw [List.length_cons, hstep, hr], hm, ?_⟩
    intro a
    rw [hc]
    simp only [h3, List.length_cons]
    by_cases h1 : dst + 1 ≤ a ∧ a < dst + 1 + l.length
    · rw [if_pos h1, if_pos (by omega), show a - dst = (a - (dst + 1)) + 1 by omega]; simp
    · rw [if_neg h1]
      by_cases h2 : a = dst
      · subst h2
        rw [if_neg (by omega), if_pos rfl, if_pos (by omega)]; simp
      · by_cases h3' : src + 1 ≤ a ∧ a < src + 1 + l.length
        · rw [if_pos h3', if_neg (by omega), if_pos (by omega)]
        · rw [if_neg h3', if_neg h2]
          by_cases h4 : a = src
          · rw [if_pos h4, if_neg (by omega), if_pos (by omega)]
          · rw [if_neg h4, if_neg (by omega), if_neg (by omega)]

theorem moveCells_spec (h : Heap) (l : List Nat) (src dst : Nat) (hs : At h src l)
    (hd : ∀ i, i < l.length → (h.cells (dst + i)).isSome) :
    ∃ h', moveCells h src l.length dst = .ok h' ∧ SameMeta h h' ∧
      ∀ a, h'.cells a = if dst ≤ a ∧ a < dst + l.length then some (.val (l.getD (a - dst) 0)) else h.cells a := by
  have h1 : h.allocated src l.length = true := by
    rw [allocated_iff]; intro i hi; rw [hs i hi]; rfl
  have h2 : h.allocated dst l.length = true := by rw [allocated_iff]; exact hd
  refine ⟨{ h with cells := fun a => if dst ≤ a ∧ a < dst + l.length then h.cells (src + (a - dst)) else h.cells a },
    by simp only [moveCells, h1, h2, Bool.and_self, if_true], ⟨rfl, rfl, rfl⟩, ?_⟩
  intro a
  by_cases ha : dst ≤ a ∧ a < dst + l.length
  · simp only [ha, and_self, if_true]
    have := hs (a - dst) (by omega)
    rw [this]; simp [show a - dst < l.length by omega]
  · simp only [ha, if_false]

/-- `uninitialized_relocate`, to the front or without overlap. -/
theorem relocate_spec (k : Kind) (h : Heap) (l : List Nat) (src dst : Nat) (ho : l = [] ∨ dst < src ∨ src + l.length ≤ dst)
    (hs : At h src l)
    (hd : ∀ i, i < l.length → ¬ (src ≤ dst + i ∧ dst + i < src + l.length) → Good k (h.cells (dst + i))) :
    ∃ h', relocate k h src l.length dst = .ok h' ∧ SameMeta h h' ∧
      ∀ a, h'.cells a = if dst ≤ a ∧ a < dst + l.length then some (.val (l.getD (a - dst) 0))
        else if k.triv = false ∧ src ≤ a ∧ a < src + l.length then some .empty else h.cells a := by
  cases hk : k.triv
  · simp only [relocate, hk, Bool.false_eq_true, if_false, true_and]
    rcases ho with rfl | ho
    · refine ⟨h, rfl, SameMeta.refl h, fun a => ?_⟩
      simp only [List.length_nil, Nat.add_zero]
      rw [if_neg (by omega), if_neg (by omega)]
    · apply relocateLoop_spec k hk l h src dst ho hs
      intro i hi hn
      obtain ⟨c, hc, he⟩ := hd i hi hn
      rw [hc, he hk]
  · simp only [relocate, hk, if_true, Bool.true_eq_false, false_and, if_false]
    apply moveCells_spec h l src dst hs
    intro i hi
    by_cases hn : src ≤ dst + i ∧ dst + i < src + l.length
    · have := hs (dst + i - src) (by omega)
      rw [show src + (dst + i - src) = dst + i by omega] at this
      rw [this]; rfl
    · obtain ⟨c, hc, _⟩ := hd i hi hn
      rw [hc]; rfl

theorem destroyN_spec (k : Kind) : ∀ (l : List Nat) (h : Heap) (p : Nat), At h p l →
    ∃ h', destroyN k h p l.length = .ok h' ∧ SameMeta h h' ∧
      ∀ a, h'.cells a = if k.triv = false ∧ p ≤ a ∧ a < p + l.length then some .empty else h.cells a
  | [], h, p, _ => ⟨h, rfl, SameMeta.refl h, fun a => by rw [List.length_nil, if_neg (by omega)]⟩
  | x :: l, h, p, hs => by
    have h0 : h.cells p = some (.val x) := by
      have := hs 0 (by simp)
      simp only [Nat.add_zero, List.getElem_cons_zero] at this
      exact this
    have hs' : ∀ h1 : Heap, (∀ a, a ≠ p → h1.cells a = h.cells a) → At h1 (p + 1) l := by
      intro h1 hh i hi
      have := hs (i + 1) (by simp; omega)
      rw [hh _ (by omega), show p + 1 + i = p + (i + 1) by omega, this]; simp
    cases hk : k.triv
    · have hd : destroyAt k h p = .ok (h.set p .empty) := by simp [destroyAt, hk, h0]
      obtain ⟨h', hr, hm, hc⟩ := destroyN_spec k l (h.set p .empty) (p + 1) (hs' _ (by intro a ha; simp [Heap.set, ha]))
      refine ⟨h', by simp only [List.length_cons, destroyN, hd, ok_bind, hr], hm, ?_⟩
      intro a
      rw [hc]
      simp only [hk, true_and, List.length_cons, Heap.set]
      by_cases h1 : p + 1 ≤ a ∧ a < p + 1 + l.length
      · rw [if_pos h1, if_pos (by omega)]
      · rw [if_neg h1]
        by_cases h2 : a = p
        · rw [if_pos h2, if_pos (by omega)]
        · rw [if_neg h2, if_neg (by omega)]
    · have hd : destroyAt k h p = .ok h := by simp [destroyAt, hk]
      obtain ⟨h', hr, hm, hc⟩ := destroyN_spec k l h (p + 1) (hs' _ (by intros; rfl))
      refine ⟨h', by simp only [List.length_cons, destroyN, hd, ok_bind, hr], hm, ?_⟩
      intro a
      rw [hc]; simp [hk]

/-- The loop of `uninitialized_move_backward` by one place: exactly what it leaves behind. -/
theorem moveBackLoop_spec (k : Kind) (hk : k.triv = false) : ∀ (n : Nat) (l : List Nat) (h : Heap) (p : Nat), l.length = n →
    At h p l → (l ≠ [] → h.cells (p + n) = some .empty ∨ h.cells (p + n) = some .moved) →
    ∃ h', moveBackLoop k h (p + n) n (p + n + 1) = .ok h' ∧ h'.next = h.next ∧ h'.extra = h.extra ∧
      h'.leaks = h.leaks + (n - 1) + (if n ≠ 0 ∧ h.cells (p + n) = some .moved then 1 else 0) ∧
      ∀ a, h'.cells a = if p + 1 ≤ a ∧ a < p + 1 + n then some (.val (l.getD (a - (p + 1)) 0))
        else if a = p ∧ n ≠ 0 then some .moved else h.cells a
  | 0, l, h, p, _, _, _ => by
    refine ⟨h, rfl, rfl, rfl, by simp, fun a => ?_⟩
    rw [if_neg (by omega), if_neg (by omega)]
  | n + 1, l, h, p, hl, hs, hd => by
    obtain ⟨l', x, rfl⟩ : ∃ l' x, l = l' ++ [x] :=
      ⟨l.dropLast, l.getLast (by intro hh; simp [hh] at hl), (List.dropLast_concat_getLast _).symm⟩
    have hl' : l'.length = n := by simpa using hl
    have h0 : h.cells (p + n) = some (.val x) := by
      have := hs n (by simp [hl'])
      rw [this]; simp [hl']
    have hcell := hd (by simp)
    let h2 : Heap := { h with
      cells := fun a => if a = p + (n + 1) then some (.val x) else if a = p + n then some .moved else h.cells a,
      leaks := h.leaks + (if h.cells (p + (n + 1)) = some .moved then 1 else 0) }
    have hstep : moveBackLoop k h (p + (n + 1)) (n + 1) (p + (n + 1) + 1) = moveBackLoop k h2 (p + n) n (p + n + 1) := by
      simp only [moveBackLoop, Heap.read, show p + (n + 1) - 1 = p + n by omega, h0, ok_bind,
        show p + (n + 1) + 1 - 1 = p + (n + 1) by omega]
      have hc : construct k (h.set (p + n) .moved) (p + (n + 1)) x = .ok h2 := by
        unfold construct
        have e : (h.set (p + n) .moved).cells (p + (n + 1)) = h.cells (p + (n + 1)) := by
          simp [Heap.set]
        rw [e]
        rcases hcell with he | he <;> rw [he] <;> simp [h2, Heap.set, he, hk]
      rw [hc]
      simp only [ok_bind, show p + (n + 1) = p + n + 1 by omega]
    obtain ⟨h', hr, hn, hx, hlk, hc⟩ := moveBackLoop_spec k hk n l' h2 p hl'
      (by
        intro i hi
        have := hs i (by simp; omega)
        simp only [h2]
        rw [if_neg (by omega), if_neg (by omega), this]
        rw [List.getElem_append_left hi])
      (by
        intro _
        right
        simp [h2])
    refine ⟨h', by rw [hstep, hr], hn, hx, ?_, ?_⟩
    · rw [hlk]
      have : h2.cells (p + n) = some .moved := by simp [h2]
      simp only [this, and_true, h2]
      by_cases hz : n = 0
      · subst hz; simp
      · simp [hz]; omega
    · intro a
      rw [hc]
      simp only [h2]
      by_cases h1 : p + 1 ≤ a ∧ a < p + 1 + n
      · rw [if_pos h1, if_pos (by omega)]
        simp [List.getElem?_append_left (show a - (p + 1) < l'.length by omega)]
      · rw [if_neg h1]
        by_cases h3 : a = p + (n + 1)
        · subst h3
          rw [if_neg (by omega), if_pos rfl, if_pos (by omega)]
          simp [show p + (n + 1) - (p + 1) = l'.length by omega]
        · by_cases h4 : a = p ∧ n ≠ 0
          · rw [if_pos h4, if_neg (by omega), if_pos (by omega)]
          · rw [if_neg h4, if_neg h3]
            by_cases h5 : a = p + n
            · rw [if_pos h5, if_neg (by omega), if_pos (by omega)]
            · rw [if_neg h5, if_neg (by omega), if_neg (by omega)]

end Verif.Vec
