import Verif.Vec.Lemmas3
/-! Insertion into `Verif.Vec`. -/
namespace Verif.Vec

theorem getD_ins (l : List Nat) (i x t : Nat) (hi : i ≤ l.length) (ht : t < (l.take i ++ x :: l.drop i).length) :
    (l.take i ++ x :: l.drop i)[t] = if t < i then l.getD t 0 else if t = i then x else l.getD (t - 1) 0 := by
  have ht' := ht
  simp only [List.length_append, List.length_take, List.length_cons, List.length_drop] at ht'
  by_cases h1 : t < i
  · rw [if_pos h1, List.getElem_append_left (by simp; omega)]
    simp [show t < l.length by omega]
  · rw [if_neg h1, List.getElem_append_right (by simp; omega)]
    simp only [List.length_take, show min i l.length = i by omega]
    by_cases h2 : t = i
    · subst h2; simp
    · rw [if_neg h2]
      obtain ⟨s, rfl⟩ : ∃ s, t = i + s + 1 := ⟨t - i - 1, by omega⟩
      simp [show i + s + 1 - i = s + 1 by omega, show i + s < l.length by omega]

/-- Once the elements behind `i` stand one place further, constructing the new one completes the insertion. -/
theorem insert_inv {k : Kind} {h : Heap} {v : Vec} {l : List Nat} (i x : Nat) (hi : i ≤ l.length)
    (hsize : v.curr = v.first + l.length) (hcap : v.curr < v.last) (hb : (v.last - v.first) * k.size < 2 ^ 63)
    (h1 : ∀ a, v.first ≤ a → a < v.first + i → h.cells a = some (.val (l.getD (a - v.first) 0)))
    (h2 : ∀ a, v.first + i + 1 ≤ a → a < v.first + l.length + 1 → h.cells a = some (.val (l.getD (a - v.first - 1) 0)))
    (h3 : ∀ a, v.curr + 1 ≤ a → a < v.last → Good k (h.cells a)) (hbe : v.last ≤ h.next)
    (hfr : ∀ a, h.next ≤ a → h.cells a = none) (h' : Heap)
    (hc : ∀ a, h'.cells a = if a = v.first + i then some (.val x) else h.cells a) (hn : h'.next = h.next) :
    Inv k h' { v with curr := v.curr + 1 } (l.take i ++ x :: l.drop i) where
  size := by simp; omega
  cap := hcap
  bytes := hb
  elems t ht := by
    have ht' := ht
    simp only [List.length_append, List.length_take, List.length_cons, List.length_drop] at ht'
    rw [getD_ins l i x t hi ht]
    show h'.cells (v.first + t) = _
    rw [hc]
    by_cases q1 : t = i
    · subst q1; simp
    · rw [if_neg (by omega)]
      by_cases q2 : t < i
      · rw [if_pos q2, h1 _ (by omega) (by omega)]
        rw [show v.first + t - v.first = t by omega]
      · rw [if_neg q2, if_neg q1, h2 _ (by omega) (by omega)]
        rw [show v.first + t - v.first - 1 = t - 1 by omega]
  spare a q1 q2 := by
    simp only [] at q1 q2
    rw [hc, if_neg (by omega)]; exact h3 a q1 q2
  below := by rw [hn]; exact hbe
  fresh a ha := by
    rw [hn] at ha
    rw [hc, if_neg (by omega)]; exact hfr a ha

/-- Objects overwritten by an insertion. -/
def lost (k : Kind) (v : Vec) (l : List Nat) (i : Nat) : Nat := if k.triv = false ∧ v.curr < v.last then l.length - i else 0

theorem construct_any (k : Kind) (h : Heap) (a x : Nat) (c : Cell) (hc : h.cells a = some c) :
    construct k h a x = .ok { h.set a (.val x) with leaks := if k.triv = true ∨ c = .empty then h.leaks else h.leaks + 1 } := by
  unfold construct
  rw [hc]
  cases c <;> cases hk : k.triv <;> simp [Heap.set]

theorem emplace_spec (k : Kind) (hk : k.Ok) (h : Heap) (v : Vec) (l : List Nat) (inv : Inv k h v l) (i x : Nat) (hi : i ≤ l.length) :
    (emplace k h v (v.first + i) (.value x) = .error .exhausted ∧ v.curr = v.last ∧
      ∃ m, m ≤ max (2 * (v.last - v.first)) (max 1 k.size) ∧ 2 ^ 63 ≤ (m + h.extra m) * k.size) ∨
    ∃ h' v' p, emplace k h v (v.first + i) (.value x) = .ok (h', v', p) ∧ p = v'.first + i ∧
      Inv k h' v' (l.take i ++ x :: l.drop i) ∧ Frame h v h' v' ∧ h'.leaks = h.leaks + lost k v l i := by
  have hs := inv.size
  have hcp := inv.cap
  have hbl := inv.below
  have hform : emplace k h v (v.first + i) (.value x) = (do
      let (h, v, p) ← makeRoom k h v (v.first + i)
      let h ← construct k h p x
      .ok (h, { v with curr := v.curr + 1 }, p)) := by
    unfold emplace
    cases k.nothrow <;> simp [Arg.get]
  rw [hform]
  unfold makeRoom
  by_cases hf : v.curr = v.last
  · rw [if_pos hf]
    obtain ⟨m, hm, hm1, hm2⟩ := twice_spec k hk h v l inv
    have hg := growTo_spec k h v l inv m i hi (by omega) (by omega)
    rw [hm]
    simp only [ok_bind]
    rw [hg]
    by_cases h1 : 2 ^ 63 ≤ (m + h.extra m) * k.size
    · rw [if_pos h1]; exact Or.inl ⟨rfl, hf, m, hm1, h1⟩
    · rw [if_neg h1]
      right
      generalize hC : m + h.extra m = C at *
      have hC' : m ≤ C := by omega
      have f1 := grown_frame inv i C hi (by omega) (by omega)
      have hcell : (grownHeap h v l i C).cells (h.next + i) = some .empty := by
        simp only [grownHeap, grown]
        rw [if_neg (by omega), if_neg (by omega), if_pos (by omega)]
      have hcon := construct_good k (grownHeap h v l i C) (h.next + i) x ⟨_, hcell, fun _ => rfl⟩
      simp only [ok_bind]
      have hres : construct k { h with cells := grown h v l i C, next := h.next + C + 1 } (h.next + i) x =
          .ok ((grownHeap h v l i C).set (h.next + i) (.val x)) := hcon
      rw [hres]
      simp only [ok_bind]
      have i2 : Inv k ((grownHeap h v l i C).set (h.next + i) (.val x))
          { grownVec h l C with curr := (grownVec h l C).curr + 1 } (l.take i ++ x :: l.drop i) := by
        refine insert_inv (h := grownHeap h v l i C) i x hi rfl ?_ ?_ ?_ ?_ ?_ ?_ ?_ _ (fun a => rfl) rfl
        · simp only [grownVec]; omega
        · simp only [grownVec]; rw [show h.next + C - h.next = C by omega]; omega
        · intro a q1 q2
          simp only [grownVec] at q1 q2
          simp only [grownHeap, grown, grownVec]
          rw [if_pos (by omega)]
        · intro a q1 q2
          simp only [grownVec] at q1 q2
          simp only [grownHeap, grown, grownVec]
          rw [if_neg (by omega), if_pos (by omega)]
        · intro a q1 q2
          simp only [grownVec] at q1 q2
          refine ⟨.empty, ?_, fun _ => rfl⟩
          simp only [grownHeap, grown]
          rw [if_neg (by omega), if_neg (by omega), if_pos (by omega)]
        · simp only [grownVec, grownHeap]; omega
        · intro a ha
          simp only [grownHeap] at ha
          simp only [grownHeap, grown]
          rw [if_neg (by omega), if_neg (by omega), if_neg (by omega)]
          by_cases q : v.first ≤ a ∧ a < v.last
          · rw [if_pos q]
          · rw [if_neg q]; exact inv.fresh a (by omega)
      refine ⟨_, _, _, rfl, rfl, i2, f1.trans ⟨Nat.le_refl _, rfl, ?_, ?_, Or.inl ⟨rfl, rfl⟩⟩, ?_⟩
      · intro a _ hn
        simp only [grownVec] at hn
        simp only [Heap.set]
        rw [if_neg (by intro e; subst e; apply hn; omega)]
      · intro a ha
        by_cases q : (grownVec h l C).first ≤ a ∧ a < (grownVec h l C).last
        · exact Or.inl q
        · right
          refine ⟨?_, q⟩
          simp only [grownVec] at q
          simp only [Heap.set] at ha
          rw [if_neg (by intro e; subst e; apply q; omega)] at ha
          exact ha
      · simp only [Heap.set, grownHeap, lost]
        rw [if_neg (by omega)]
        rfl
  · rw [if_neg hf]
    right
    have ld : (l.drop i).length = l.length - i := by simp
    have hat : At h (v.first + i) (l.drop i) := by
      intro t ht
      rw [show v.first + i + t = v.first + (i + t) by omega, inv.elems (i + t) (by omega)]
      simp
    have hspare := inv.spare v.curr (Nat.le_refl _) (by omega)
    -- the elements behind `i` moved by one place
    have hmove : ∃ h1, moveBackward k h (v.first + i) v.curr (v.curr + 1) = .ok h1 ∧ h1.next = h.next ∧ h1.extra = h.extra ∧
        h1.leaks = h.leaks + (if k.triv = false then l.length - i - 1 else 0) ∧
        (∀ a, ¬ (v.first + i ≤ a ∧ a < v.first + l.length + 1) → h1.cells a = h.cells a) ∧
        (∀ a, v.first + i + 1 ≤ a → a < v.first + l.length + 1 → h1.cells a = some (.val (l.getD (a - v.first - 1) 0))) ∧
        ∃ c, h1.cells (v.first + i) = some c ∧ (k.triv = false → if i = l.length then c = .empty else c = .moved) := by
      unfold moveBackward
      rw [show v.curr - (v.first + i) = l.length - i by omega, show v.curr + 1 - (l.length - i) = v.first + i + 1 by omega]
      cases hkt : k.triv
      · simp only [Bool.false_eq_true, if_false]
        obtain ⟨h1, r, n1, x1, l1, c1⟩ := moveBackLoop_spec k hkt (l.length - i) (l.drop i) h (v.first + i) ld hat (by
          intro _
          left
          obtain ⟨c, hc, he⟩ := hspare
          rw [show v.first + i + (l.length - i) = v.curr by omega, hc, he hkt])
        have e1 : v.first + i + (l.length - i) = v.curr := by omega
        rw [e1] at r l1
        refine ⟨h1, r, n1, x1, ?_, ?_, ?_, ?_⟩
        · rw [l1]
          obtain ⟨c, hc, he⟩ := hspare
          rw [hc, he hkt]; simp
        · intro a ha
          rw [c1, if_neg (by omega), if_neg (by omega)]
        · intro a q1 q2
          rw [c1, if_pos (by omega)]
          simp [show i + (a - (v.first + i + 1)) = a - v.first - 1 by omega]
        · rw [c1, if_neg (by omega)]
          by_cases hz : i = l.length
          · rw [if_neg (by omega)]
            obtain ⟨c, hc, he⟩ := hspare
            refine ⟨.empty, by rw [show v.first + i = v.curr by omega, hc, he hkt], fun _ => by rw [if_pos hz]⟩
          · rw [if_pos (by omega)]
            exact ⟨_, rfl, fun _ => by rw [if_neg hz]⟩
      · simp only [if_true, Bool.true_eq_false, if_false, Nat.add_zero, false_implies, and_true]
        obtain ⟨h1, r, m1, c1⟩ := moveCells_spec h (l.drop i) (v.first + i) (v.first + i + 1) hat (by
          intro t ht
          by_cases q : v.first + i + 1 + t < v.curr
          · rw [inv.cell _ (by omega) q]; rfl
          · obtain ⟨c, hc, _⟩ := inv.spare (v.first + i + 1 + t) (by omega) (by omega)
            rw [hc]; rfl)
        rw [ld] at r c1
        refine ⟨h1, r, m1.1, m1.2.1, m1.2.2, ?_, ?_, ?_⟩
        · intro a ha; rw [c1, if_neg (by omega)]
        · intro a q1 q2
          rw [c1, if_pos (by omega)]
          simp [show i + (a - (v.first + i + 1)) = a - v.first - 1 by omega]
        · rw [c1, if_neg (by omega)]
          by_cases hz : v.first + i < v.curr
          · exact ⟨_, inv.cell _ (by omega) hz⟩
          · obtain ⟨c, hc, _⟩ := inv.spare (v.first + i) (by omega) (by omega)
            exact ⟨c, hc⟩
    obtain ⟨h1, r1, n1, x1, l1, out, shifted, c, hc, hce⟩ := hmove
    rw [r1]
    simp only [ok_bind]
    rw [construct_any k h1 (v.first + i) x c hc]
    simp only [ok_bind]
    refine ⟨_, _, _, rfl, rfl, ?_, ?_, ?_⟩
    · refine insert_inv (h := h1) i x hi hs (by omega) inv.bytes ?_ shifted ?_ (by omega) ?_ _ (fun a => rfl) rfl
      · intro a q1 q2
        rw [out a (by omega)]; exact inv.cell a q1 (by omega)
      · intro a q1 q2
        rw [out a (by omega)]; exact inv.spare a (by omega) q2
      · intro a ha
        rw [out a (by omega)]; exact inv.fresh a (by omega)
    · apply Frame.inside inv
      · rfl
      · rfl
      · exact n1
      · exact x1
      · intro a ha
        simp only [Heap.set]
        rw [if_neg (by intro e; subst e; apply ha; omega), out a (by omega)]
    · simp only [lost]
      rw [l1]
      cases hkt : k.triv
      · have := hce hkt
        by_cases hz : i = l.length
        · rw [if_pos hz] at this
          simp [this, hz]
        · rw [if_neg hz] at this
          simp [this, show v.curr < v.last by omega]; omega
      · simp

/-- `uninitialized_move_backward` leaves what is in front of it alone. -/
theorem moveBackLoop_out (k : Kind) : ∀ (n : Nat) (h : Heap) (last dlast : Nat) (h1 : Heap), n ≤ last → last ≤ dlast →
    moveBackLoop k h last n dlast = .ok h1 → ∀ a, a < last - n → h1.cells a = h.cells a
  | 0, h, last, dlast, h1, _, _, hr, a, _ => by
    simp only [moveBackLoop, Except.ok.injEq] at hr
    rw [hr]
  | n + 1, h, last, dlast, h1, hn, hd, hr, a, ha => by
    simp only [moveBackLoop] at hr
    cases hx : h.read (last - 1) with
    | error e => rw [hx] at hr; simp at hr
    | ok x =>
      rw [hx] at hr
      simp only [ok_bind] at hr
      cases hc : construct k (h.set (last - 1) .moved) (dlast - 1) x with
      | error e => rw [hc] at hr; simp at hr
      | ok h2 =>
        rw [hc] at hr
        simp only [ok_bind] at hr
        rw [moveBackLoop_out k n h2 (last - 1) (dlast - 1) h1 (by omega) (by omega) hr a (by omega)]
        unfold construct at hc
        have h1' : a ≠ dlast - 1 := by omega
        have h2' : a ≠ last - 1 := by omega
        split at hc
        · simp at hc
        · simp only [Except.ok.injEq] at hc
          rw [← hc]; simp [Heap.set, h1', h2']
        · simp only [Except.ok.injEq] at hc
          rw [← hc]; simp [Heap.set, h1', h2']

theorem moveBackward_out (k : Kind) (h : Heap) (v : Vec) (l : List Nat) (inv : Inv k h v l) (_hlt : v.curr < v.last) (i : Nat)
    (hi : i ≤ l.length) (h1 : Heap) (hm : moveBackward k h (v.first + i) v.curr (v.curr + 1) = .ok h1) (a : Nat)
    (ha : a < v.first + i) : h1.cells a = h.cells a := by
  have hs := inv.size
  unfold moveBackward at hm
  cases hk : k.triv
  · simp only [hk, Bool.false_eq_true, if_false] at hm
    exact moveBackLoop_out k _ h _ _ h1 (by omega) (by omega) hm a (by omega)
  · simp only [hk, if_true] at hm
    unfold moveCells at hm
    split at hm
    · simp only [Except.ok.injEq] at hm
      rw [← hm]
      simp only []
      rw [if_neg (by omega)]
    · simp at hm

end Verif.Vec
