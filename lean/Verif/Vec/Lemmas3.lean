import Verif.Vec.Lemmas2
/-! The operations of `Verif.Vec`. -/
namespace Verif.Vec

theorem twice_spec (k : Kind) (hk : k.Ok) (h : Heap) (v : Vec) (l : List Nat) (inv : Inv k h v l) :
    ∃ m, twice k v = .ok m ∧ m ≤ max (2 * (v.last - v.first)) (max 1 k.size) ∧ v.last - v.first + 1 ≤ m := by
  have hb := inv.bytes
  obtain ⟨hk1, hk2⟩ := hk
  unfold twice
  generalize v.last - v.first = cap at *
  cases ht : k.triv
  · simp only [Bool.false_eq_true, if_false]
    unfold growTwiceSize
    simp only []
    have hle : cap ≤ (2 ^ 64 - 1) / k.size / 2 := by
      rw [Nat.div_div_eq_div_mul, Nat.le_div_iff_mul_le (by omega)]
      have : cap * (k.size * 2) = cap * k.size * 2 := by ring
      rw [this]; omega
    have h1 : 1 ≤ (2 ^ 64 - 1) / k.size := by
      rw [Nat.le_div_iff_mul_le hk1]; omega
    generalize (2 ^ 64 - 1) / k.size = mx at *
    rw [if_neg (by omega), if_neg (by omega)]
    by_cases hc : cap = 0
    · rw [if_pos hc]; exact ⟨_, rfl, by omega, by omega⟩
    · rw [if_neg hc]
      have : cap ≤ cap * k.size := Nat.le_mul_of_pos_right _ hk1
      rw [Nat.mod_eq_of_lt (by omega)]
      exact ⟨_, rfl, by omega, by omega⟩
  · simp only [if_true]
    by_cases hc : cap = 0
    · rw [if_pos hc]; exact ⟨_, rfl, by omega, by omega⟩
    · rw [if_neg hc, if_neg (by omega)]
      exact ⟨_, rfl, by omega, by omega⟩

/-- The heap and the vector after growing to `newcap`. -/
def grownHeap (h : Heap) (v : Vec) (l : List Nat) (i count : Nat) : Heap :=
  { h with cells := grown h v l i count, next := h.next + count + 1 }

def grownVec (h : Heap) (l : List Nat) (count : Nat) : Vec := ⟨h.next, h.next + l.length, h.next + count⟩

theorem grown_frame {k : Kind} {h : Heap} {v : Vec} {l : List Nat} (inv : Inv k h v l) (i count : Nat) (hi : i ≤ l.length)
    (hc : l.length ≤ count) (hc' : i < l.length → l.length + 1 ≤ count) :
    Frame h v (grownHeap h v l i count) (grownVec h l count) where
  next := by simp only [grownHeap]; omega
  extra := rfl
  others a ha hn := by
    simp only [grownHeap, grown]
    rw [if_neg (by omega), if_neg (by omega), if_neg (by omega), if_neg hn]
  kept a ha := by
    simp only [grownHeap, grown] at ha
    simp only [grownVec]
    by_cases h1 : h.next ≤ a ∧ a < h.next + count
    · exact Or.inl h1
    · rw [if_neg (by omega), if_neg (by omega), if_neg h1] at ha
      by_cases h2 : v.first ≤ a ∧ a < v.last
      · rw [if_pos h2] at ha; exact absurd rfl ha
      · rw [if_neg h2] at ha; exact Or.inr ⟨ha, h2⟩
  block := Or.inr (Nat.le_refl _)

theorem grown_inv {k : Kind} {h : Heap} {v : Vec} {l : List Nat} (inv : Inv k h v l) (count : Nat)
    (hc : l.length ≤ count) (hsz : count * k.size < 2 ^ 63) :
    Inv k (grownHeap h v l l.length count) (grownVec h l count) l where
  size := rfl
  cap := by simp only [grownVec]; omega
  bytes := by simp only [grownVec]; rw [show h.next + count - h.next = count by omega]; exact hsz
  elems j hj := by
    simp only [grownHeap, grownVec, grown]
    rw [if_pos (by omega)]; simp [hj]
  spare a h1 h2 := by
    simp only [grownVec] at h1 h2
    refine ⟨.empty, ?_, fun _ => rfl⟩
    simp only [grownHeap, grown]
    rw [if_neg (by omega), if_neg (by omega), if_pos (by omega)]
  below := by simp only [grownHeap, grownVec]; omega
  fresh a ha := by
    have := inv.below
    simp only [grownHeap] at ha
    simp only [grownHeap, grown]
    rw [if_neg (by omega), if_neg (by omega), if_neg (by omega)]
    by_cases h2 : v.first ≤ a ∧ a < v.last
    · rw [if_pos h2]
    · rw [if_neg h2]; exact inv.fresh a (by omega)

/-- What a state-changing call delivers. -/
def Gives (k : Kind) (h : Heap) (v : Vec) (l' : List Nat) (leak : Nat) (r : M (Heap × Vec)) : Prop :=
  ∃ h' v', r = .ok (h', v') ∧ Inv k h' v' l' ∧ Frame h v h' v' ∧ h'.leaks = h.leaks + leak

theorem growToSize_spec (k : Kind) (h : Heap) (v : Vec) (l : List Nat) (inv : Inv k h v l) (n : Nat) (hn : l.length ≤ n) :
    (growToSize k h v n = .error .exhausted ∧ 2 ^ 63 ≤ (n + h.extra n) * k.size) ∨
    (Gives k h v l 0 (growToSize k h v n) ∧ ∀ r, growToSize k h v n = .ok r → n ≤ r.2.last - r.2.first) := by
  unfold growToSize
  by_cases h0 : k.triv = true ∧ 2 ^ 64 ≤ n * k.size
  · rw [if_pos h0]
    refine Or.inl ⟨rfl, ?_⟩
    have : n * k.size ≤ (n + h.extra n) * k.size := Nat.mul_le_mul_right _ (by omega)
    omega
  · rw [if_neg h0]
    have := growTo_spec k h v l inv n l.length (Nat.le_refl _) hn (by omega)
    rw [← inv.size] at this
    rw [this]
    by_cases h1 : 2 ^ 63 ≤ (n + h.extra n) * k.size
    · rw [if_pos h1]; exact Or.inl ⟨rfl, h1⟩
    · rw [if_neg h1]
      refine Or.inr ⟨⟨_, _, rfl, grown_inv inv (n + h.extra n) (by omega) (by omega),
        grown_frame inv _ _ (Nat.le_refl _) (by omega) (by omega), rfl⟩, ?_⟩
      intro r hr
      simp only [ok_bind, Except.ok.injEq] at hr
      rw [← hr]
      simp only []
      omega

theorem set_push {k : Kind} {h : Heap} {v : Vec} {l : List Nat} (inv : Inv k h v l) (hr : v.curr < v.last) (x : Nat) :
    Inv k (h.set v.curr (.val x)) { v with curr := v.curr + 1 } (l ++ [x]) where
  size := by have := inv.size; simp; omega
  cap := hr
  bytes := inv.bytes
  elems j hj := by
    have hs := inv.size
    simp only [List.length_append, List.length_singleton] at hj
    simp only [Heap.set]
    by_cases h1 : j = l.length
    · subst h1; rw [if_pos hs.symm]; simp
    · rw [if_neg (by omega), inv.elems j (by omega), List.getElem_append_left (by omega)]
  spare a h1 h2 := by
    simp only [] at h1 h2
    simp only [Heap.set]
    rw [if_neg (by omega)]; exact inv.spare a (by omega) h2
  below := inv.below
  fresh a ha := by
    have := inv.below
    simp only [Heap.set] at ha ⊢
    rw [if_neg (by omega)]; exact inv.fresh a ha

theorem set_frame {k : Kind} {h : Heap} {v : Vec} {l : List Nat} (inv : Inv k h v l) (a c : Nat) (x : Cell)
    (h1 : v.first ≤ a) (h2 : a < v.last) : Frame h v (h.set a x) { v with curr := c } :=
  Frame.inside inv rfl rfl rfl rfl (by intro b hb; simp only [Heap.set]; rw [if_neg (by intro e; subst e; omega)])

theorem pushBack_room {k : Kind} {h : Heap} {v : Vec} {l : List Nat} (inv : Inv k h v l) (hr : v.curr < v.last) (x : Nat) :
    construct k h v.curr x = .ok (h.set v.curr (.val x)) ∧ Inv k (h.set v.curr (.val x)) { v with curr := v.curr + 1 } (l ++ [x]) ∧
      Frame h v (h.set v.curr (.val x)) { v with curr := v.curr + 1 } :=
  ⟨construct_good k h _ x (inv.spare _ (Nat.le_refl _) hr), set_push inv hr x,
    set_frame inv _ _ _ (by have := inv.size; omega) hr⟩

/-- `push_back` of a value. -/
theorem pushBack_spec (k : Kind) (hk : k.Ok) (h : Heap) (v : Vec) (l : List Nat) (inv : Inv k h v l) (x : Nat) :
    (pushBack k h v (.value x) = .error .exhausted ∧ v.curr = v.last ∧
      ∃ m, m ≤ max (2 * (v.last - v.first)) (max 1 k.size) ∧ 2 ^ 63 ≤ (m + h.extra m) * k.size) ∨
    Gives k h v (l ++ [x]) 0 (pushBack k h v (.value x)) := by
  unfold pushBack
  by_cases hf : v.curr = v.last
  · rw [if_pos hf]
    obtain ⟨m, hm, hm1, hm2⟩ := twice_spec k hk h v l inv
    have hs := inv.size
    have hg := growTo_spec k h v l inv m l.length (Nat.le_refl _) (by omega) (by omega)
    rw [← inv.size] at hg
    unfold growTwice
    rw [hm]
    simp only [ok_bind]
    rw [hg]
    by_cases h1 : 2 ^ 63 ≤ (m + h.extra m) * k.size
    · rw [if_pos h1]; exact Or.inl ⟨rfl, hf, m, hm1, h1⟩
    · rw [if_neg h1]
      right
      simp only [ok_bind, Arg.get]
      have i1 : Inv k (grownHeap h v l l.length (m + h.extra m)) (grownVec h l (m + h.extra m)) l :=
        grown_inv inv (m + h.extra m) (by omega) (by omega)
      have f1 := grown_frame inv l.length (m + h.extra m) (Nat.le_refl _) (by omega) (by omega)
      obtain ⟨r2, i2, f2⟩ := pushBack_room i1 (by simp only [grownVec]; omega) x
      refine ⟨_, _, ?_, i2, f1.trans f2, rfl⟩
      simp only [grownHeap, grownVec] at r2 ⊢
      rw [r2]; rfl
  · rw [if_neg hf]
    right
    have := inv.cap
    obtain ⟨r, i2, f2⟩ := pushBack_room inv (by omega) x
    exact ⟨_, _, by simp only [ok_bind, Arg.get, r], i2, f2, rfl⟩

/-- `pop_back`. -/
theorem popBack_spec (k : Kind) (h : Heap) (v : Vec) (l : List Nat) (inv : Inv k h v l) :
    if l = [] then popBack k h v = .error .terminate else Gives k h v l.dropLast 0 (popBack k h v) := by
  have hs := inv.size
  have hcp := inv.cap
  unfold popBack
  split
  · rename_i hl; subst hl; rw [if_pos (by simpa using hs)]
  · rename_i hl
    have hp : 0 < l.length := List.length_pos_iff.mpr hl
    rw [if_neg (by omega)]
    have hcell := inv.cell (v.curr - 1) (by omega) (by omega)
    cases hk : k.triv
    · simp only [destroyAt, hk, Bool.false_eq_true, if_false, hcell, ok_bind]
      refine ⟨_, _, rfl, ⟨?_, ?_, inv.bytes, ?_, ?_, inv.below, ?_⟩,
        set_frame inv _ _ _ (by omega) (by omega), rfl⟩
      · simp only [List.length_dropLast]; omega
      · simp only []; omega
      · intro j hj
        simp only [List.length_dropLast] at hj
        simp only [Heap.set]
        rw [if_neg (by omega), inv.elems j (by omega)]; simp
      · intro a h1 h2
        simp only [] at h1 h2
        simp only [Heap.set]
        by_cases h3 : a = v.curr - 1
        · rw [if_pos h3]; exact ⟨_, rfl, fun _ => rfl⟩
        · rw [if_neg h3]; exact inv.spare a (by omega) h2
      · intro a ha
        have := inv.below
        simp only [Heap.set] at ha ⊢
        rw [if_neg (by omega)]; exact inv.fresh a ha
    · simp only [destroyAt, hk, if_true, ok_bind]
      refine ⟨_, _, rfl, ⟨?_, ?_, inv.bytes, ?_, ?_, inv.below, inv.fresh⟩,
        Frame.inside inv rfl rfl rfl rfl (fun _ _ => rfl), rfl⟩
      · simp only [List.length_dropLast]; omega
      · simp only []; omega
      · intro j hj
        simp only [List.length_dropLast] at hj
        rw [inv.elems j (by omega)]; simp
      · intro a h1 h2
        simp only [] at h1 h2
        by_cases h3 : a = v.curr - 1
        · rw [h3, hcell]; exact ⟨_, rfl, fun hh => by simp [hk] at hh⟩
        · exact inv.spare a (by omega) h2

/-- `clear`. -/
theorem clear_spec (k : Kind) (h : Heap) (v : Vec) (l : List Nat) (inv : Inv k h v l) :
    Gives k h v [] 0 (clear k h v) ∧ ∀ r, clear k h v = .ok r → r.2.first = v.first ∧ r.2.last = v.last := by
  have hs := inv.size
  have hcp := inv.cap
  obtain ⟨h', r, m, c⟩ := destroyN_spec k l h v.first inv.elems
  have e : v.curr - v.first = l.length := by omega
  have hr : clear k h v = .ok (h', { v with curr := v.first }) := by
    unfold clear; rw [e, r]; rfl
  rw [hr]
  constructor
  · refine ⟨_, _, rfl, ⟨rfl, ?_, inv.bytes, ?_, ?_, ?_, ?_⟩, Frame.inside inv rfl rfl m.1 m.2.1 ?_, by rw [m.2.2]; rfl⟩
    · simp only []; omega
    · intro j hj; simp at hj
    · intro a h1 h2
      simp only [] at h1 h2
      rw [c]
      by_cases h3 : k.triv = false ∧ v.first ≤ a ∧ a < v.first + l.length
      · rw [if_pos h3]; exact ⟨_, rfl, fun _ => rfl⟩
      · rw [if_neg h3]
        by_cases h4 : a < v.curr
        · rw [inv.cell a h1 h4]
          refine ⟨_, rfl, fun hh => ?_⟩
          exfalso; apply h3; exact ⟨hh, h1, by omega⟩
        · exact inv.spare a (by omega) h2
    · rw [m.1]; exact inv.below
    · intro a ha
      rw [m.1] at ha
      have := inv.below
      rw [c, if_neg (by omega)]; exact inv.fresh a ha
    · intro a ha
      rw [c, if_neg (by omega)]
  · intro r hr'
    simp only [Except.ok.injEq] at hr'
    rw [← hr']; exact ⟨rfl, rfl⟩

/-- `erase_iters_common` with a nonempty range, or any range of a trivially relocatable type. -/
theorem eraseIters_spec (k : Kind) (h : Heap) (v : Vec) (l : List Nat) (inv : Inv k h v l) (i j : Nat) (hij : i ≤ j)
    (hj : j ≤ l.length) (hne : i < j ∨ k.triv = true ∨ j = l.length) :
    Gives k h v (l.take i ++ l.drop j) 0 (eraseIters k h v (v.first + i) (v.first + j)) := by
  have hs := inv.size
  have hcp := inv.cap
  have ll : ((l.drop i).take (j - i)).length = j - i := by simp; omega
  have ld : (l.drop j).length = l.length - j := by simp
  obtain ⟨h1, r1, m1, c1⟩ := destroyN_spec k ((l.drop i).take (j - i)) h (v.first + i) (by
    intro t ht
    rw [show v.first + i + t = v.first + (i + t) by omega, inv.elems (i + t) (by omega)]
    simp)
  rw [ll] at r1 c1
  have hkeep : ∀ a, ¬ (v.first + i ≤ a ∧ a < v.first + j) → h1.cells a = h.cells a := by
    intro a ha; rw [c1, if_neg (by omega)]
  have hgood : ∀ a, v.first + i ≤ a → a < v.first + j → Good k (h1.cells a) := by
    intro a h2 h3
    rw [c1]
    by_cases hk : k.triv = false
    · rw [if_pos ⟨hk, by omega, by omega⟩]; exact ⟨_, rfl, fun _ => rfl⟩
    · rw [if_neg (by intro hh; exact hk hh.1), inv.cell a (by omega) (by omega)]
      exact ⟨_, rfl, fun hh => absurd hh hk⟩
  have e1 : v.first + j - (v.first + i) = j - i := by omega
  have e2 : v.curr - (v.first + j) = l.length - j := by omega
  have hat : At h1 (v.first + j) (l.drop j) := by
    intro t ht
    rw [hkeep _ (by omega), show v.first + j + t = v.first + (j + t) by omega, inv.elems (j + t) (by omega)]
    simp
  -- the relocation
  have hrel : ∃ h2, relocate k h1 (v.first + j) (l.length - j) (v.first + i) = .ok h2 ∧ SameMeta h1 h2 ∧
      ∀ a, h2.cells a = if v.first + i ≤ a ∧ a < v.first + i + (l.length - j) then some (.val ((l.drop j).getD (a - (v.first + i)) 0))
        else if k.triv = false ∧ v.first + j ≤ a ∧ a < v.first + j + (l.length - j) then some .empty else h1.cells a := by
    rw [← ld]
    by_cases hd : l.drop j = []
    · apply relocate_spec k h1 _ _ _ (Or.inl hd) hat
      intro t ht; rw [hd] at ht; simp at ht
    · by_cases hlt : i < j
      · apply relocate_spec k h1 _ _ _ (Or.inr (Or.inl (by omega))) hat
        intro t ht hn
        apply hgood <;> omega
      · have hkt : k.triv = true := by
          rcases hne with h' | h' | h'
          · exact absurd h' hlt
          · exact h'
          · exfalso; apply hd; rw [h']; simp
        have hij' : i = j := by omega
        subst hij'
        simp only [relocate, hkt, if_true, Bool.true_eq_false, false_and, if_false]
        apply moveCells_spec h1 _ _ _ hat
        intro t ht
        rw [hat t ht]; rfl
  obtain ⟨h2, r2, m2, c2⟩ := hrel
  have hr : eraseIters k h v (v.first + i) (v.first + j) = .ok (h2, { v with curr := v.first + i + (l.length - j) }) := by
    unfold eraseIters; rw [e1, e2, r1]; simp only [ok_bind]; rw [r2]; rfl
  rw [hr]
  have m := m1.trans m2
  refine ⟨_, _, rfl, ⟨?_, ?_, inv.bytes, ?_, ?_, ?_, ?_⟩, Frame.inside inv rfl rfl m.1 m.2.1 ?_, by rw [m.2.2]; rfl⟩
  · simp; omega
  · simp only []; omega
  · intro t ht
    have ht' := ht
    simp only [List.length_append, List.length_take, List.length_drop] at ht'
    show h2.cells (v.first + t) = _
    rw [c2]
    by_cases hti : t < i
    · rw [if_neg (by omega), if_neg (by omega), hkeep _ (by omega), inv.elems t (by omega),
        List.getElem_append_left (by simp; omega)]
      simp
    · rw [if_pos (by omega), List.getElem_append_right (by simp; omega)]
      simp only [List.length_take, show min i l.length = i by omega, List.getElem_drop]
      congr 2
      simp [List.getElem?_drop, show v.first + t - (v.first + i) = t - i by omega, show j + (t - i) < l.length by omega]
  · intro a h3 h4
    simp only [] at h3 h4
    rw [c2, if_neg (by omega)]
    by_cases h5 : k.triv = false ∧ v.first + j ≤ a ∧ a < v.first + j + (l.length - j)
    · rw [if_pos h5]; exact ⟨_, rfl, fun _ => rfl⟩
    · rw [if_neg h5]
      by_cases h6 : a < v.first + j
      · exact hgood a (by omega) h6
      · rw [hkeep a (by omega)]
        by_cases h7 : a < v.curr
        · rw [inv.cell a (by omega) h7]
          refine ⟨_, rfl, fun hh => ?_⟩
          exfalso; apply h5; exact ⟨hh, by omega, by omega⟩
        · exact inv.spare a (by omega) h4
  · rw [m.1]; exact inv.below
  · intro a ha
    rw [m.1] at ha
    have := inv.below
    rw [c2, if_neg (by omega), if_neg (by omega), hkeep a (by omega)]; exact inv.fresh a ha
  · intro a ha
    rw [c2, if_neg (by omega), if_neg (by omega), hkeep a (by omega)]

end Verif.Vec
