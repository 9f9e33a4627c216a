import Verif.Vec.Lemmas
import Mathlib.Tactic.Ring
/-! The invariant of `Verif.Vec` and what growing does. -/
namespace Verif.Vec

/-- Element types that exist. -/
def Kind.Ok (k : Kind) : Prop := 0 < k.size ∧ k.size < 2 ^ 63

/-- The vector holds the sequence `l`. -/
structure Inv (k : Kind) (h : Heap) (v : Vec) (l : List Nat) : Prop where
  size : v.curr = v.first + l.length
  cap : v.curr ≤ v.last
  bytes : (v.last - v.first) * k.size < 2 ^ 63
  elems : At h v.first l
  spare : ∀ a, v.curr ≤ a → a < v.last → Good k (h.cells a)
  below : v.last ≤ h.next
  fresh : ∀ a, h.next ≤ a → h.cells a = none

/-- Nothing but the memory of the vector is touched, and no memory is lost. -/
structure Frame (h : Heap) (v : Vec) (h' : Heap) (v' : Vec) : Prop where
  next : h.next ≤ h'.next
  extra : h'.extra = h.extra
  others : ∀ a, a < h.next → ¬ (v.first ≤ a ∧ a < v.last) → h'.cells a = h.cells a
  kept : ∀ a, h'.cells a ≠ none → (v'.first ≤ a ∧ a < v'.last) ∨ (h.cells a ≠ none ∧ ¬ (v.first ≤ a ∧ a < v.last))
  block : (v'.first = v.first ∧ v'.last = v.last) ∨ h.next ≤ v'.first

theorem Frame.refl (h : Heap) (v : Vec) : Frame h v h v :=
  ⟨Nat.le_refl _, rfl, fun _ _ _ => rfl,
   fun a ha => by by_cases hb : v.first ≤ a ∧ a < v.last
                  · exact Or.inl hb
                  · exact Or.inr ⟨ha, hb⟩, Or.inl ⟨rfl, rfl⟩⟩

theorem Frame.trans {h h' h'' : Heap} {v v' v'' : Vec} (f : Frame h v h' v') (g : Frame h' v' h'' v'') : Frame h v h'' v'' where
  next := Nat.le_trans f.next g.next
  extra := g.extra.trans f.extra
  others a ha hn := by
    rw [g.others a (Nat.lt_of_lt_of_le ha f.next) ?_, f.others a ha hn]
    rcases f.block with ⟨h1, h2⟩ | h1
    · rw [h1, h2]; exact hn
    · omega
  kept a ha := by
    rcases g.kept a ha with h1 | ⟨h1, h2⟩
    · exact Or.inl h1
    · rcases f.kept a h1 with h3 | h3
      · exact absurd h3 h2
      · exact Or.inr h3
  block := by
    have := f.next
    rcases f.block with ⟨h1, h2⟩ | h1 <;> rcases g.block with ⟨h3, h4⟩ | h3
    · exact Or.inl ⟨h3.trans h1, h4.trans h2⟩
    · exact Or.inr (by omega)
    · exact Or.inr (by omega)
    · exact Or.inr (by omega)

/-- Only cells of the block changed, and none was freed. -/
theorem Frame.inside {k : Kind} {h : Heap} {v : Vec} {l : List Nat} (i : Inv k h v l) {h' : Heap} {v' : Vec}
    (hf : v'.first = v.first) (hl : v'.last = v.last) (hn : h'.next = h.next) (hx : h'.extra = h.extra)
    (hc : ∀ a, ¬ (v.first ≤ a ∧ a < v.last) → h'.cells a = h.cells a) : Frame h v h' v' where
  next := by omega
  extra := hx
  others a _ hna := hc a hna
  kept a ha := by
    by_cases hb : v.first ≤ a ∧ a < v.last
    · exact Or.inl (by rw [hf, hl]; exact hb)
    · exact Or.inr ⟨by rw [← hc a hb]; exact ha, hb⟩
  block := Or.inl ⟨hf, hl⟩

theorem Inv.cell {k : Kind} {h : Heap} {v : Vec} {l : List Nat} (i : Inv k h v l) (a : Nat) (h1 : v.first ≤ a) (h2 : a < v.curr) :
    h.cells a = some (.val (l.getD (a - v.first) 0)) := by
  have hs := i.size
  have := i.elems (a - v.first) (by omega)
  rw [show v.first + (a - v.first) = a by omega] at this
  rw [this]; simp [show a - v.first < l.length by omega]

/-- The memory after growing. -/
def grown (h : Heap) (v : Vec) (l : List Nat) (i count : Nat) : Nat → Option Cell := fun a =>
  if h.next ≤ a ∧ a < h.next + i then some (.val (l.getD (a - h.next) 0))
  else if h.next + i + 1 ≤ a ∧ a < h.next + l.length + 1 ∧ i < l.length then some (.val (l.getD (a - h.next - 1) 0))
  else if h.next ≤ a ∧ a < h.next + count then some .empty
  else if v.first ≤ a ∧ a < v.last then none else h.cells a

theorem growTo_spec (k : Kind) (h : Heap) (v : Vec) (l : List Nat) (inv : Inv k h v l) (newcap i : Nat)
    (hi : i ≤ l.length) (hcap : l.length ≤ newcap) (hcap' : i < l.length → l.length + 1 ≤ newcap) :
    growTo k h v newcap (v.first + i) 1 =
      if 2 ^ 63 ≤ (newcap + h.extra newcap) * k.size then .error .exhausted
      else .ok ({ h with cells := grown h v l i (newcap + h.extra newcap), next := h.next + (newcap + h.extra newcap) + 1 },
        ⟨h.next, h.next + l.length, h.next + (newcap + h.extra newcap)⟩, h.next + i) := by
  have hs := inv.size
  have hb := inv.below
  have hcp := inv.cap
  unfold growTo allocAtLeast allocCount
  split
  · rfl
  · rename_i hsz
    simp only [ok_bind]
    generalize hC : newcap + h.extra newcap = C at *
    have hC' : newcap ≤ C := by omega
    have e1 : v.first + i - v.first = i := by omega
    have e2 : v.curr - (v.first + i) = l.length - i := by omega
    have e3 : v.curr - v.first = l.length := by omega
    rw [e1, e2, e3]
    have lt : (l.take i).length = i := by simp; omega
    have ld : (l.drop i).length = l.length - i := by simp
    obtain ⟨h1, r1, m1, c1⟩ := relocate_spec k
      { h with cells := fun a => if h.next ≤ a ∧ a < h.next + C then some .empty else h.cells a, next := h.next + C + 1 }
      (l.take i) v.first h.next (Or.inr (Or.inr (by rw [lt]; omega)))
      (by
        intro j hj
        have := inv.elems j (by omega)
        simp only []
        rw [if_neg (by omega), this]; simp)
      (by
        intro j hj _
        refine ⟨.empty, ?_, fun _ => rfl⟩
        simp only []
        rw [if_pos (by omega)])
    rw [lt] at r1 c1
    rw [r1]
    simp only [ok_bind]
    obtain ⟨h2, r2, m2, c2⟩ := relocate_spec k h1 (l.drop i) (v.first + i) (h.next + i + 1)
      (Or.inr (Or.inr (by rw [ld]; omega)))
      (by
        intro j hj
        have := inv.elems (i + j) (by omega)
        rw [c1]
        simp only []
        rw [if_neg (by omega), if_neg (by omega), if_neg (by omega), show v.first + i + j = v.first + (i + j) by omega, this]
        simp)
      (by
        intro j hj _
        refine ⟨.empty, ?_, fun _ => rfl⟩
        rw [c1]
        simp only []
        rw [if_neg (by omega), if_neg (by omega), if_pos (by omega)])
    rw [ld] at r2 c2
    rw [r2]
    simp only [ok_bind]
    have hold : ∀ a, v.first ≤ a → a < v.last → ∃ c, h2.cells a = some c ∧ (k.triv = false → c = .empty) := by
      intro a ha hl
      rw [c2]
      rw [if_neg (by omega)]
      by_cases hx : k.triv = false ∧ v.first + i ≤ a ∧ a < v.first + i + (l.length - i)
      · rw [if_pos hx]; exact ⟨_, rfl, fun _ => rfl⟩
      · rw [if_neg hx, c1, if_neg (by omega)]
        by_cases hy : k.triv = false ∧ v.first ≤ a ∧ a < v.first + i
        · rw [if_pos hy]; exact ⟨_, rfl, fun _ => rfl⟩
        · rw [if_neg hy]
          simp only []
          rw [if_neg (by omega)]
          by_cases hz : a < v.curr
          · rw [inv.cell a ha hz]
            refine ⟨_, rfl, fun hk => ?_⟩
            exfalso
            simp only [hk, true_and] at hx hy
            omega
          · exact inv.spare a (by omega) hl
    have hfree : free k h2 v.first (v.last - v.first) = .ok { h2 with cells := fun b => if v.first ≤ b ∧ b < v.first + (v.last - v.first) then none else h2.cells b } := by
      unfold free
      rw [if_pos]
      rw [List.all_eq_true]
      intro j hj
      rw [List.mem_range] at hj
      obtain ⟨c, hc, he⟩ := hold (v.first + j) (by omega) (by omega)
      rw [hc]
      cases hk : k.triv
      · rw [he hk]
      · cases c <;> rfl
    rw [hfree]
    simp only [ok_bind]
    congr 2
    have : h2 = { h with cells := h2.cells, next := h.next + C + 1 } := by
      obtain ⟨a1, a2, a3⟩ := m1
      obtain ⟨b1, b2, b3⟩ := m2
      cases h2
      simp_all
    rw [this]
    congr 1
    funext a
    unfold grown
    simp only []
    by_cases ho : v.first ≤ a ∧ a < v.first + (v.last - v.first)
    · rw [if_pos ho, if_neg (by omega), if_neg (by omega), if_neg (by omega), if_pos (by omega)]
    · rw [if_neg ho, c2, c1]
      simp only []
      by_cases q1 : h.next ≤ a ∧ a < h.next + i
      · rw [if_neg (by omega), if_neg (by omega), if_pos q1, if_pos q1]
        simp [List.getElem?_take, show a - h.next < i by omega]
      · rw [if_neg q1]
        by_cases q2 : h.next + i + 1 ≤ a ∧ a < h.next + i + 1 + (l.length - i)
        · rw [if_pos q2]
          rw [if_pos (show h.next + i + 1 ≤ a ∧ a < h.next + l.length + 1 ∧ i < l.length by omega)]
          simp [show i + (a - (h.next + i + 1)) = a - h.next - 1 by omega]
          intros; omega
        · rw [if_neg q2, if_neg (by omega), if_neg q1, if_neg (by omega), if_neg (show ¬ (h.next + i + 1 ≤ a ∧ a < h.next + l.length + 1 ∧ i < l.length) by omega)]
          by_cases q3 : h.next ≤ a ∧ a < h.next + C
          · rw [if_pos q3, if_pos q3]
          · rw [if_neg q3, if_neg q3, if_neg (by omega)]

end Verif.Vec
