import Verif.Copy.Model
import Mathlib.Tactic.Ring
/-! Theorems about copying and filling (C48). -/
namespace Verif.Copy
open Verif

/-- The destination receives what the source range held before the call, and nothing else changes. -/
def Delivers (m m' : Mem) (src dst n : Nat) : Prop :=
  (∀ i, i < n → m' (dst + i) = m (src + i)) ∧ ∀ a, a < dst ∨ dst + n ≤ a → m' a = m a

theorem load_succ (m : Mem) (s n : Nat) : load m s (n + 1) = m s :: load m (s + 1) n := by
  apply List.ext_getElem
  · simp [load]
  · intro i h1 h2
    cases i with
    | zero => simp [load]
    | succ i => simp [load]; congr 1; omega

theorem store_delivers (m : Mem) (s d n : Nat) : Delivers m (store m d (load m s n)) s d n := by
  constructor
  · intro i hi
    simp only [store_apply, Nat.le_add_right, if_true, Nat.add_sub_cancel_left]
    simp [load, hi]
  · intro a ha
    exact store_outside m d _ a (by rw [load_length]; exact ha)

theorem delivers_unique {m m' m'' : Mem} {s d n : Nat} (h : Delivers m m' s d n) (h' : Delivers m m'' s d n) : m' = m'' := by
  funext a
  by_cases ha : a < d ∨ d + n ≤ a
  · rw [h.2 a ha, h'.2 a ha]
  · have e := h.1 (a - d) (by omega)
    have e' := h'.1 (a - d) (by omega)
    rw [show d + (a - d) = a by omega] at e e'
    rw [e, e']

theorem load_store_ne (m : Mem) (s n p v : Nat) (h : p < s ∨ s + n ≤ p) : load (store m p [v]) s n = load m s n := by
  unfold load
  apply List.map_congr_left
  intro i hi
  rw [List.mem_range] at hi
  exact store_outside m p [v] _ (by simp; omega)

theorem copyNLoop_eq : ∀ (n : Nat) (m : Mem) (s d : Nat), d ≤ s ∨ s + n ≤ d →
    copyNLoop m s d n = (store m d (load m s n), d + n)
  | 0, m, s, d, _ => by simp [copyNLoop, load]
  | n + 1, m, s, d, h => by
    rw [copyNLoop, copyNLoop_eq n _ _ _ (by omega), load_store_ne _ _ _ _ _ (by omega), load_succ]
    rw [store_store_at m d (d + 1) [m s] _ rfl]
    exact Prod.ext rfl (by simp only []; omega)

theorem copyNLoop_end : ∀ (n : Nat) (m : Mem) (s d : Nat), (copyNLoop m s d n).2 = d + n
  | 0, _, _, _ => rfl
  | n + 1, m, s, d => by rw [copyNLoop, copyNLoop_end n]; omega

/-- The loop from the front with the destination inside the source repeats the first `dst - src` elements. -/
theorem copyNLoop_periodic : ∀ (n : Nat) (m : Mem) (s d : Nat), s < d →
    ∀ a, (copyNLoop m s d n).1 a = if d ≤ a ∧ a < d + n then m (s + (a - d) % (d - s)) else m a
  | 0, m, s, d, h => by
    intro a
    rw [if_neg (by omega)]; rfl
  | n + 1, m, s, d, h => by
    intro a
    rw [copyNLoop, copyNLoop_periodic n _ (s + 1) (d + 1) (by omega) a]
    have hp : d + 1 - (s + 1) = d - s := by omega
    rw [hp]
    have st : ∀ x, store m d [m s] x = if x = d then m s else m x := by
      intro x
      by_cases hx : x = d
      · subst hx; simp [store_apply]
      · rw [if_neg hx]; exact store_outside m d [m s] x (by simp; omega)
    generalize hk : d - s = k at *
    by_cases h1 : d + 1 ≤ a ∧ a < d + 1 + n
    · rw [if_pos h1, if_pos (by omega), st]
      obtain ⟨j, hj⟩ : ∃ j, a = d + 1 + j := ⟨a - (d + 1), by omega⟩
      have e1 : a - (d + 1) = j := by omega
      have e2 : a - d = j + 1 := by omega
      rw [e1, e2]
      have hlt := Nat.mod_lt j (show k > 0 by omega)
      by_cases hc : s + 1 + j % k = d
      · rw [if_pos hc]
        have : (j + 1) % k = 0 := by
          rw [Nat.add_mod]
          have hj : j % k = k - 1 := by omega
          by_cases hk1 : k = 1
          · subst hk1; simp [Nat.mod_one]
          · rw [hj, Nat.mod_eq_of_lt (show 1 < k by omega), show k - 1 + 1 = k by omega, Nat.mod_self]
        rw [this]; simp
      · rw [if_neg hc]
        have : (j + 1) % k = j % k + 1 := by
          by_cases hk1 : k = 1
          · exfalso; subst hk1; have : j % 1 = 0 := Nat.mod_one j; omega
          · rw [Nat.add_mod, Nat.mod_eq_of_lt (show 1 < k by omega), Nat.mod_eq_of_lt (by omega)]
        rw [this]; congr 1; omega
    · rw [if_neg h1, st]
      by_cases hd : a = d
      · rw [if_pos hd, if_pos (by omega), hd]; simp
      · rw [if_neg hd, if_neg (by omega)]

/-- C48: at run time `my_copy_n` and `my_copy` deliver the source for *every* pair of ranges, overlapping or not, and
return the end of the destination. -/
theorem c48_my_copy (m : Mem) (src n dst : Nat) :
    Delivers m (myCopyN false m src n dst).1 src dst n ∧ (myCopyN false m src n dst).2 = dst + n ∧
    Delivers m (myCopy false m src (src + n) dst).1 src dst n ∧ (myCopy false m src (src + n) dst).2 = dst + n := by
  have h : (myCopyN false m src n dst) = (store m dst (load m src n), dst + n) := by
    unfold myCopyN memmove
    by_cases hn : n = 0 <;> simp [hn, load]
  have e : src + n - src = n := by omega
  refine ⟨by rw [h]; exact store_delivers m src dst n, by rw [h], ?_, ?_⟩
  · simp only [myCopy, e, h]; exact store_delivers m src dst n
  · simp only [myCopy, e]

/-- The example shifts three elements by one. -/
example : load (myCopyN false (fun a => a) 5 3 6).1 4 6 = [4, 5, 5, 6, 7, 9] := by decide +kernel

/-- C48 (partial: at compile time only moves to the front, or without overlap; see `c48_constant_violated`). -/
theorem c48_my_copy_constant_partial (m : Mem) (src n dst : Nat) (h : dst ≤ src ∨ src + n ≤ dst) :
    Delivers m (myCopyN true m src n dst).1 src dst n ∧ (myCopyN true m src n dst).2 = dst + n := by
  simp only [myCopyN, if_true, copyNLoop_eq n m src dst h, and_true]
  exact store_delivers m src dst n

/-- C48 violated: a move to the back with overlap, evaluated at compile time, delivers copies of the first elements
instead, unless the elements repeat with the distance as their period. -/
theorem c48_constant_violated (m : Mem) (src n dst : Nat) (h : src < dst) (ho : dst < src + n) :
    Delivers m (myCopyN true m src n dst).1 src dst n ↔ ∀ i, i < n → m (src + i) = m (src + i % (dst - src)) := by
  have hp := copyNLoop_periodic n m src dst h
  simp only [myCopyN, if_true]
  constructor
  · intro hd i hi
    rw [← hd.1 i hi, hp, if_pos (by omega)]
    congr 2
    rw [show dst + i - dst = i by omega]
  · intro hr
    constructor
    · intro i hi
      rw [hp, if_pos (by omega), hr i hi]
      congr 2
      rw [show dst + i - dst = i by omega]
    · intro a ha
      rw [hp, if_neg (by omega)]

/-- Three different elements shifted by one at compile time. -/
example : load (myCopyN true (fun a => a) 5 3 6).1 4 6 = [4, 5, 5, 5, 5, 9] := by decide +kernel

theorem copyBackLoop_eq : ∀ (n : Nat) (m : Mem) (f d : Nat), (f ≤ d ∨ d + n ≤ f) →
    copyBackLoop m (f + n) (d + n) n = (store m d (load m f n), d)
  | 0, m, f, d, _ => by simp [copyBackLoop, load]
  | n + 1, m, f, d, h => by
    have e1 : f + (n + 1) - 1 = f + n := by omega
    have e2 : d + (n + 1) - 1 = d + n := by omega
    rw [copyBackLoop, e1, e2, copyBackLoop_eq n _ _ _ (by omega)]
    have hl : load m f (n + 1) = load m f n ++ [m (f + n)] := by
      simp [load, List.range_succ]
    rw [load_store_ne _ _ _ _ _ (by omega), hl]
    rw [store_store_before m d (d + n) (load m f n) [m (f + n)] (by rw [load_length])]

/-- C48: at run time `my_copy_backward` delivers the source for every pair of ranges and returns the beginning of the
destination; at compile time for moves to the back, or without overlap. -/
theorem c48_my_copy_backward (constant : Bool) (m : Mem) (first n dst : Nat)
    (h : constant = true → first ≤ dst ∨ dst + n ≤ first) :
    Delivers m (myCopyBackward constant m first (first + n) (dst + n)).1 first dst n ∧
    (myCopyBackward constant m first (first + n) (dst + n)).2 = dst := by
  have e : first + n - first = n := by omega
  cases constant
  · have e2 : dst + n - n = dst := by omega
    simp only [myCopyBackward, Bool.false_eq_true, if_false, e, e2, and_true, memmove]
    by_cases hn : n = 0
    · subst hn; simp; exact ⟨by intro i hi; omega, by simp⟩
    · simp only [ne_eq, hn, not_false_eq_true, if_true]; exact store_delivers m first dst n
  · simp only [myCopyBackward, if_true, e, copyBackLoop_eq n m first dst (h rfl), and_true]
    exact store_delivers m first dst n

example : load (myCopyBackward true (fun a => a) 5 8 9).1 4 6 = [4, 5, 5, 6, 7, 9] := by decide +kernel

/-- C48: `non_overlapped_copy_n` delivers the source and returns the end of the destination whenever the ranges do not
overlap, at run time and at compile time; at run time that is exactly when the call is defined. -/
theorem c48_non_overlapped_n (constant : Bool) (m : Mem) (src n dst : Nat) :
    (dst + n ≤ src ∨ src + n ≤ dst → ∃ m', nonOverlappedCopyN constant m src n dst = some (m', dst + n) ∧ Delivers m m' src dst n) ∧
    ((nonOverlappedCopyN false m src n dst).isSome ↔ n = 0 ∨ dst + n ≤ src ∨ src + n ≤ dst) := by
  constructor
  · intro h
    cases constant
    · refine ⟨store m dst (load m src n), ?_, store_delivers m src dst n⟩
      simp only [nonOverlappedCopyN, Bool.false_eq_true, if_false, memcpy]
      by_cases hn : n = 0
      · subst hn; simp [load]
      · simp only [ne_eq, hn, not_false_eq_true, if_true]; rw [if_neg (by omega)]; rfl
    · refine ⟨store m dst (load m src n), ?_, store_delivers m src dst n⟩
      simp only [nonOverlappedCopyN, if_true]
      rw [copyNLoop_eq n m src dst (by omega)]
  · simp only [nonOverlappedCopyN, Bool.false_eq_true, if_false, memcpy]
    by_cases hn : n = 0
    · subst hn; simp
    · by_cases ho : src < dst + n ∧ dst < src + n
      · simp [hn, ho]
      · simp [hn, ho]; omega

theorem copyLoop_bytes : ∀ (n : Nat) (m : Mem) (s d : Nat), copyLoop true m s d n = copyNLoop m s d n
  | 0, _, _, _ => rfl
  | n + 1, m, s, d => by simp only [copyLoop, copyNLoop, if_true]; exact copyLoop_bytes n _ _ _

theorem copyLoop_nothing : ∀ (n : Nat) (m : Mem) (s d : Nat), copyLoop false m s d n = (m, d + n)
  | 0, _, _, _ => rfl
  | n + 1, m, s, d => by
    simp only [copyLoop, Bool.false_eq_true, if_false]
    rw [copyLoop_nothing n]; exact Prod.ext rfl (by simp only []; omega)

/-- C48 (partial: at compile time only between `std::byte` and a one-byte type, see `c48_copy_violated`):
`non_overlapped_copy` delivers the source if the ranges do not overlap. -/
theorem c48_non_overlapped_partial (constant bytes : Bool) (hb : constant = true → bytes = true) (m : Mem) (src n dst : Nat)
    (h : dst + n ≤ src ∨ src + n ≤ dst) :
    ∃ m', nonOverlappedCopy constant bytes m src (src + n) dst = some (m', dst + n) ∧ Delivers m m' src dst n := by
  have e : src + n - src = n := by omega
  refine ⟨store m dst (load m src n), ?_, store_delivers m src dst n⟩
  cases constant
  · simp only [nonOverlappedCopy, Bool.false_eq_true, if_false, memcpy, e]
    by_cases hn : n = 0
    · subst hn; simp [load]
    · simp only [ne_eq, hn, not_false_eq_true, if_true]; rw [if_neg (by omega)]; rfl
  · simp only [nonOverlappedCopy, if_true, hb rfl, e, copyLoop_bytes]
    rw [copyNLoop_eq n m src dst (by omega)]

/-- C48 violated: at compile time (and for iterators that are not contiguous) `non_overlapped_copy` and `my_copy` between
equal types write nothing at all, for any range. -/
theorem c48_copy_violated (m : Mem) (src n dst : Nat) :
    nonOverlappedCopy true false m src (src + n) dst = some (m, dst + n) ∧
    myCopyOther false m src (src + n) dst = (m, dst + n) := by
  have e : src + n - src = n := by omega
  constructor
  · simp only [nonOverlappedCopy, if_true, e, copyLoop_nothing]
  · simp only [myCopyOther, e, copyLoop_nothing]

/-- So a copied word does not arrive. -/
example : ¬ Delivers (fun a => a) (myCopyOther false (fun a => a) 0 3 10).1 0 10 3 := by
  rintro ⟨h, _⟩
  have h1 := h 1 (by omega)
  rw [show (3 : Nat) = 0 + 3 by rfl, (c48_copy_violated _ 0 3 10).2] at h1
  exact absurd h1 (by decide)

theorem fillLoop_eq : ∀ (n : Nat) (m : Mem) (p v : Nat), fillLoop m p n v = store m p (List.replicate n v)
  | 0, m, p, v => by simp [fillLoop]
  | n + 1, m, p, v => by
    rw [fillLoop, fillLoop_eq n, store_store_at m p (p + 1) [v] _ rfl]; rfl

/-- C48: `my_fill_n` writes exactly `n` copies, on every path. -/
theorem c48_fill (constant byteSized : Bool) (m : Mem) (p n v : Nat) :
    myFillN constant byteSized m p n v = (store m p (List.replicate n v), p + n) := by
  unfold myFillN memset
  cases constant <;> cases byteSized <;> by_cases hn : n = 0 <;> simp [hn, fillLoop_eq]

end Verif.Copy
