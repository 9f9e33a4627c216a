import Verif.Mmap.Model
import Mathlib.Tactic.SplitIfs
import Mathlib.Tactic.Ring
/-! # C83: streams over memory-mapped files -/
namespace Verif.Mmap

/-- The bytes `d` are at address `a`. -/
def Holds (m : Mem) (a : Nat) (d : List Nat) : Prop := ∀ i (h : i < d.length), m (a + i) = some d[i]

theorem load_holds {m : Mem} : ∀ (n : Nat) {a : Nat} {d : List Nat}, Holds m a d → n ≤ d.length → load m a n = some (d.take n) := by
  intro n
  induction n with
  | zero => intro a d _ _; simp [load]
  | succ n ih =>
    intro a d h hn
    cases d with
    | nil => simp at hn
    | cons x d =>
      have h0 := h 0 (by simp)
      simp only [Nat.add_zero, List.getElem_cons_zero] at h0
      have h1 : Holds m (a + 1) d := by
        intro i hi
        have := h (i + 1) (by simpa using hi)
        rw [show a + 1 + i = a + (i + 1) by omega, this]; simp
      simp only [load, h0, Option.bind_some, ih h1 (by simpa using hn), Option.map_some, List.take_succ_cons]

theorem holds_drop {m : Mem} {a : Nat} {d : List Nat} (h : Holds m a d) (k : Nat) : Holds m (a + k) (d.drop k) := by
  intro i hi
  rw [List.length_drop] at hi
  have := h (k + i) (by omega)
  rw [show a + k + i = a + (k + i) by omega, this]; simp

theorem readAll_ok {m : Mem} {w : Nat} (hw : 0 < w) (ks : List Nat) : ∀ {s : Ptrs} {d : List Nat}, Holds m s.c d → s.e = s.c + d.length → d.length % w = 0 →
    readAll w m s ks = some (chop d (ks.map (· * w))) := by
  induction ks with
  | nil => intro s d _ _ _; rfl
  | cons k ks ih =>
    intro s d h he hm
    have hr : (s.e - s.c) / w = d.length / w := by rw [he]; congr 1; omega
    have hdiv : d.length / w * w = d.length := Nat.div_mul_cancel (Nat.dvd_of_mod_eq_zero hm)
    simp only [readAll, read, hr, List.map_cons, chop]
    by_cases hk : d.length / w < k
    · have hk' : d.length ≤ k * w := by rw [← hdiv]; exact Nat.mul_le_mul_right _ (by omega)
      rw [if_pos hk, hdiv, load_holds _ h (by omega)]
      have : readAll w m { s with c := s.c + d.length } ks = some (chop [] (ks.map (· * w))) :=
        ih (d := []) (by intro i hi; simp at hi) (by simp [he]) (by simp)
      simp only [Option.map_some, Option.bind_some, this]
      rw [List.take_of_length_le hk', List.drop_eq_nil_of_le hk', List.take_of_length_le (Nat.le_refl _)]
    · have hk' : k * w ≤ d.length := by rw [← hdiv]; exact Nat.mul_le_mul_right _ (by omega)
      rw [if_neg hk, load_holds _ h hk']
      have : readAll w m { s with c := s.c + k * w } ks = some (chop (d.drop (k * w)) (ks.map (· * w))) := by
        refine ih (holds_drop h _) (by simp [he]; omega) ?_
        rw [List.length_drop]
        have e1 : d.length - k * w = (d.length / w - k) * w := by rw [Nat.sub_mul, hdiv]
        rw [e1, Nat.mul_mod_left]
      simp only [Option.map_some, Option.bind_some, this]

/-- C83 (partial: from the beginning of the mapping): whatever sizes a program asks for, it reads the characters of the mapping in order, then
nothing, and touches no memory outside of it. `d`: the bytes of the mapping, `w`: size of a character. -/
theorem c83_read_partial (m : Mem) (w a : Nat) (hw : 0 < w) (d : List Nat) (h : Holds m a d) (ks : List Nat) :
    readAll w m (ofMap w a d.length 0) ks = some (chop (d.take (d.length / w * w)) (ks.map (· * w))) := by
  have hle : d.length / w * w ≤ d.length := Nat.div_mul_le_self _ _
  refine readAll_ok hw ks ?_ ?_ ?_
  · intro i hi
    have := h i (by simp at hi; omega)
    simp only [ofMap, Nat.add_zero]
    rw [this]; simp
  · simp only [ofMap, List.length_take]; omega
  · rw [List.length_take, Nat.min_eq_left hle, Nat.mul_mod_left]

/-- The memory of a mapping at `a` with `d` in it, and nothing else. -/
def only (a : Nat) (d : List Nat) : Mem := fun q => if a ≤ q then d[q - a]? else none

example : readAll 2 (only 100 [1, 2, 3, 4, 5, 6, 7]) (ofMap 2 100 7 0) [1, 5, 1] = some [[1, 2], [3, 4, 5, 6], []] := by decide +kernel

/-- C83 violated: reading from an offset goes past the end of the mapping. -/
theorem c83_read_offset_violated : readAll 1 (only 100 [1, 2, 3]) (ofMap 1 100 3 1) [3] = none := by decide +kernel

/-! ## Writing -/

theorem store_ok : ∀ (l : List Nat) {m : Mem} {a : Nat}, (∀ i < l.length, m (a + i) ≠ none) →
    ∃ m', store m a l = some m' ∧ ∀ q, m' q = if a ≤ q ∧ q < a + l.length then l[q - a]? else m q := by
  intro l
  induction l with
  | nil => intro m a _; refine ⟨m, rfl, fun q => ?_⟩; rw [if_neg]; simp
  | cons x l ih =>
    intro m a h
    have h0 : m a ≠ none := by simpa using h 0 (by simp)
    obtain ⟨m', e1, e2⟩ := ih (m := fun q => if q = a then some x else m q) (a := a + 1) (by
      intro i hi
      show (if a + 1 + i = a then some x else m (a + 1 + i)) ≠ none
      rw [if_neg (by omega), show a + 1 + i = a + (i + 1) by omega]
      exact h _ (by simpa using hi))
    refine ⟨m', by simp only [store, if_neg h0, e1], fun q => ?_⟩
    rw [e2]
    simp only [List.length_cons]
    by_cases hq : q = a
    · subst hq
      rw [if_neg (by omega), if_pos (by omega)]; simp
    · by_cases hq' : a + 1 ≤ q ∧ q < a + 1 + l.length
      · rw [if_pos hq', if_pos (by omega), show q - a = (q - (a + 1)) + 1 by omega, List.getElem?_cons_succ]
      · rw [if_neg hq', if_neg hq, if_neg (by omega)]

theorem length_flatten_take (ls : List (List Nat)) : ∀ (k : Nat), (ls.take k).flatten.length ≤ ls.flatten.length := by
  induction ls with
  | nil => intro k; simp
  | cons l ls ih =>
    intro k
    cases k with
    | zero => simp
    | succ k => have := ih k; simp at *; omega

theorem writeAll_ok {w : Nat} (hw : 0 < w) (ls : List (List Nat)) : ∀ {m : Mem} {s : Ptrs}, (∀ q, s.c ≤ q → q < s.e → m q ≠ none) → s.c ≤ s.e →
    (s.e - s.c) % w = 0 → (∀ l ∈ ls, l.length % w = 0) →
    (s.e - s.c < ls.flatten.length → writeAll w m s ls = some .term) ∧
    (ls.flatten.length ≤ s.e - s.c → ∃ m', writeAll w m s ls = some (.done m' { s with c := s.c + ls.flatten.length }) ∧
      ∀ q, m' q = if s.c ≤ q ∧ q < s.c + ls.flatten.length then ls.flatten[q - s.c]? else m q) := by
  induction ls with
  | nil =>
    intro m s _ _ _ _
    refine ⟨by simp, fun _ => ⟨m, rfl, fun q => ?_⟩⟩
    rw [if_neg]; simp
  | cons l ls ih =>
    intro m s hm hle hmod hl
    have hlm := hl l (by simp)
    have hdl : l.length / w * w = l.length := Nat.div_mul_cancel (Nat.dvd_of_mod_eq_zero hlm)
    have hds : (s.e - s.c) / w * w = s.e - s.c := Nat.div_mul_cancel (Nat.dvd_of_mod_eq_zero hmod)
    have hcmp : (s.e - s.c) / w < l.length / w ↔ s.e - s.c < l.length := by
      constructor
      · intro h; rw [← hdl, ← hds]; exact Nat.mul_lt_mul_of_pos_right h hw
      · intro h; rw [← hdl, ← hds] at h; exact Nat.lt_of_mul_lt_mul_right h
    by_cases hc : s.e - s.c < l.length
    · refine ⟨fun _ => ?_, fun h => ?_⟩
      · simp only [writeAll, write, if_pos (hcmp.mpr hc), Option.bind_some]
      · simp only [List.flatten_cons, List.length_append] at h; omega
    · obtain ⟨m1, e1, e2⟩ := store_ok l (m := m) (a := s.c) (fun i hi => hm _ (by omega) (by omega))
      have hwr : write w m s l = some (.done m1 { s with c := s.c + l.length }) := by
        simp only [write, if_neg (fun h => hc (hcmp.mp h)), hdl, List.take_of_length_le (Nat.le_refl _), e1, Option.map_some]
      obtain ⟨i1, i2⟩ := ih (m := m1) (s := { s with c := s.c + l.length }) (by
        intro q h1 h2
        simp only at h1 h2
        rw [e2, if_neg (by omega)]
        exact hm q (by omega) h2) (by simp only; omega) (by
        show (s.e - (s.c + l.length)) % w = 0
        have : s.e - (s.c + l.length) = ((s.e - s.c) / w - l.length / w) * w := by rw [Nat.sub_mul, hdl, hds]; omega
        rw [this, Nat.mul_mod_left]) (fun x hx => hl x (by simp [hx]))
      simp only at i1 i2
      simp only [writeAll, hwr, Option.bind_some, List.flatten_cons, List.length_append]
      refine ⟨fun h => i1 (by omega), fun h => ?_⟩
      obtain ⟨m2, f1, f2⟩ := i2 (by omega)
      refine ⟨m2, by rw [f1, Nat.add_assoc], fun q => ?_⟩
      rw [f2, e2]
      by_cases h1 : s.c + l.length ≤ q ∧ q < s.c + l.length + ls.flatten.length
      · rw [if_pos h1, if_pos (by omega), List.getElem?_append_right (by omega)]
        congr 1; omega
      · rw [if_neg h1]
        by_cases h2 : s.c ≤ q ∧ q < s.c + l.length
        · rw [if_pos h2, if_pos (by omega), List.getElem?_append_left (by omega)]
        · rw [if_neg h2, if_neg (by omega)]

/-- C83 (partial: from the beginning of the mapping): texts written one after another are in the mapping one after another and nothing else has
changed; if they do not fit, the program is terminated. `n`: size of the mapping at `a`, `w`: size of a character. -/
theorem c83_write_partial (m : Mem) (w a n : Nat) (hw : 0 < w) (hm : ∀ i < n, m (a + i) ≠ none) (ls : List (List Nat))
    (hl : ∀ l ∈ ls, l.length % w = 0) :
    (n < ls.flatten.length → writeAll w m (ofMap w a n 0) ls = some .term) ∧
    (ls.flatten.length ≤ n → ∃ m' s, writeAll w m (ofMap w a n 0) ls = some (.done m' s) ∧ s.written w = ls.flatten.length ∧
      ∀ q, m' q = if a ≤ q ∧ q < a + ls.flatten.length then ls.flatten[q - a]? else m q) := by
  have hle : n / w * w ≤ n := Nat.div_mul_le_self _ _
  have hfl : ls.flatten.length % w = 0 := by
    clear hm
    induction ls with
    | nil => simp
    | cons l ls ih =>
      rw [List.flatten_cons, List.length_append, Nat.add_mod, hl l (by simp), ih (fun x hx => hl x (by simp [hx]))]; simp
  have hdf : ls.flatten.length / w * w = ls.flatten.length := Nat.div_mul_cancel (Nat.dvd_of_mod_eq_zero hfl)
  obtain ⟨h1, h2⟩ := writeAll_ok hw ls (m := m) (s := ofMap w a n 0) (by
    intro q h1 h2
    simp only [ofMap, Nat.add_zero] at h1 h2
    have := hm (q - a) (by omega)
    rwa [show a + (q - a) = q by omega] at this) (by simp [ofMap]) (by
    simp only [ofMap, Nat.add_zero]
    rw [show a + n / w * w - a = n / w * w by omega, Nat.mul_mod_left]) hl
  have hsz : (ofMap w a n 0).e - (ofMap w a n 0).c = n / w * w := by simp only [ofMap]; omega
  rw [hsz] at h1 h2
  refine ⟨fun h => h1 (by omega), fun h => ?_⟩
  have : ls.flatten.length ≤ n / w * w := by rw [← hdf]; exact Nat.mul_le_mul_right _ (Nat.div_le_div_right h)
  obtain ⟨m', e1, e2⟩ := h2 this
  refine ⟨m', _, e1, ?_, by simpa [ofMap] using e2⟩
  simp only [Ptrs.written, ofMap, Nat.add_zero]
  rw [show a + ls.flatten.length - a = ls.flatten.length by omega, hdf]

example : (match writeAll 1 (only 100 [0, 0, 0, 9]) (ofMap 1 100 4 0) [[1], [2, 3]] with
    | some (.done m s) => (m 100, m 101, m 102, m 103, m 104, s.written 1) == (some 1, some 2, some 3, some 9, none, 3)
    | _ => false) = true := by decide +kernel

/-- C83 violated: writing from an offset goes past the end of the mapping. -/
theorem c83_write_offset_violated : (writeAll 1 (only 100 [0, 0, 0]) (ofMap 1 100 3 1) [[1, 2, 3]]).isNone = true := by decide +kernel

end Verif.Mmap
