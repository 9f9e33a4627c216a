import Verif.Utf.Lemmas2
/-!
# The UTF-8 automaton decodes characters and finds the shortest ill-formed pieces
-/
namespace Verif.Utf
open Verif

/-- Bounds of the second byte. -/
def lo2 (u : Nat) : Nat := if u = 0xE0 then 0xA0 else if u = 0xF0 then 0x90 else 0x80
def hi2 (u : Nat) : Nat := if u = 0xED then 0xA0 else if u = 0xF4 then 0x90 else 0xC0

theorem enc8_2 {u v : Nat} (h1 : 0xC2 ≤ u) (h2 : u < 0xE0) (h3 : 0x80 ≤ v) (h4 : v < 0xC0) :
    Scalar ((u - 0xC0) * 64 + (v - 0x80)) ∧ enc8 ((u - 0xC0) * 64 + (v - 0x80)) = [u, v] := by
  refine ⟨⟨by omega, by omega⟩, ?_⟩
  unfold enc8
  rw [if_neg (by omega), if_pos (by omega)]
  simp; omega

theorem enc8_3 {u v w : Nat} (h1 : 0xE0 ≤ u) (h2 : u < 0xF0) (h3 : lo2 u ≤ v) (h4 : v < hi2 u) (h5 : 0x80 ≤ w) (h6 : w < 0xC0) :
    Scalar (((u - 0xE0) * 64 + (v - 0x80)) * 64 + (w - 0x80)) ∧
    enc8 (((u - 0xE0) * 64 + (v - 0x80)) * 64 + (w - 0x80)) = [u, v, w] := by
  unfold lo2 at h3
  unfold hi2 at h4
  refine ⟨⟨by split_ifs at h3 h4 <;> omega, by split_ifs at h3 h4 <;> omega⟩, ?_⟩
  unfold enc8
  rw [if_neg (by split_ifs at h3 h4 <;> omega), if_neg (by split_ifs at h3 h4 <;> omega), if_pos (by split_ifs at h3 h4 <;> omega)]
  simp; split_ifs at h3 h4 <;> omega

theorem enc8_4 {u v w x : Nat} (h1 : 0xF0 ≤ u) (h2 : u < 0xF5) (h3 : lo2 u ≤ v) (h4 : v < hi2 u) (h5 : 0x80 ≤ w) (h6 : w < 0xC0)
    (h7 : 0x80 ≤ x) (h8 : x < 0xC0) :
    Scalar ((((u - 0xF0) * 64 + (v - 0x80)) * 64 + (w - 0x80)) * 64 + (x - 0x80)) ∧
    enc8 ((((u - 0xF0) * 64 + (v - 0x80)) * 64 + (w - 0x80)) * 64 + (x - 0x80)) = [u, v, w, x] := by
  unfold lo2 at h3
  unfold hi2 at h4
  refine ⟨⟨by split_ifs at h3 h4 <;> omega, by split_ifs at h3 h4 <;> omega⟩, ?_⟩
  unfold enc8
  rw [if_neg (by split_ifs at h3 h4 <;> omega), if_neg (by split_ifs at h3 h4 <;> omega), if_neg (by split_ifs at h3 h4 <;> omega)]
  simp; split_ifs at h3 h4 <;> omega

theorem lo2_lt (u : Nat) : lo2 u < hi2 u ∧ 0x80 ≤ lo2 u ∧ hi2 u ≤ 0xC0 := by
  unfold lo2 hi2; split_ifs <;> omega

/-! ### Incomplete prefixes -/

theorem inc1 {u : Nat} (h1 : 0xC2 ≤ u) (h2 : u < 0xF5) : Incomplete .u8 [u] := by
  refine ⟨by simp, ?_⟩
  have hl := lo2_lt u
  by_cases h3 : u < 0xE0
  · obtain ⟨a, b⟩ := enc8_2 h1 h3 (le_refl 0x80) (by omega)
    exact ⟨_, a, by simp only [enc]; rw [b]; simp, by simp only [enc]; rw [b]; simp⟩
  · by_cases h4 : u < 0xF0
    · obtain ⟨a, b⟩ := enc8_3 (by omega) h4 (le_refl _) hl.1 (le_refl 0x80) (by omega)
      exact ⟨_, a, by simp only [enc]; rw [b]; simp, by simp only [enc]; rw [b]; simp⟩
    · obtain ⟨a, b⟩ := enc8_4 (by omega) h2 (le_refl _) hl.1 (le_refl 0x80) (by omega) (le_refl 0x80) (by omega)
      exact ⟨_, a, by simp only [enc]; rw [b]; simp, by simp only [enc]; rw [b]; simp⟩

theorem inc2 {u v : Nat} (h1 : 0xE0 ≤ u) (h2 : u < 0xF5) (h3 : lo2 u ≤ v) (h4 : v < hi2 u) : Incomplete .u8 [u, v] := by
  refine ⟨by simp, ?_⟩
  by_cases h5 : u < 0xF0
  · obtain ⟨a, b⟩ := enc8_3 h1 h5 h3 h4 (le_refl 0x80) (by omega)
    exact ⟨_, a, by simp only [enc]; rw [b]; simp, by simp only [enc]; rw [b]; simp⟩
  · obtain ⟨a, b⟩ := enc8_4 (by omega) h2 h3 h4 (le_refl 0x80) (by omega) (le_refl 0x80) (by omega)
    exact ⟨_, a, by simp only [enc]; rw [b]; simp, by simp only [enc]; rw [b]; simp⟩

theorem inc3 {u v w : Nat} (h1 : 0xF0 ≤ u) (h2 : u < 0xF5) (h3 : lo2 u ≤ v) (h4 : v < hi2 u) (h5 : 0x80 ≤ w) (h6 : w < 0xC0) :
    Incomplete .u8 [u, v, w] := by
  refine ⟨by simp, ?_⟩
  obtain ⟨a, b⟩ := enc8_4 h1 h2 h3 h4 h5 h6 (le_refl 0x80) (by omega)
  exact ⟨_, a, by simp only [enc]; rw [b]; simp, by simp only [enc]; rw [b]; simp⟩

/-! ### Ill-formed pieces -/

theorem bad1 {u : Nat} (h : (0x80 ≤ u ∧ u < 0xC2) ∨ 0xF5 ≤ u) : Bad .u8 [u] := by
  refine ⟨by simp, ?_, by simp⟩
  intro c hc
  unfold Scalar at hc
  simp only [enc, enc8]
  split_ifs <;> simp [List.cons_prefix_cons] <;> omega

theorem bad2 {u v : Nat} (h1 : 0xC2 ≤ u) (h2 : u < 0xF5) (h3 : v < lo2 u ∨ hi2 u ≤ v) : Bad .u8 [u, v] := by
  refine ⟨by simp, ?_, Or.inr (by simpa using inc1 h1 h2)⟩
  intro c hc
  unfold Scalar at hc
  unfold lo2 hi2 at h3
  simp only [enc, enc8]
  split_ifs <;> simp [List.cons_prefix_cons] <;> split_ifs at h3 <;> omega

theorem bad3 {u v w : Nat} (h1 : 0xE0 ≤ u) (h2 : u < 0xF5) (h3 : lo2 u ≤ v) (h4 : v < hi2 u) (h5 : w < 0x80 ∨ 0xC0 ≤ w) :
    Bad .u8 [u, v, w] := by
  refine ⟨by simp, ?_, Or.inr (by simpa using inc2 h1 h2 h3 h4)⟩
  intro c hc
  unfold Scalar at hc
  simp only [enc, enc8]
  split_ifs <;> simp [List.cons_prefix_cons] <;> omega

theorem bad4 {u v w x : Nat} (h1 : 0xF0 ≤ u) (h2 : u < 0xF5) (h3 : lo2 u ≤ v) (h4 : v < hi2 u) (h5 : 0x80 ≤ w) (h6 : w < 0xC0)
    (h7 : x < 0x80 ∨ 0xC0 ≤ x) : Bad .u8 [u, v, w, x] := by
  refine ⟨by simp, ?_, Or.inr (by simpa using inc3 h1 h2 h3 h4 h5 h6)⟩
  intro c hc
  unfold Scalar at hc
  simp only [enc, enc8]
  split_ifs <;> simp [List.cons_prefix_cons] <;> omega

/-! ### The automaton -/

/-- What one step of the decoder finds at the front of `l`. -/
def AdvOk (l : List Nat) (r : Option (Option (List Nat × Nat))) : Prop :=
  (∃ c rest, Scalar c ∧ l = enc8 c ++ rest ∧ r = some (some (rest, c))) ∨
  (∃ p rest, Bad .u8 p ∧ l = p ++ rest ∧ r = some (some (rest, 0xFFFD))) ∨
  (Incomplete .u8 l ∧ r = some none)

theorem first2 (u : Nat) (h1 : 0xC2 ≤ u) (h2 : u < 0xE0) : firstUnitInfo[u]? = some (u - 0xC0, 24) := by
  rw [first_ok u (by omega), if_neg (by omega), if_neg (by omega), if_neg (by omega), if_pos h2]

/-- The state after the first byte of a sequence of three, and its transition. -/
theorem first3 (u : Nat) (h1 : 0xE0 ≤ u) (h2 : u < 0xF0) : ∃ s, 12 < s ∧ firstUnitInfo[u]? = some (u - 0xE0, s) ∧
    ∀ v < 256, transitions[s + octetCategory.getD v 0]? = some (if lo2 u ≤ v ∧ v < hi2 u then 24 else 12) := by
  rw [first_ok u (by omega), if_neg (by omega), if_neg (by omega), if_neg (by omega), if_neg (by omega)]
  unfold lo2 hi2
  by_cases h3 : u = 0xE0
  · subst h3
    exact ⟨60, by omega, by simp, by simpa using tr60⟩
  · rw [if_neg h3]
    by_cases h4 : u = 0xED
    · subst h4
      exact ⟨72, by omega, by simp, by simpa using tr72⟩
    · rw [if_neg h4, if_pos h2]
      refine ⟨36, by omega, rfl, ?_⟩
      rw [if_neg h3, if_neg (by omega), if_neg h4, if_neg (by omega)]
      exact tr36

theorem first4 (u : Nat) (h1 : 0xF0 ≤ u) (h2 : u < 0xF5) : ∃ s, 12 < s ∧ firstUnitInfo[u]? = some (u - 0xF0, s) ∧
    ∀ v < 256, transitions[s + octetCategory.getD v 0]? = some (if lo2 u ≤ v ∧ v < hi2 u then 36 else 12) := by
  rw [first_ok u (by omega), if_neg (by omega), if_neg (by omega), if_neg (by omega), if_neg (by omega), if_neg (by omega),
    if_neg (by omega), if_neg (by omega)]
  unfold lo2 hi2
  by_cases h3 : u = 0xF0
  · subst h3
    exact ⟨84, by omega, by simp, by simpa using tr84⟩
  · rw [if_neg h3]
    by_cases h4 : u < 0xF4
    · rw [if_pos h4]
      refine ⟨48, by omega, rfl, ?_⟩
      rw [if_neg (by omega), if_neg h3, if_neg (by omega), if_neg (by omega)]
      exact tr48
    · have : u = 0xF4 := by omega
      subst this
      exact ⟨96, by omega, by simp, by simpa using tr96⟩

theorem advance_ok (l : List Nat) (hl : l ≠ []) (hb : ∀ u ∈ l, u < 256) : AdvOk l (advance l) := by
  cases l with
  | nil => exact absurd rfl hl
  | cons u t =>
  have hu := hb u (by simp)
  have ht : ∀ x ∈ t, x < 256 := fun x hx => hb x (by simp [hx])
  unfold advance
  simp only [Option.bind_eq_bind]
  by_cases h1 : u < 0x80
  · rw [first_ok u hu, if_pos h1]
    simp only [Option.bind_some]
    rw [advLoop_end]
    left
    exact ⟨u, t, ⟨by omega, by omega⟩, by simp [enc8, h1], rfl⟩
  by_cases h2 : u < 0xC2 ∨ 0xF5 ≤ u
  · have : firstUnitInfo[u]? = some ((if u < 0xC0 then u - 0x80 else u), 12) := by
      rw [first_ok u hu, if_neg h1]
      rcases h2 with h2 | h2
      · by_cases h3 : u < 0xC0
        · rw [if_pos h3, if_pos h3]
        · rw [if_neg h3, if_pos h2, if_neg h3]
      · rw [if_neg (by omega), if_neg (by omega), if_neg (by omega), if_neg (by omega), if_neg (by omega), if_neg (by omega),
          if_neg (by omega), if_neg (by omega), if_neg (by omega), if_neg (by omega)]
    rw [this]
    simp only [Option.bind_some]
    rw [advLoop_bad]
    right; left
    exact ⟨[u], t, bad1 (by omega), rfl, rfl⟩
  have h3 : 0xC2 ≤ u ∧ u < 0xF5 := by omega
  by_cases h4 : u < 0xE0
  · rw [first2 u h3.1 h4]
    simp only [Option.bind_some]
    rw [advLoop24 _ _ ht (by norm_num; omega)]
    cases t with
    | nil => right; right; exact ⟨inc1 h3.1 h3.2, rfl⟩
    | cons v t =>
      have hv := ht v (by simp)
      simp only
      split_ifs with h5
      · left
        obtain ⟨a, b⟩ := enc8_2 h3.1 h4 h5.1 h5.2
        refine ⟨_, t, a, by rw [b]; rfl, ?_⟩
        simp only [Option.some.injEq, Prod.mk.injEq, true_and]; omega
      · right; left
        refine ⟨[u, v], t, bad2 h3.1 h3.2 ?_, rfl, rfl⟩
        unfold lo2 hi2
        rw [if_neg (by omega), if_neg (by omega), if_neg (by omega), if_neg (by omega)]
        omega
  by_cases h5 : u < 0xF0
  · obtain ⟨s, hs, hf, htr⟩ := first3 u (by omega) h5
    rw [hf]
    simp only [Option.bind_some]
    cases t with
    | nil => right; right; exact ⟨inc1 h3.1 h3.2, advLoop_nil _ _ hs⟩
    | cons v t =>
      have hv := ht v (by simp)
      have ht' : ∀ x ∈ t, x < 256 := fun x hx => ht x (by simp [hx])
      rw [advLoop_step _ _ _ _ _ hs hv (by norm_num; omega) (htr v hv)]
      by_cases h6 : lo2 u ≤ v ∧ v < hi2 u
      · rw [if_pos h6, advLoop24 _ _ ht' (by norm_num; omega)]
        cases t with
        | nil => right; right; exact ⟨inc2 (by omega) h3.2 h6.1 h6.2, rfl⟩
        | cons w t =>
          simp only
          split_ifs with h7
          · left
            obtain ⟨a, b⟩ := enc8_3 (by omega) h5 h6.1 h6.2 h7.1 h7.2
            refine ⟨_, t, a, by rw [b]; rfl, ?_⟩
            have := lo2_lt u
            simp only [Option.some.injEq, Prod.mk.injEq, true_and]; omega
          · right; left
            exact ⟨[u, v, w], t, bad3 (by omega) h3.2 h6.1 h6.2 (by omega), rfl, rfl⟩
      · rw [if_neg h6, advLoop_bad]
        right; left
        exact ⟨[u, v], t, bad2 h3.1 h3.2 (by omega), rfl, rfl⟩
  · obtain ⟨s, hs, hf, htr⟩ := first4 u (by omega) h3.2
    rw [hf]
    simp only [Option.bind_some]
    cases t with
    | nil => right; right; exact ⟨inc1 h3.1 h3.2, advLoop_nil _ _ hs⟩
    | cons v t =>
      have hv := ht v (by simp)
      have ht' : ∀ x ∈ t, x < 256 := fun x hx => ht x (by simp [hx])
      rw [advLoop_step _ _ _ _ _ hs hv (by norm_num; omega) (htr v hv)]
      by_cases h6 : lo2 u ≤ v ∧ v < hi2 u
      · rw [if_pos h6]
        cases t with
        | nil => right; right; exact ⟨inc2 (by omega) h3.2 h6.1 h6.2, advLoop_nil _ _ (by omega)⟩
        | cons w t =>
          have hw := ht' w (by simp)
          have ht'' : ∀ x ∈ t, x < 256 := fun x hx => ht' x (by simp [hx])
          rw [advLoop_step _ _ _ _ _ (by omega) hw (by norm_num; omega) (tr36 w hw)]
          by_cases h7 : 128 ≤ w ∧ w < 192
          · rw [if_pos h7, advLoop24 _ _ ht'' (by norm_num; omega)]
            cases t with
            | nil => right; right; exact ⟨inc3 (by omega) h3.2 h6.1 h6.2 h7.1 h7.2, rfl⟩
            | cons x t =>
              simp only
              split_ifs with h8
              · left
                obtain ⟨a, b⟩ := enc8_4 (by omega) h3.2 h6.1 h6.2 h7.1 h7.2 h8.1 h8.2
                refine ⟨_, t, a, by rw [b]; rfl, ?_⟩
                have := lo2_lt u
                simp only [Option.some.injEq, Prod.mk.injEq, true_and]; omega
              · right; left
                exact ⟨[u, v, w, x], t, bad4 (by omega) h3.2 h6.1 h6.2 h7.1 h7.2 (by omega), rfl, rfl⟩
          · rw [if_neg h7, advLoop_bad]
            right; left
            exact ⟨[u, v, w], t, bad3 (by omega) h3.2 h6.1 h6.2 (by omega), rfl, rfl⟩
      · rw [if_neg h6, advLoop_bad]
        right; left
        exact ⟨[u, v], t, bad2 h3.1 h3.2 (by omega), rfl, rfl⟩

end Verif.Utf
