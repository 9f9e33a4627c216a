import Verif.Float.RtPow2
/-! # Shortest and closest -/
namespace Verif.Float
open Verif Verif.IntPrint

theorem decText_lower (k : Nat) (hk : 0 < k) : 10 ^ ((decText k).length - 1) ≤ k := by
  have := decText_len_pos k
  by_contra hc
  push Not at hc
  by_cases h1 : (decText k).length - 1 = 0
  · rw [h1, pow_zero] at hc; omega
  · have := (decText_len_le k ((decText k).length - 1) (by omega)).mpr hc
    omega

theorem decText_upper (k : Nat) : k < 10 ^ (decText k).length :=
  (decText_len_le k _ (decText_len_pos k)).mp le_rfl

theorem decText_ge (k n : Nat) (h : 10 ^ n ≤ k) : n + 1 ≤ (decText k).length := by
  by_contra hc
  have h1 := decText_upper k
  have : 10 ^ (decText k).length ≤ 10 ^ n := Nat.pow_le_pow_right (by norm_num) (by omega)
  omega

theorem good_fewest {m : Nat} {E : Int} {k : Nat} {n : Int} {c : Prop} (h : Good m E k n c) (h10 : k % 10 ≠ 0)
    (t : Nat) (j : Int) (ht : 0 < t) (hin : InsideQ m E (t * (10 : ℚ) ^ j)) :
    (decText k).length ≤ (decText t).length := by
  have h1 := good_shortest h h10 ((decText k).length - 1) (decText_lower k h.pos) t j ht hin
  have := decText_ge t _ h1
  have := decText_len_pos k
  omega

/-- Something with as many digits but a smaller exponent is only possible below ten units. -/
theorem finer_small {m : Nat} {E : Int} {k : Nat} {n : Int} {c : Prop} (h : Good m E k n c) (h10 : k % 10 ≠ 0)
    (t : Nat) (j : Int) (hin : InsideQ m E (t * (10 : ℚ) ^ j)) (hlen : (decText t).length = (decText k).length)
    (hj : j < n) : k < 10 ∧ t < 10 ∧ m ≤ 9 := by
  have hkl := decText_lower k h.pos
  have htu := decText_upper t
  rw [hlen] at htu
  have hpos := decText_len_pos k
  obtain ⟨l, hl⟩ : ∃ l, (decText k).length = l + 1 := ⟨(decText k).length - 1, by omega⟩
  rw [hl] at htu hkl
  rw [Nat.add_sub_cancel] at hkl
  have hj1 : (10 : ℚ) ^ j ≤ (10 : ℚ) ^ (n - 1) := zpow_le_zpow_right₀ (by norm_num) (by omega)
  have p0 : (0 : ℚ) < (10 : ℚ) ^ (n - 1) := zpow_pos (by norm_num) _
  have hn1 : (10 : ℚ) ^ n = 10 * (10 : ℚ) ^ (n - 1) := by rw [zpow_sub_one₀ (by norm_num)]; ring
  have hmid1 : (t : ℚ) * (10 : ℚ) ^ j ≤ ((1 : Nat) : ℚ) * (10 : ℚ) ^ (n + l) := by
    have a1 : (t : ℚ) ≤ 10 ^ (l + 1) := by exact_mod_cast htu.le
    calc (t : ℚ) * (10 : ℚ) ^ j ≤ 10 ^ (l + 1) * (10 : ℚ) ^ (n - 1) :=
          mul_le_mul a1 hj1 (zpow_pos (by norm_num) _).le (by positivity)
      _ = _ := by rw [zpow_add₀ (by norm_num), zpow_natCast, hn1]; push_cast; ring
  have hmid2 : ((1 : Nat) : ℚ) * (10 : ℚ) ^ (n + l) ≤ k * (10 : ℚ) ^ n := by
    have a1 : (10 : ℚ) ^ l ≤ k := by exact_mod_cast hkl
    rw [zpow_add₀ (by norm_num), zpow_natCast]
    have : (0 : ℚ) < (10 : ℚ) ^ n := zpow_pos (by norm_num) _
    push_cast
    nlinarith
  have hmid : InsideQ m E ((1 : Nat) * (10 : ℚ) ^ (n + l)) :=
    ⟨⟨le_trans hin.1.1 hmid1, le_trans hmid2 h.inside.1.2⟩,
      fun ho => ⟨lt_of_lt_of_le (hin.2 ho).1 hmid1, lt_of_le_of_lt hmid2 (h.inside.2 ho).2⟩⟩
  rcases Nat.eq_zero_or_pos l with rfl | hl0
  · have hk10 : k < 10 := by have := decText_upper k; rw [hl] at this; simpa using this
    have ht10 : t < 10 := by simpa using htu
    refine ⟨hk10, ht10, ?_⟩
    have a1 : (t : ℚ) ≤ 9 := by
      have : t ≤ 9 := by omega
      exact_mod_cast this
    have b1 : (t : ℚ) * (10 : ℚ) ^ j ≤ 9 * (10 : ℚ) ^ (n - 1) :=
      mul_le_mul a1 hj1 (zpow_pos (by norm_num) _).le (by norm_num)
    have b2 := hin.1.1
    have b3 := hmid.1.2
    rw [Nat.cast_zero, add_zero, hn1] at b3
    have hu : (0 : ℚ) < (2 : ℚ) ^ (E - 1) := zpow_pos (by norm_num) _
    generalize (2 : ℚ) ^ (E - 1) = u at *
    generalize (10 : ℚ) ^ (n - 1) = w at *
    push_cast at b3
    have : (10 * (2 * m - 1) : ℚ) * u ≤ (9 * (2 * m + 1)) * u := by nlinarith
    have := le_of_mul_le_mul_right this hu
    have h20 : (2 * m : ℚ) ≤ 19 := by linarith
    have : 2 * m ≤ 19 := by exact_mod_cast h20
    omega
  · exact absurd hmid (good_maximal h h10 1 (n + l) (by omega))

theorem smallest_values : dragonImpl db64 true 1 0 = some (5, -324) ∧ dragonImpl db64 true 2 0 = some (1, -323) ∧
    dragonImpl db64 true 3 0 = some (15, -324) ∧ dragonImpl db64 true 4 0 = some (2, -323) ∧
    dragonImpl db64 true 5 0 = some (25, -324) ∧ dragonImpl db64 true 6 0 = some (3, -323) ∧
    dragonImpl db64 true 7 0 = some (35, -324) ∧ dragonImpl db64 true 8 0 = some (4, -323) ∧
    dragonImpl db64 true 9 0 = some (44, -324) := by decide +kernel

set_option exponentiation.threshold 2000 in
/-- The result of `dragonbox_impl` on 64-bit targets is shortest and, among the shortest, closest. -/
theorem double_best (e f k : Nat) (n : Int) (hf : f < 2 ^ 52) (hnz : ¬ (f = 0 ∧ e = 0))
    (hi : dragonImpl db64 true f e = some (k, n))
    (h : Good (Spec.significand 52 e f) (Spec.ulpExp 52 11 e) k n (db64 = db64)) (h10 : k % 10 ≠ 0)
    (t : Nat) (j : Int) (ht : 0 < t) (hr : Spec.RoundsTo 52 11 (t * (10 : ℚ) ^ j) e f) :
      (decText k).length ≤ (decText t).length ∧ ((decText t).length = (decText k).length →
        |(k : ℚ) * (10 : ℚ) ^ n - Spec.magnitude 52 11 e f| ≤ |t * (10 : ℚ) ^ j - Spec.magnitude 52 11 e f|) := by
  have hin := inside_of_rounds 52 11 e f hf (significand_pos 52 e f hnz) _ hr
  refine ⟨good_fewest h h10 t j ht hin, fun hlen => ?_⟩
  by_cases hj : n ≤ j
  · exact h.near rfl t j hj hin
  · obtain ⟨a1, a2, a3⟩ := finer_small h h10 t j hin hlen (by omega)
    have he : e = 0 := by
      by_contra he
      unfold Spec.significand at a3
      rw [if_neg he] at a3
      omega
    subst he
    have hs : Spec.significand 52 0 f = f := rfl
    have hE : Spec.ulpExp 52 11 0 = -1074 := by norm_num [Spec.ulpExp, Spec.bias]
    rw [hs] at a3
    have hlow := hin.1.1
    rw [hs, hE] at hlow
    have hE1 : ((-1074 : Int) - 1) = -1075 := by norm_num
    rw [hE1] at hlow
    have hj1 : (10 : ℚ) ^ j ≤ (10 : ℚ) ^ (n - 1) := zpow_le_zpow_right₀ (by norm_num) (by omega)
    have ht9 : (t : ℚ) ≤ 9 := by
      have : t ≤ 9 := by omega
      exact_mod_cast this
    have hy : (t : ℚ) * (10 : ℚ) ^ j ≤ 9 * (10 : ℚ) ^ (n - 1) :=
      mul_le_mul ht9 hj1 (zpow_pos (by norm_num) _).le (by norm_num)
    obtain ⟨s1, s2, s3, s4, s5, s6, s7, s8, s9⟩ := smallest_values
    have hf0 : f ≠ 0 := fun h => hnz ⟨h, rfl⟩
    have : f = 1 ∨ f = 2 ∨ f = 3 ∨ f = 4 ∨ f = 5 ∨ f = 6 ∨ f = 7 ∨ f = 8 ∨ f = 9 := by omega
    rcases this with rfl | rfl | rfl | rfl | rfl | rfl | rfl | rfl | rfl
    · rw [s1] at hi; obtain ⟨rfl, rfl⟩ : 5 = k ∧ -324 = n := by simpa using hi
      exfalso; norm_num at hlow hy; linarith
    · rw [s2] at hi; obtain ⟨rfl, rfl⟩ : 1 = k ∧ -323 = n := by simpa using hi
      have hmag : Spec.magnitude 52 11 0 2 = 2 * (2 : ℚ) ^ (-1074 : Int) := by
        unfold Spec.magnitude; rw [hE]; rfl
      rw [hmag]
      by_cases hj2 : j = -324
      · subst hj2
        have ht8 : t = 8 ∨ t = 9 := by
          by_contra hc
          have : t ≤ 7 := by omega
          have : (t : ℚ) ≤ 7 := by exact_mod_cast this
          norm_num at hlow
          linarith
        rcases ht8 with rfl | rfl
        · norm_num [abs_le]
        · norm_num [abs_le]
      · exfalso
        have hj3 : (10 : ℚ) ^ j ≤ (10 : ℚ) ^ (-325 : Int) := zpow_le_zpow_right₀ (by norm_num) (by omega)
        have hy : (t : ℚ) * (10 : ℚ) ^ j ≤ 9 * (10 : ℚ) ^ (-325 : Int) :=
          mul_le_mul ht9 hj3 (zpow_pos (by norm_num) _).le (by norm_num)
        norm_num at hlow hy; linarith
    · rw [s3] at hi; obtain ⟨rfl, rfl⟩ : 15 = k ∧ -324 = n := by simpa using hi
      omega
    · rw [s4] at hi; obtain ⟨rfl, rfl⟩ : 2 = k ∧ -323 = n := by simpa using hi
      exfalso; norm_num at hlow hy; linarith
    · rw [s5] at hi; obtain ⟨rfl, rfl⟩ : 25 = k ∧ -324 = n := by simpa using hi
      omega
    · rw [s6] at hi; obtain ⟨rfl, rfl⟩ : 3 = k ∧ -323 = n := by simpa using hi
      exfalso; norm_num at hlow hy; linarith
    · rw [s7] at hi; obtain ⟨rfl, rfl⟩ : 35 = k ∧ -324 = n := by simpa using hi
      omega
    · rw [s8] at hi; obtain ⟨rfl, rfl⟩ : 4 = k ∧ -323 = n := by simpa using hi
      exfalso; norm_num at hlow hy; linarith
    · rw [s9] at hi; obtain ⟨rfl, rfl⟩ : 44 = k ∧ -324 = n := by simpa using hi
      omega

end Verif.Float
