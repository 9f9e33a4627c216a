import Verif.LcFloat.Decide
/-! # A `float` with 14 integer digits has at most 8 significant digits -/
namespace Verif.LcFloat
open Verif Verif.IntPrint Verif.Float Verif.Lc

theorem room32_decimal (st : Bool) (e f k : Nat) (n : Int) (hf : f < 2 ^ 23) (he : e < 255)
    (hnz : ¬ (f = 0 ∧ e = 0)) (hi : dragonImpl db32 st f e = some (k, n)) (hn : n ≤ 5) :
    (decText k).length + n ≤ 13 := by
  obtain ⟨k', n', h1, hg, hst, h2', -, -, -⟩ := dragonImpl_weak pair32 st f e hf (by simpa [tF32] using he) hnz
  have h2 := digits_bound pair32 h2'
  rw [hi] at h1
  obtain ⟨rfl, rfl⟩ : k = k' ∧ n = n' := by simpa using h1
  have h9 := (decText_len_le k 9 (by norm_num)).mpr h2
  by_contra hc
  have hn5 : n = 5 := by omega
  have hl9 : (decText k).length = 9 := by omega
  subst hn5
  have hk8 := decText_lower k hg.pos
  rw [hl9] at hk8
  have hk10 : k % 10 ≠ 0 := hst (by simp [db32])
  have hup := hg.upper
  have huniq := hg.uniq
  have hm := significand_lt 23 e f hf
  have hmp := significand_pos 23 e f hnz
  change _ ≤ (2 * (Spec.significand 23 e f : ℚ) + 6 / 5) * (2 : ℚ) ^ (Spec.ulpExp 23 8 e - 1) at hup
  change ∀ (t : Nat) (j : Int), 5 < j → InsideQ (Spec.significand 23 e f) (Spec.ulpExp 23 8 e) (t * (10 : ℚ) ^ j) → _ at huniq
  generalize Spec.significand 23 e f = M at *
  generalize Spec.ulpExp 23 8 e = E at *
  have hkl : (100000000 : ℚ) ≤ k := by exact_mod_cast hk8
  have hm2 : (2 * (M : ℚ) + 6 / 5) ≤ 2 ^ 25 := by
    have : 2 * M + 2 ≤ 2 ^ 25 := by omega
    have h : (2 * (M : ℚ) + 2) ≤ 2 ^ 25 := by exact_mod_cast this
    linarith
  have hEp : (0 : ℚ) < (2 : ℚ) ^ (E - 1) := zpow_pos (by norm_num) _
  have hge : 20 ≤ E := by
    by_contra hlt
    have h7 : (2 : ℚ) ^ (E - 1) ≤ (2 : ℚ) ^ (18 : Int) := zpow_le_zpow_right₀ (by norm_num) (by omega)
    have h8 : (2 * (M : ℚ) + 6 / 5) * (2 : ℚ) ^ (E - 1) ≤ 2 ^ 25 * (2 : ℚ) ^ (18 : Int) := mul_le_mul hm2 h7 hEp.le (by norm_num)
    norm_num at h8 hup
    linarith
  obtain ⟨j, hj⟩ : ∃ j : Nat, E - 1 = j := ⟨(E - 1).toNat, by omega⟩
  have hj19 : 19 ≤ j := by omega
  have hp : 2 ^ 19 ≤ 2 ^ j := Nat.pow_le_pow_right (by norm_num) hj19
  generalize hP : 2 ^ j = P at *
  have hz : (2 : ℚ) ^ (E - 1) = (P : ℚ) := by rw [hj, zpow_natCast, ← hP]; push_cast; rfl
  -- a multiple of a million inside
  let N := (2 * M + 1) * P
  let t := (N - 1) / 1000000
  have hN : N = 2 * (M * P) + P := by simp only [N]; ring
  have hMP : P ≤ M * P := Nat.le_mul_of_pos_left _ (by omega)
  have ht1 : t * 1000000 < N := by simp only [t]; omega
  have ht2 : N < t * 1000000 + 2 * P := by simp only [t]; omega
  have hN1 : ((2 * M + 1 : ℚ)) * P = N := by simp only [N]; push_cast; ring
  have hN2 : ((2 * M - 1 : ℚ)) * P = N - 2 * P := by rw [← hN1]; ring
  have q1 : (t : ℚ) * 1000000 < N := by exact_mod_cast ht1
  have q2 : (N : ℚ) < t * 1000000 + 2 * P := by exact_mod_cast ht2
  have h6 : (10 : ℚ) ^ (6 : Int) = 1000000 := by norm_num
  have := huniq t 6 (by omega) (by
    unfold InsideQ
    rw [hz, hN1, hN2, h6]
    exact ⟨⟨by linarith, by linarith⟩, fun _ => ⟨by linarith, by linarith⟩⟩)
  rw [h6, show (10 : ℚ) ^ (5 : Int) = 100000 by norm_num] at this
  have h10 : t * 1000000 = k * 100000 := by exact_mod_cast this
  omega

end Verif.LcFloat
