import Verif.Float.RtProps
/-! # C46: different numbers have different texts -/
namespace Verif.Float
open Verif Verif.IntPrint

/-! ## Rounding gives one number -/

theorem sig_lt (mb e f : Nat) (hf : f < 2 ^ mb) : Spec.significand mb e f < 2 ^ (mb + 1) := by
  unfold Spec.significand; split <;> rw [pow_succ] <;> omega

theorem sig_ge (mb e f : Nat) (he : e ≠ 0) : 2 ^ mb ≤ Spec.significand mb e f := by
  unfold Spec.significand; rw [if_neg he]; omega

theorem grid_mag (mb eb e f : Nat) (hf : f < 2 ^ mb) : Spec.Grid mb eb (Spec.magnitude mb eb e f) := by
  refine ⟨Spec.significand mb e f, Spec.ulpExp mb eb e, sig_lt mb e f hf, ?_, rfl⟩
  unfold Spec.ulpExp; simp only [if_true]; split <;> omega

/-- A number with the larger exponent is larger. -/
theorem mag_lt_of_exp (mb eb e f e' f' : Nat) (hf : f < 2 ^ mb) (h : Spec.ulpExp mb eb e < Spec.ulpExp mb eb e') :
    Spec.magnitude mb eb e f < Spec.magnitude mb eb e' f' := by
  have he' : e' ≠ 0 := by
    rintro rfl
    unfold Spec.ulpExp at h
    simp only [if_true] at h
    split at h <;> omega
  unfold Spec.magnitude
  have h1 := sig_lt mb e f hf
  have h2 := sig_ge mb e' f' he'
  have h3 : (2 : ℚ) ^ (Spec.ulpExp mb eb e + 1) ≤ (2 : ℚ) ^ Spec.ulpExp mb eb e' :=
    zpow_le_zpow_right₀ (by norm_num) (by omega)
  have h4 : (0 : ℚ) < (2 : ℚ) ^ Spec.ulpExp mb eb e := zpow_pos (by norm_num) _
  rw [zpow_add_one₀ (by norm_num)] at h3
  have h5 : (Spec.significand mb e f : ℚ) < 2 ^ (mb + 1) := by exact_mod_cast h1
  have h6 : (2 : ℚ) ^ mb ≤ Spec.significand mb e' f' := by exact_mod_cast h2
  calc (Spec.significand mb e f : ℚ) * (2 : ℚ) ^ Spec.ulpExp mb eb e < 2 ^ (mb + 1) * (2 : ℚ) ^ Spec.ulpExp mb eb e :=
        mul_lt_mul_of_pos_right h5 h4
    _ = 2 ^ mb * ((2 : ℚ) ^ Spec.ulpExp mb eb e * 2) := by rw [pow_succ]; ring
    _ ≤ Spec.significand mb e' f' * (2 : ℚ) ^ Spec.ulpExp mb eb e' :=
        mul_le_mul h6 h3 (by positivity) (by positivity)

/-- The magnitude determines the fields. -/
theorem mag_inj (mb eb e f e' f' : Nat) (hf : f < 2 ^ mb) (hf' : f' < 2 ^ mb)
    (h : Spec.magnitude mb eb e f = Spec.magnitude mb eb e' f') : e = e' ∧ f = f' := by
  have hE : Spec.ulpExp mb eb e = Spec.ulpExp mb eb e' := by
    rcases lt_trichotomy (Spec.ulpExp mb eb e) (Spec.ulpExp mb eb e') with g | g | g
    · exact absurd h (ne_of_lt (mag_lt_of_exp mb eb e f e' f' hf g))
    · exact g
    · exact absurd h.symm (ne_of_lt (mag_lt_of_exp mb eb e' f' e f hf' g))
  unfold Spec.magnitude at h
  rw [hE] at h
  have hs : (Spec.significand mb e f : ℚ) = Spec.significand mb e' f' :=
    mul_right_cancel₀ (zpow_ne_zero _ (by norm_num)) h
  have hs : Spec.significand mb e f = Spec.significand mb e' f' := by exact_mod_cast hs
  unfold Spec.ulpExp at hE
  unfold Spec.significand at hs
  split at hE <;> split at hE <;> simp_all <;> omega

theorem grid_succ (mb eb M : Nat) (E : Int) (hM : M < 2 ^ (mb + 1)) (hE : Spec.ulpExp mb eb 0 ≤ E) :
    Spec.Grid mb eb (((M + 1 : Nat) : ℚ) * (2 : ℚ) ^ E) := by
  by_cases h : M + 1 < 2 ^ (mb + 1)
  · exact ⟨M + 1, E, h, hE, rfl⟩
  · have hM1 : M + 1 = 2 ^ (mb + 1) := by omega
    refine ⟨2 ^ mb, E + 1, by rw [pow_succ]; have : 0 < 2 ^ mb := Nat.pow_pos (by norm_num); omega, by omega, ?_⟩
    rw [hM1, zpow_add_one₀ (by norm_num)]
    push_cast
    rw [pow_succ]
    ring

/-- No decimal number lies in the middle of two numbers with even significands, if it is read as both. -/
theorem rounds_not_lt (mb eb : Nat) (x : ℚ) (e f e' f' : Nat) (hf : f < 2 ^ mb) (hf' : f' < 2 ^ mb)
    (h : Spec.RoundsTo mb eb x e f) (h' : Spec.RoundsTo mb eb x e' f') :
    ¬ Spec.magnitude mb eb e f < Spec.magnitude mb eb e' f' := by
  intro hlt
  have h1 := h _ (grid_mag mb eb e' f' hf') (ne_of_gt hlt)
  have h2 := h' _ (grid_mag mb eb e f hf) (ne_of_lt hlt)
  have heq : |x - Spec.magnitude mb eb e f| = |x - Spec.magnitude mb eb e' f'| ∧ Spec.significand mb e f % 2 = 0 ∧
      Spec.significand mb e' f' % 2 = 0 := by
    rcases h1 with h1 | h1 <;> rcases h2 with h2 | h2
    · exact absurd h1 (not_lt.mpr h2.le)
    · exact absurd h1 (by rw [h2.1]; exact lt_irrefl _)
    · exact absurd h2 (by rw [h1.1]; exact lt_irrefl _)
    · exact ⟨h1.1, h1.2, h2.2⟩
  obtain ⟨hd, he2, he2'⟩ := heq
  have hEle : Spec.ulpExp mb eb e ≤ Spec.ulpExp mb eb e' := by
    by_contra hc
    exact absurd (mag_lt_of_exp mb eb e' f' e f hf' (by omega)) (not_lt.mpr hlt.le)
  obtain ⟨j, hj⟩ : ∃ j : Nat, Spec.ulpExp mb eb e' = Spec.ulpExp mb eb e + j :=
    ⟨(Spec.ulpExp mb eb e' - Spec.ulpExp mb eb e).toNat, by omega⟩
  have hE0 : Spec.ulpExp mb eb 0 ≤ Spec.ulpExp mb eb e := by
    unfold Spec.ulpExp; simp only [if_true]; split <;> omega
  have hg := grid_succ mb eb (Spec.significand mb e f) (Spec.ulpExp mb eb e) (sig_lt mb e f hf) hE0
  have hm' : Spec.magnitude mb eb e' f' = ((Spec.significand mb e' f' * 2 ^ j : Nat) : ℚ) * (2 : ℚ) ^ Spec.ulpExp mb eb e := by
    unfold Spec.magnitude
    rw [hj, zpow_add₀ (by norm_num), zpow_natCast]
    push_cast
    ring
  have hu : (0 : ℚ) < (2 : ℚ) ^ Spec.ulpExp mb eb e := zpow_pos (by norm_num) _
  have hm : Spec.magnitude mb eb e f = (Spec.significand mb e f : ℚ) * (2 : ℚ) ^ Spec.ulpExp mb eb e := rfl
  have hlt2 : Spec.significand mb e f < Spec.significand mb e' f' * 2 ^ j := by
    rw [hm, hm'] at hlt
    have := lt_of_mul_lt_mul_right hlt hu.le
    exact_mod_cast this
  have hev : (Spec.significand mb e' f' * 2 ^ j) % 2 = 0 := by rw [Nat.mul_mod, he2']; simp
  have hlt3 : Spec.significand mb e f + 1 < Spec.significand mb e' f' * 2 ^ j := by omega
  have w1 : Spec.magnitude mb eb e f < ((Spec.significand mb e f + 1 : Nat) : ℚ) * (2 : ℚ) ^ Spec.ulpExp mb eb e := by
    rw [hm]; refine mul_lt_mul_of_pos_right ?_ hu; exact_mod_cast Nat.lt_succ_self _
  have w2 : ((Spec.significand mb e f + 1 : Nat) : ℚ) * (2 : ℚ) ^ Spec.ulpExp mb eb e < Spec.magnitude mb eb e' f' := by
    rw [hm']; refine mul_lt_mul_of_pos_right ?_ hu; exact_mod_cast hlt3
  generalize ((Spec.significand mb e f + 1 : Nat) : ℚ) * (2 : ℚ) ^ Spec.ulpExp mb eb e = w at hg w1 w2
  have hxm : x - Spec.magnitude mb eb e f = Spec.magnitude mb eb e' f' - x := by
    rcases abs_eq_abs.mp hd with h | h
    · exact absurd h (by intro h; linarith)
    · linarith
  have hw : |x - w| < |x - Spec.magnitude mb eb e f| := by
    rw [abs_of_pos (by linarith : (0 : ℚ) < x - Spec.magnitude mb eb e f), abs_lt]
    constructor <;> linarith
  rcases h w hg (ne_of_gt w1) with h3 | h3
  · linarith
  · linarith [h3.1]

theorem rounds_unique (mb eb : Nat) (x : ℚ) (e f e' f' : Nat) (hf : f < 2 ^ mb) (hf' : f' < 2 ^ mb)
    (h : Spec.RoundsTo mb eb x e f) (h' : Spec.RoundsTo mb eb x e' f') : e = e' ∧ f = f' := by
  refine mag_inj mb eb e f e' f' hf hf' ?_
  exact le_antisymm (not_lt.mp (rounds_not_lt mb eb x e' f' e f hf' hf h' h))
    (not_lt.mp (rounds_not_lt mb eb x e f e' f' hf hf' h h'))

/-- Only zero is read from a zero. -/
theorem rounds_zero (mb eb : Nat) (e f : Nat) (h : Spec.RoundsTo mb eb 0 e f) : Spec.magnitude mb eb e f = 0 := by
  by_contra hc
  have := h 0 ⟨0, Spec.ulpExp mb eb 0, Nat.pow_pos (by norm_num), le_refl _, by simp⟩ (Ne.symm hc)
  have hp := abs_pos.mpr hc
  simp only [zero_sub, abs_neg, sub_self, abs_zero] at this
  rcases this with h | h
  · linarith
  · linarith [h.1]

end Verif.Float
