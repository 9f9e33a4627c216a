import Verif.Hash.Md5Spec
import Mathlib.Analysis.Complex.Trigonometric
import Mathlib.Analysis.Complex.Norm
/-!
# The MD5 constants are the sine table of RFC 1321

`T[i] = floor(2^32 * |sin i|)` (`i` in radians, counted from 1), proved from the power series of `exp` at `i`
(`Complex.exp_bound`) and the powers of the resulting Gaussian rational.
-/
namespace Verif.Hash.Sine
open Complex

/-- `cos 1` and `sin 1`, scaled by `2^100`. -/
def cosA : Int := 684914542338443705542701930871
@[inherit_doc cosA]
def sinB : Int := 1066691198966369310635496214684

/-- Powers of `cosA + sinB i`. -/
def gpow : Nat → Int × Int
  | 0 => (1, 0)
  | n + 1 => ((gpow n).1 * cosA - (gpow n).2 * sinB, (gpow n).1 * sinB + (gpow n).2 * cosA)

theorem series_split (n : Nat) :
    ∑ m ∈ Finset.range (2 * n), (I : ℂ) ^ m / (m.factorial : ℂ) =
      ((∑ k ∈ Finset.range n, (-1 : ℝ) ^ k / ((2 * k).factorial : ℝ) : ℝ) : ℂ) +
      ((∑ k ∈ Finset.range n, (-1 : ℝ) ^ k / ((2 * k + 1).factorial : ℝ) : ℝ) : ℂ) * I := by
  induction n with
  | zero => simp
  | succ n ih =>
    rw [Nat.mul_succ, Finset.sum_range_succ, Finset.sum_range_succ, ih, Finset.sum_range_succ, Finset.sum_range_succ]
    have h1 : (I : ℂ) ^ (2 * n) = (-1) ^ n := by rw [pow_mul, I_sq]
    have h2 : (I : ℂ) ^ (2 * n + 1) = (-1) ^ n * I := by rw [pow_succ, h1]
    rw [h1, h2]
    push_cast
    ring

noncomputable def zc : ℂ := ((cosA : ℝ) / 2 ^ 100 : ℝ) + ((sinB : ℝ) / 2 ^ 100 : ℝ) * I

theorem z_close : ‖exp I - zc‖ ≤ 1 / 2 ^ 97 := by
  have hb := Complex.exp_bound (x := I) (by simp) (n := 32) (by norm_num)
  rw [show (32 : Nat) = 2 * 16 from rfl, series_split] at hb
  have h1 : ‖(((∑ k ∈ Finset.range 16, (-1 : ℝ) ^ k / ((2 * k).factorial : ℝ) : ℝ) : ℂ) +
      ((∑ k ∈ Finset.range 16, (-1 : ℝ) ^ k / ((2 * k + 1).factorial : ℝ) : ℝ) : ℂ) * I) - zc‖ ≤ 1 / 2 ^ 98 := by
    have e : (((∑ k ∈ Finset.range 16, (-1 : ℝ) ^ k / ((2 * k).factorial : ℝ) : ℝ) : ℂ) +
      ((∑ k ∈ Finset.range 16, (-1 : ℝ) ^ k / ((2 * k + 1).factorial : ℝ) : ℝ) : ℂ) * I) - zc =
      (((∑ k ∈ Finset.range 16, (-1 : ℝ) ^ k / ((2 * k).factorial : ℝ)) - (cosA : ℝ) / 2 ^ 100 : ℝ) : ℂ) +
      (((∑ k ∈ Finset.range 16, (-1 : ℝ) ^ k / ((2 * k + 1).factorial : ℝ)) - (sinB : ℝ) / 2 ^ 100 : ℝ) : ℂ) * I := by
      rw [zc]; push_cast; ring
    rw [e]
    refine (norm_add_le _ _).trans ?_
    rw [Complex.norm_mul, norm_I, mul_one, norm_real, norm_real, Real.norm_eq_abs, Real.norm_eq_abs]
    have a1 : |(∑ k ∈ Finset.range 16, (-1 : ℝ) ^ k / ((2 * k).factorial : ℝ)) - (cosA : ℝ) / 2 ^ 100| ≤ 1 / 2 ^ 99 := by
      rw [abs_le, cosA]
      constructor <;> norm_num [Finset.sum_range_succ, Nat.factorial]
    have a2 : |(∑ k ∈ Finset.range 16, (-1 : ℝ) ^ k / ((2 * k + 1).factorial : ℝ)) - (sinB : ℝ) / 2 ^ 100| ≤ 1 / 2 ^ 99 := by
      rw [abs_le, sinB]
      constructor <;> norm_num [Finset.sum_range_succ, Nat.factorial]
    calc _ ≤ (1 : ℝ) / 2 ^ 99 + 1 / 2 ^ 99 := add_le_add a1 a2
      _ = 1 / 2 ^ 98 := by norm_num
  have h2 : ‖(I : ℂ)‖ ^ (2 * 16) * (((2 * 16 : ℕ).succ : ℝ) * (((2 * 16 : ℕ).factorial : ℝ) * (2 * 16 : ℕ))⁻¹) ≤ 1 / 2 ^ 98 := by
    rw [norm_I, one_pow, one_mul]
    norm_num [Nat.factorial]
  calc ‖exp I - zc‖ ≤ ‖exp I - _‖ + ‖_ - zc‖ := norm_sub_le_norm_sub_add_norm_sub _ _ _
    _ ≤ 1 / 2 ^ 98 + 1 / 2 ^ 98 := add_le_add (hb.trans h2) h1
    _ = 1 / 2 ^ 97 := by norm_num

theorem z_pow (n : Nat) : zc ^ n = (((gpow n).1 : ℝ) / 2 ^ (100 * n) : ℝ) + (((gpow n).2 : ℝ) / 2 ^ (100 * n) : ℝ) * I := by
  induction n with
  | zero => simp [gpow]
  | succ n ih =>
    rw [pow_succ, ih, zc, gpow]
    have hI : (I : ℂ) * I = -1 := I_mul_I
    push_cast
    rw [Nat.mul_succ, pow_add]
    field_simp
    ring_nf
    simp only [I_sq]
    ring

theorem pow_close (n : Nat) : ‖exp I ^ n - zc ^ n‖ ≤ (1 + 1 / 2 ^ 97 : ℝ) ^ n - 1 := by
  have hw : ‖exp I‖ = 1 := by simpa using Complex.norm_exp_ofReal_mul_I 1
  have hz : ‖zc‖ ≤ 1 + 1 / 2 ^ 97 := by
    calc ‖zc‖ ≤ ‖exp I‖ + ‖exp I - zc‖ := by
          rw [norm_sub_rev]; simpa [add_comm] using norm_le_norm_add_norm_sub' zc (exp I)
      _ ≤ _ := by rw [hw]; gcongr; exact z_close
  induction n with
  | zero => simp
  | succ n ih =>
    have e : exp I ^ (n + 1) - zc ^ (n + 1) = exp I ^ n * (exp I - zc) + (exp I ^ n - zc ^ n) * zc := by ring
    rw [e]
    calc _ ≤ ‖exp I ^ n * (exp I - zc)‖ + ‖(exp I ^ n - zc ^ n) * zc‖ := norm_add_le _ _
      _ = ‖exp I - zc‖ + ‖exp I ^ n - zc ^ n‖ * ‖zc‖ := by rw [Complex.norm_mul, Complex.norm_mul, Complex.norm_pow, hw, one_pow, one_mul]
      _ ≤ 1 / 2 ^ 97 + ((1 + 1 / 2 ^ 97 : ℝ) ^ n - 1) * (1 + 1 / 2 ^ 97) := by
          have h0 : (0 : ℝ) ≤ (1 + 1 / 2 ^ 97 : ℝ) ^ n - 1 := le_trans (norm_nonneg _) ih
          exact add_le_add z_close (mul_le_mul ih hz (norm_nonneg _) h0)
      _ = _ := by rw [pow_succ]; ring

theorem sin_close (n : Nat) (hn : n ≤ 64) : |Real.sin n - ((gpow n).2 : ℝ) / 2 ^ (100 * n)| ≤ 1 / 2 ^ 80 := by
  have h1 : exp I ^ n = exp ((n : ℝ) * I) := by rw [← exp_nat_mul]; push_cast; rfl
  have h2 : (exp I ^ n - zc ^ n).im = Real.sin n - ((gpow n).2 : ℝ) / 2 ^ (100 * n) := by
    rw [h1, z_pow, exp_ofReal_mul_I, sub_im, add_im, add_im, mul_im, mul_im, ofReal_im, ofReal_re, ofReal_im, I_re, I_im, ofReal_im, ofReal_re, ofReal_im]
    simp
  rw [← h2]
  refine (abs_im_le_norm _).trans ((pow_close n).trans ?_)
  calc (1 + 1 / 2 ^ 97 : ℝ) ^ n - 1 ≤ (1 + 1 / 2 ^ 97 : ℝ) ^ 64 - 1 := by
        gcongr
        norm_num
    _ ≤ 1 / 2 ^ 80 := by norm_num

theorem table_check : ∀ i < 64,
    (Rfc1321.T.getD i 0 : Int) * 2 ^ (100 * (i + 1)) + 2 ^ (100 * (i + 1) - 48) ≤ 2 ^ 32 * |(gpow (i + 1)).2| ∧
    2 ^ 32 * |(gpow (i + 1)).2| + 2 ^ (100 * (i + 1) - 48) < ((Rfc1321.T.getD i 0 : Int) + 1) * 2 ^ (100 * (i + 1)) := by
  decide +kernel

/-- RFC 1321 §3.4: the `i`-th element (from 1) is the integer part of `4294967296 * abs(sin(i))`. -/
theorem T_sine (i : Nat) (hi : i < 64) : ⌊2 ^ 32 * |Real.sin ((i + 1 : Nat) : ℝ)|⌋ = (Rfc1321.T.getD i 0 : Int) := by
  obtain ⟨h1, h2⟩ := table_check i hi
  have hc := sin_close (i + 1) (by omega)
  rw [Int.floor_eq_iff]
  generalize gpow (i + 1) = g at *
  have hp : (2 : ℝ) ^ (100 * (i + 1)) = 2 ^ (100 * (i + 1) - 48) * 2 ^ 48 := by rw [← pow_add]; congr 1 <;> omega
  have h1' : ((Rfc1321.T.getD i 0 : Int) : ℝ) * 2 ^ (100 * (i + 1)) + 2 ^ (100 * (i + 1) - 48) ≤ 2 ^ 32 * |(g.2 : ℝ)| := by
    exact_mod_cast h1
  have h2' : 2 ^ 32 * |(g.2 : ℝ)| + 2 ^ (100 * (i + 1) - 48) < (((Rfc1321.T.getD i 0 : Int) : ℝ) + 1) * 2 ^ (100 * (i + 1)) := by
    exact_mod_cast h2
  have hpos : (0 : ℝ) < 2 ^ (100 * (i + 1)) := by positivity
  have hq : |(g.2 : ℝ) / 2 ^ (100 * (i + 1))| = |(g.2 : ℝ)| / 2 ^ (100 * (i + 1)) := by
    rw [abs_div, abs_of_pos hpos]
  have hd := abs_abs_sub_abs_le (Real.sin ((i + 1 : Nat) : ℝ)) ((g.2 : ℝ) / 2 ^ (100 * (i + 1)))
  rw [hq] at hd
  have hd := abs_le.mp (hd.trans hc)
  have he : (2 : ℝ) ^ (100 * (i + 1) - 48) / 2 ^ (100 * (i + 1)) = 1 / 2 ^ 48 := by
    rw [hp]; field_simp
  have k1 : ((Rfc1321.T.getD i 0 : Int) : ℝ) + 1 / 2 ^ 48 ≤ 2 ^ 32 * (|(g.2 : ℝ)| / 2 ^ (100 * (i + 1))) := by
    rw [← he, ← mul_div_assoc, le_div_iff₀ hpos, add_mul, div_mul_cancel₀ _ hpos.ne']; exact h1'
  have k2 : 2 ^ 32 * (|(g.2 : ℝ)| / 2 ^ (100 * (i + 1))) + 1 / 2 ^ 48 < ((Rfc1321.T.getD i 0 : Int) : ℝ) + 1 := by
    rw [← he, ← mul_div_assoc, ← add_div, div_lt_iff₀ hpos]
    exact h2'
  have hs : (2 : ℝ) ^ 32 * (1 / 2 ^ 80) = 1 / 2 ^ 48 := by norm_num
  constructor <;> nlinarith [hd.1, hd.2]

end Verif.Hash.Sine
