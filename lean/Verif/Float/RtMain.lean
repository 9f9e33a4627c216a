import Verif.Float.RtRest
import Verif.Float.Spec
import Mathlib.Tactic.FieldSimp
import Mathlib.Tactic.Positivity
/-! # The decimal numbers `dragonbox_main` and `dragonbox_impl` deliver -/
namespace Verif.Float

/-- The rounding interval of a number with a symmetric neighbourhood. -/
def InsideQ (m : Nat) (E : Int) (x : ℚ) : Prop :=
  ((2 * m - 1 : ℚ) * (2 : ℚ) ^ (E - 1) ≤ x ∧ x ≤ (2 * m + 1 : ℚ) * (2 : ℚ) ^ (E - 1)) ∧
    (m % 2 = 1 → (2 * m - 1 : ℚ) * (2 : ℚ) ^ (E - 1) < x ∧ x < (2 * m + 1 : ℚ) * (2 : ℚ) ^ (E - 1))

theorem two_half (E : Int) : (2 : ℚ) ^ E = 2 * (2 : ℚ) ^ (E - 1) := by
  rw [zpow_sub_one₀ (by norm_num)]; ring

/-- Numbers whose neighbours are at the same distance on both sides. -/
def Symmetric (e f : Nat) : Prop := f ≠ 0 ∨ e ≤ 1

/-- Every other number is at least one unit away. -/
theorem grid_far (mb eb e f : Nat) (hf : f < 2 ^ mb) (hs : Symmetric e f) (w : ℚ)
    (hw : Spec.Grid mb eb w) (hne : w ≠ Spec.magnitude mb eb e f) :
    (2 : ℚ) ^ Spec.ulpExp mb eb e ≤ |w - Spec.magnitude mb eb e f| := by
  obtain ⟨M, F, hM, hF, rfl⟩ := hw
  unfold Spec.magnitude at *
  generalize hE : Spec.ulpExp mb eb e = E at *
  generalize hm : Spec.significand mb e f = m at *
  have hu : (0 : ℚ) < (2 : ℚ) ^ E := zpow_pos (by norm_num) _
  by_cases hFE : E ≤ F
  · -- a multiple of the unit
    obtain ⟨k, rfl⟩ : ∃ k : Nat, F = E + k := ⟨(F - E).toNat, by omega⟩
    rw [zpow_add₀ (by norm_num), zpow_natCast] at *
    have e1 : (M : ℚ) * ((2 : ℚ) ^ E * 2 ^ k) - m * (2 : ℚ) ^ E = ((M * 2 ^ k : Int) - (m : Int) : Int) * (2 : ℚ) ^ E := by
      push_cast; ring
    rw [e1, abs_mul, abs_of_pos hu]
    have hne' : ((M * 2 ^ k : Int) - (m : Int)) ≠ 0 := by
      intro h0
      apply hne
      have : (M : ℚ) * 2 ^ k = m := by
        have : (M * 2 ^ k : Int) = m := by omega
        exact_mod_cast this
      rw [← this]; ring
    have h1 : (1 : ℚ) ≤ |(((M * 2 ^ k : Int) - (m : Int) : Int) : ℚ)| := by
      rw [← Int.cast_abs]
      exact_mod_cast Int.one_le_abs hne'
    calc (2 : ℚ) ^ E = 1 * (2 : ℚ) ^ E := (one_mul _).symm
      _ ≤ _ := mul_le_mul_of_nonneg_right h1 hu.le
  · -- below
    have he : 1 < e := by
      by_contra hc
      have : Spec.ulpExp mb eb e = Spec.ulpExp mb eb 0 := by
        unfold Spec.ulpExp
        have : e = 0 ∨ e = 1 := by omega
        rcases this with h | h <;> simp [h]
      omega
    have hf0 : f ≠ 0 := by rcases hs with h | h <;> omega
    have hmv : m = 2 ^ mb + f := by rw [← hm]; unfold Spec.significand; rw [if_neg (by omega)]
    have h1 : (M : ℚ) * (2 : ℚ) ^ F ≤ 2 ^ mb * (2 : ℚ) ^ E := by
      have a1 : (M : ℚ) ≤ 2 ^ (mb + 1) := by exact_mod_cast hM.le
      have a2 : (2 : ℚ) ^ F ≤ (2 : ℚ) ^ (E - 1) := zpow_le_zpow_right₀ (by norm_num) (by omega)
      calc (M : ℚ) * (2 : ℚ) ^ F ≤ 2 ^ (mb + 1) * (2 : ℚ) ^ (E - 1) :=
            mul_le_mul a1 a2 (zpow_pos (by norm_num) _).le (by positivity)
        _ = 2 ^ mb * (2 : ℚ) ^ E := by rw [two_half E]; ring
    have h2 : (2 ^ mb + 1 : ℚ) * (2 : ℚ) ^ E ≤ m * (2 : ℚ) ^ E := by
      apply mul_le_mul_of_nonneg_right _ hu.le
      have : 2 ^ mb + 1 ≤ m := by omega
      exact_mod_cast this
    rw [abs_of_nonpos (by nlinarith)]
    nlinarith

theorem rounds_of_inside (mb eb e f : Nat) (hf : f < 2 ^ mb) (hs : Symmetric e f) (x : ℚ)
    (h : InsideQ (Spec.significand mb e f) (Spec.ulpExp mb eb e) x) : Spec.RoundsTo mb eb x e f := by
  intro w hw hne
  have hfar := grid_far mb eb e f hf hs w hw hne
  have hv : Spec.magnitude mb eb e f =
      2 * (Spec.significand mb e f : ℚ) * (2 : ℚ) ^ (Spec.ulpExp mb eb e - 1) := by
    unfold Spec.magnitude; rw [two_half]; ring
  rw [two_half] at hfar
  unfold InsideQ at h
  generalize (2 : ℚ) ^ (Spec.ulpExp mb eb e - 1) = u at *
  obtain ⟨⟨h1, h2⟩, h3⟩ := h
  generalize Spec.magnitude mb eb e f = v at *
  have hxv : |x - v| ≤ u := by
    rw [abs_le]; constructor <;> nlinarith
  have htri : |w - v| ≤ |x - w| + |x - v| := by
    have := abs_sub_le w x v
    rwa [abs_sub_comm w x] at this
  by_cases hodd : Spec.significand mb e f % 2 = 1
  · left
    obtain ⟨h4, h5⟩ := h3 hodd
    have : |x - v| < u := by
      rw [abs_lt]; constructor <;> nlinarith
    linarith
  · rcases lt_or_eq_of_le (show |x - v| ≤ |x - w| by linarith) with h | h
    · exact Or.inl h
    · exact Or.inr ⟨h, by omega⟩

theorem inside_of_rounds (mb eb e f : Nat) (hf : f < 2 ^ mb) (hpos : 1 ≤ Spec.significand mb e f)
    (x : ℚ) (h : Spec.RoundsTo mb eb x e f) : InsideQ (Spec.significand mb e f) (Spec.ulpExp mb eb e) x := by
  have hm : Spec.significand mb e f < 2 ^ (mb + 1) := by
    unfold Spec.significand
    have : 2 ^ (mb + 1) = 2 * 2 ^ mb := by ring
    split <;> omega
  have hmin : Spec.ulpExp mb eb 0 ≤ Spec.ulpExp mb eb e := by
    unfold Spec.ulpExp
    by_cases h : e = 0
    · simp [h]
    · simp [h]; omega
  have hv : Spec.magnitude mb eb e f =
      2 * (Spec.significand mb e f : ℚ) * (2 : ℚ) ^ (Spec.ulpExp mb eb e - 1) := by
    unfold Spec.magnitude; rw [two_half]; ring
  have hup : Spec.Grid mb eb ((Spec.significand mb e f + 1 : ℚ) * (2 : ℚ) ^ Spec.ulpExp mb eb e) := by
    by_cases h1 : Spec.significand mb e f + 1 < 2 ^ (mb + 1)
    · exact ⟨_, _, h1, hmin, by push_cast; ring⟩
    · refine ⟨2 ^ mb, Spec.ulpExp mb eb e + 1, Nat.pow_lt_pow_right (by norm_num) (by omega), by omega, ?_⟩
      have h2 : Spec.significand mb e f + 1 = 2 ^ (mb + 1) := by omega
      have h3 : (Spec.significand mb e f + 1 : ℚ) = 2 ^ (mb + 1) := by exact_mod_cast h2
      rw [h3, zpow_add_one₀ (by norm_num)]; push_cast; ring
  have hdn : Spec.Grid mb eb ((Spec.significand mb e f - 1 : ℚ) * (2 : ℚ) ^ Spec.ulpExp mb eb e) := by
    refine ⟨Spec.significand mb e f - 1, _, by omega, hmin, ?_⟩
    rw [Nat.cast_sub hpos]; push_cast; ring
  have hu : (0 : ℚ) < (2 : ℚ) ^ (Spec.ulpExp mb eb e - 1) := zpow_pos (by norm_num) _
  have r1 := h _ hup (by rw [two_half, hv]; intro h0; nlinarith)
  have r2 := h _ hdn (by rw [two_half, hv]; intro h0; nlinarith)
  rw [two_half, hv] at r1 r2
  unfold InsideQ
  generalize (2 : ℚ) ^ (Spec.ulpExp mb eb e - 1) = u at *
  generalize Spec.significand mb e f = m at *
  have key : ∀ c : ℚ, |x - 2 * m * u| ≤ |x - c| → (x - 2 * m * u) ^ 2 ≤ (x - c) ^ 2 := fun c hc => sq_le_sq.mpr hc
  have key' : ∀ c : ℚ, |x - 2 * m * u| < |x - c| → (x - 2 * m * u) ^ 2 < (x - c) ^ 2 := fun c hc => sq_lt_sq.mpr hc
  have q1 := key _ (r1.elim le_of_lt (fun h => h.1.le))
  have q2 := key _ (r2.elim le_of_lt (fun h => h.1.le))
  refine ⟨⟨by nlinarith, by nlinarith⟩, fun hodd => ?_⟩
  have s1 := key' _ (r1.elim id (fun h => by omega))
  have s2 := key' _ (r2.elim id (fun h => by omega))
  exact ⟨by nlinarith, by nlinarith⟩

theorem pow_split (b : ℚ) (hb : b ≠ 0) (n : Int) : (b ^ n.toNat : ℚ) = b ^ (-n).toNat * b ^ n := by
  rw [← zpow_natCast, ← zpow_natCast, ← zpow_add₀ hb]
  congr 1
  omega

theorem alpha_eq (d : DB) (e2 : Int) :
    (numA d e2 : ℚ) = denB d e2 * ((2 : ℚ) ^ (e2 - 1) * (10 : ℚ) ^ (-minusKOf d e2)) := by
  unfold numA denB
  push_cast
  rw [pow_split 2 (by norm_num) (uOf d e2), pow_split 5 (by norm_num) (-minusKOf d e2), neg_neg,
    show (10 : ℚ) = 2 * 5 by norm_num, mul_zpow]
  have : (2 : ℚ) ^ uOf d e2 = (2 : ℚ) ^ (e2 - 1) * (2 : ℚ) ^ (-minusKOf d e2) := by
    rw [← zpow_add₀ (by norm_num)]; congr 1
  rw [this]; ring

theorem inside_iff (d : DB) (e2 : Int) (m S : Nat) (hm : 1 ≤ m) (x : ℚ)
    (hx : x * denB d e2 = S * (10 : ℚ) ^ minusKOf d e2) : Inside m (numA d e2) S ↔ InsideQ m e2 x := by
  have hB : (0 : ℚ) < denB d e2 := by exact_mod_cast denB_pos d e2
  have hK : (0 : ℚ) < (10 : ℚ) ^ minusKOf d e2 := zpow_pos (by norm_num) _
  have ha := alpha_eq d e2
  have hA : (numA d e2 : ℚ) * (10 : ℚ) ^ minusKOf d e2 = denB d e2 * (2 : ℚ) ^ (e2 - 1) := by
    rw [ha, zpow_neg]; field_simp
  have c1 : ((2 * m - 1 : Nat) : ℚ) = 2 * m - 1 := by rw [Nat.cast_sub (by omega)]; push_cast; ring
  have g1 : ∀ n : Nat, n * numA d e2 ≤ S ↔ (n : ℚ) * (2 : ℚ) ^ (e2 - 1) ≤ x := fun n => by
    rw [← Nat.cast_le (α := ℚ), ← mul_le_mul_iff_of_pos_right hK, ← hx]
    push_cast
    rw [mul_assoc, hA, show (n : ℚ) * (denB d e2 * (2 : ℚ) ^ (e2 - 1)) = n * (2 : ℚ) ^ (e2 - 1) * denB d e2 by ring,
      mul_le_mul_iff_of_pos_right hB]
  have g2 : ∀ n : Nat, S ≤ n * numA d e2 ↔ x ≤ (n : ℚ) * (2 : ℚ) ^ (e2 - 1) := fun n => by
    rw [← Nat.cast_le (α := ℚ), ← mul_le_mul_iff_of_pos_right hK, ← hx]
    push_cast
    rw [mul_assoc, hA, show (n : ℚ) * (denB d e2 * (2 : ℚ) ^ (e2 - 1)) = n * (2 : ℚ) ^ (e2 - 1) * denB d e2 by ring,
      mul_le_mul_iff_of_pos_right hB]
  have le1 := g1 (2 * m - 1)
  have le2 := g2 (2 * m + 1)
  have lt1 := not_congr (g2 (2 * m - 1))
  have lt2 := not_congr (g1 (2 * m + 1))
  rw [c1] at le1 lt1
  push_cast at le2 lt2
  rw [not_le, not_le] at lt1 lt2
  unfold Inside InsideQ
  rw [le1, le2, lt1, lt2, and_assoc]

/-- A decimal number that is right for the number `m·2^E`: it lies in the rounding interval, no decimal number with a
larger exponent does unless it is the same number, and (`close`) none with at least that exponent is closer. -/
structure Good (m : Nat) (E : Int) (m10 : Nat) (e10 : Int) (close : Prop) : Prop where
  pos : 0 < m10
  inside : InsideQ m E (m10 * (10 : ℚ) ^ e10)
  uniq : ∀ (t : Nat) (j : Int), e10 < j → InsideQ m E (t * (10 : ℚ) ^ j) →
    (t : ℚ) * (10 : ℚ) ^ j = m10 * (10 : ℚ) ^ e10
  near : close → ∀ (t : Nat) (j : Int), e10 ≤ j → InsideQ m E (t * (10 : ℚ) ^ j) →
    |(m10 : ℚ) * (10 : ℚ) ^ e10 - m * (2 : ℚ) ^ E| ≤ |(t : ℚ) * (10 : ℚ) ^ j - m * (2 : ℚ) ^ E|

/-- The same without the assumption on the scaled unit (see `LastDigitOk`): the decimal number is within six tenths of a unit. -/
structure Weak (m : Nat) (E : Int) (m10 : Nat) (e10 : Int) : Prop where
  pos : 0 < m10
  near : |(m10 : ℚ) * (10 : ℚ) ^ e10 - m * (2 : ℚ) ^ E| ≤ 3 / 5 * (2 : ℚ) ^ E
  uniq : ∀ (t : Nat) (j : Int), e10 < j → InsideQ m E (t * (10 : ℚ) ^ j) →
    (t : ℚ) * (10 : ℚ) ^ j = m10 * (10 : ℚ) ^ e10

theorem pow10_step (t : Nat) (j e : Int) (h : e ≤ j) :
    (t : ℚ) * (10 : ℚ) ^ j = ((t * 10 ^ (j - e).toNat : Nat) : ℚ) * (10 : ℚ) ^ e := by
  push_cast
  rw [mul_assoc, ← zpow_natCast, ← zpow_add₀ (by norm_num)]
  congr 2
  omega

theorem inside_pos (m : Nat) (E : Int) (x : ℚ) (hm : 1 ≤ m) (h : InsideQ m E x) : 0 < x := by
  have hu : (0 : ℚ) < (2 : ℚ) ^ (E - 1) := zpow_pos (by norm_num) _
  have : (1 : ℚ) ≤ m := by exact_mod_cast hm
  have := h.1.1
  nlinarith

/-- Width of the interval: two members differ by at most a unit. -/
theorem inside_dist (m : Nat) (E : Int) (x y : ℚ) (hx : InsideQ m E x) (hy : InsideQ m E y) :
    |x - y| ≤ (2 : ℚ) ^ E := by
  rw [two_half]
  have := hx.1.1; have := hx.1.2; have := hy.1.1; have := hy.1.2
  rw [abs_le]; constructor <;> linarith

/-- In the interval: at most half a unit away. -/
theorem inside_near (m : Nat) (E : Int) (x : ℚ) (h : InsideQ m E x) : |x - m * (2 : ℚ) ^ E| ≤ 1 / 2 * (2 : ℚ) ^ E := by
  have := h.1.1; have := h.1.2
  rw [two_half]
  rw [abs_le]; constructor <;> linarith

theorem Good.weak {m : Nat} {E : Int} {k : Nat} {n : Int} {c : Prop} (h : Good m E k n c) : Weak m E k n :=
  ⟨h.pos, le_trans (inside_near m E _ h.inside) (by
    have : (0 : ℚ) < (2 : ℚ) ^ E := zpow_pos (by norm_num) _
    linarith), h.uniq⟩

theorem dragonRest_good (d : DB) (hd : IsDB d) (e2 : Int) (hr : ExpRange d e2) (he : e2 ≠ 0) (m : Nat) (hm1 : 1 ≤ m)
    (hm2 : m < 2 ^ (d.mbits + 1)) :
    ∃ Q e10, dragonRest d m e2 = some (Q, e10) ∧ (LastDigitOk d e2 → Good m e2 Q e10 (d = db64)) ∧ Weak m e2 Q e10 ∧
      Q < 2 ^ (d.mbits + 1) * 10 ∧ mulLn2DivLn10 e2 ≤ e10 := by
  obtain ⟨Q, up, h1, h2, h3, h4, h5⟩ := dragonRest_spec d hd e2 hr he m hm1 hm2
  obtain ⟨φ, hf⟩ := facts_exist d hd e2 hr
  have hBp := denB_pos d e2
  have hB : (0 : ℚ) < denB d e2 := by exact_mod_cast hBp
  have hsm : d.small = 10 ^ d.kappa := by rcases hd with rfl | rfl <;> rfl
  have hbg : d.big = 10 ^ (d.kappa + 1) := by rcases hd with rfl | rfl <;> rfl
  have hbs : d.big = 10 * d.small := by rcases hd with rfl | rfl <;> rfl
  -- the value of a multiple
  have val : ∀ (t : Nat) (i : Nat), (t : ℚ) * (10 : ℚ) ^ (minusKOf d e2 + i) * denB d e2 =
      ((t * 10 ^ i * denB d e2 : Nat) : ℚ) * (10 : ℚ) ^ minusKOf d e2 := by
    intro t i
    rw [zpow_add₀ (by norm_num), zpow_natCast]; push_cast; ring
  have ins : ∀ (t : Nat) (i : Nat), Inside m (numA d e2) (t * 10 ^ i * denB d e2) ↔
      InsideQ m e2 ((t : ℚ) * (10 : ℚ) ^ (minusKOf d e2 + i)) := fun t i => inside_iff d e2 m _ hm1 _ (val t i)
  -- one unit in the last place is less than `big`
  have hulp : (2 : ℚ) ^ e2 < (10 : ℚ) ^ (minusKOf d e2 + (d.kappa + 1 : Nat)) := by
    have h5 : (2 * numA d e2 : ℚ) < d.big * denB d e2 := by exact_mod_cast hf.hi
    rw [alpha_eq, hbg] at h5
    rw [two_half, zpow_add₀ (by norm_num), zpow_natCast]
    have hK : (0 : ℚ) < (10 : ℚ) ^ minusKOf d e2 := zpow_pos (by norm_num) _
    rw [zpow_neg] at h5
    push_cast at h5
    have h6 : 2 * (2 : ℚ) ^ (e2 - 1) * ((10 : ℚ) ^ minusKOf d e2)⁻¹ * denB d e2 <
        10 ^ (d.kappa + 1) * denB d e2 := by linarith
    have h7 := lt_of_mul_lt_mul_right h6 hB.le
    rwa [← div_eq_mul_inv, div_lt_iff₀ hK, mul_comm (10 ^ (d.kappa + 1) : ℚ)] at h7
  -- two multiples of `big` in the interval are equal
  have huniq : ∀ s t : Nat, InsideQ m e2 ((s : ℚ) * (10 : ℚ) ^ (minusKOf d e2 + (d.kappa + 1 : Nat))) →
      InsideQ m e2 ((t : ℚ) * (10 : ℚ) ^ (minusKOf d e2 + (d.kappa + 1 : Nat))) → s = t := by
    intro s t hs ht
    have h5 := inside_dist m e2 _ _ hs ht
    rw [← sub_mul, abs_mul, abs_of_pos (a := (10 : ℚ) ^ (minusKOf d e2 + (d.kappa + 1 : Nat))) (zpow_pos (by norm_num) _)] at h5
    by_contra hne
    have h6 : (1 : ℚ) ≤ |(s : ℚ) - t| := by
      have h7 : ((s : Int) - t) ≠ 0 := by omega
      have := Int.one_le_abs h7
      have h8 : ((1 : Int) : ℚ) ≤ ((|(s : Int) - t| : Int) : ℚ) := by exact_mod_cast this
      rw [Int.cast_abs] at h8
      push_cast at h8
      exact h8
    have hp : (0 : ℚ) < (10 : ℚ) ^ (minusKOf d e2 + (d.kappa + 1 : Nat)) := zpow_pos (by norm_num) _
    nlinarith
  have hs5 : 5 * (Q * (if up then d.big else d.small) * denB d e2) ≤ 10 * m * numA d e2 + 6 * numA d e2 := by
    cases up with
    | true =>
      have h6 := (h2 (Or.inl rfl)).2.1
      have : (2 * m + 1) * numA d e2 = 2 * m * numA d e2 + numA d e2 := by ring
      have : 10 * m * numA d e2 = 5 * (2 * m * numA d e2) := by ring
      omega
    | false => simpa using (h5 rfl).1
  have hQb : Q < 2 ^ (d.mbits + 1) * 10 := by
    have h6 : Q * d.small * denB d e2 ≤ Q * (if up then d.big else d.small) * denB d e2 := by
      apply Nat.mul_le_mul_right; apply Nat.mul_le_mul_left
      split <;> omega
    have h7 : 10 * (Q * d.small * denB d e2) < 10 * (2 ^ (d.mbits + 1) * 10 * d.small * denB d e2) := by
      calc 10 * (Q * d.small * denB d e2) ≤ 2 * (10 * m * numA d e2 + 6 * numA d e2) := by omega
        _ = (10 * m + 6) * (2 * numA d e2) := by ring
        _ < (10 * m + 6) * (d.big * denB d e2) := Nat.mul_lt_mul_of_pos_left hf.hi (by omega)
        _ ≤ (10 * 2 ^ (d.mbits + 1)) * (d.big * denB d e2) := Nat.mul_le_mul_right _ (by omega)
        _ = _ := by rw [hbs]; ring
    have h8 := Nat.lt_of_mul_lt_mul_left h7
    have h9 := Nat.lt_of_mul_lt_mul_right h8
    exact Nat.lt_of_mul_lt_mul_right h9
  have hln : mulLn2DivLn10 e2 = minusKOf d e2 + d.kappa := by unfold minusKOf; omega
  -- everything times `B·10^k`
  have hK : (0 : ℚ) < (10 : ℚ) ^ minusKOf d e2 := zpow_pos (by norm_num) _
  have hsc : ∀ s : Nat, ((s : ℚ) * (10 : ℚ) ^ (minusKOf d e2 + d.kappa) - m * (2 : ℚ) ^ e2) * denB d e2 =
      (((s * d.small * denB d e2 : Nat) : ℚ) - ((2 * m * numA d e2 : Nat) : ℚ)) * (10 : ℚ) ^ minusKOf d e2 := by
    intro s
    have ha := alpha_eq d e2
    rw [sub_mul, val s d.kappa, hsm, two_half]
    push_cast
    rw [ha, zpow_neg]
    field_simp
  have hK0 : ∀ y : ℚ, |y| * denB d e2 = |y * denB d e2| := fun y => by rw [abs_mul, abs_of_pos hB]
  refine ⟨Q, _, h1, ?_⟩
  cases up with
  | true =>
    have h2 := h2 (Or.inl rfl)
    simp only [if_true] at *
    have he : minusKOf d e2 + d.kappa + 1 = minusKOf d e2 + (d.kappa + 1 : Nat) := by push_cast; ring
    rw [he]
    rw [hbg, ins] at h2
    have same : ∀ (t : Nat) (j : Int), minusKOf d e2 + (d.kappa + 1 : Nat) ≤ j → InsideQ m e2 (t * (10 : ℚ) ^ j) →
        (t : ℚ) * (10 : ℚ) ^ j = Q * (10 : ℚ) ^ (minusKOf d e2 + (d.kappa + 1 : Nat)) := by
      intro t j hj hin
      rw [pow10_step t j _ hj] at hin ⊢
      rw [huniq _ _ hin h2]
    have hgood : Good m e2 Q (minusKOf d e2 + (d.kappa + 1 : Nat)) (d = db64) := by
      refine ⟨?_, h2, fun t j hj hin => same t j hj.le hin, fun _ t j hj hin => by rw [same t j hj hin]⟩
      have := inside_pos m e2 _ hm1 h2
      rcases Nat.eq_zero_or_pos Q with h0 | h0
      · rw [h0] at this; simp at this
      · exact h0
    exact ⟨fun _ => hgood, hgood.weak, hQb, by rw [hln]; push_cast; omega⟩
  | false =>
    simp only [Bool.false_eq_true, if_false, false_or] at *
    have h3' := h3 trivial
    have none : ∀ (t : Nat) (j : Int), minusKOf d e2 + d.kappa < j → ¬ InsideQ m e2 (t * (10 : ℚ) ^ j) := by
      intro t j hj hin
      rw [pow10_step t j (minusKOf d e2 + (d.kappa + 1 : Nat)) (by push_cast; omega), ← ins, ← hbg] at hin
      exact h3' _ hin
    have hApos := numA_pos d e2
    have hpos : 0 < Q := by
      rcases Nat.eq_zero_or_pos Q with h0 | h0
      · exfalso
        have h6 := (h5 trivial).2
        rw [h0] at h6
        have : 10 * 1 * numA d e2 ≤ 10 * m * numA d e2 := Nat.mul_le_mul_right _ (Nat.mul_le_mul_left _ hm1)
        simp at h6
        omega
      · exact h0
    have hweak : Weak m e2 Q (minusKOf d e2 + d.kappa) := by
      refine ⟨hpos, ?_, fun t j hj hin => absurd hin (none t j hj)⟩
      rw [← mul_le_mul_iff_of_pos_right hB, hK0, hsc, abs_mul, abs_of_pos hK]
      have hA : 3 / 5 * (2 : ℚ) ^ e2 * denB d e2 = 6 / 5 * (numA d e2 : ℚ) * (10 : ℚ) ^ minusKOf d e2 := by
        rw [alpha_eq d e2, two_half, zpow_neg]
        field_simp
        norm_num
      rw [hA]
      apply mul_le_mul_of_nonneg_right _ hK.le
      obtain ⟨n1, n2⟩ := h5 trivial
      have b1 : 5 * ((Q * d.small * denB d e2 : Nat) : ℚ) ≤ 5 * ((2 * m * numA d e2 : Nat) : ℚ) + 6 * numA d e2 := by
        have : 5 * (Q * d.small * denB d e2) ≤ 5 * (2 * m * numA d e2) + 6 * numA d e2 := by
          have : 10 * m * numA d e2 = 5 * (2 * m * numA d e2) := by ring
          omega
        exact_mod_cast this
      have b2 : 5 * ((2 * m * numA d e2 : Nat) : ℚ) ≤ 5 * ((Q * d.small * denB d e2 : Nat) : ℚ) + 6 * numA d e2 := by
        have : 5 * (2 * m * numA d e2) ≤ 5 * (Q * d.small * denB d e2) + 6 * numA d e2 := by
          have : 10 * m * numA d e2 = 5 * (2 * m * numA d e2) := by ring
          omega
        exact_mod_cast this
      rw [abs_le]; constructor <;> linarith
    refine ⟨fun hpar => ?_, hweak, hQb, by rw [hln]⟩
    have h2 := h2 hpar
    rw [hsm, ins] at h2
    refine ⟨hpos, h2, fun t j hj hin => absurd hin (none t j hj), ?_⟩
    · intro hdb t j hj hin
      rcases lt_or_eq_of_le hj with h5 | h5
      · exact absurd hin (none t j h5)
      · subst h5
        by_cases htQ : t = Q
        · rw [htQ]
        · obtain ⟨n1, n2⟩ := h4 trivial hdb
          have hs100 : d.small = 100 := by rw [hdb]; rfl
          rw [← mul_le_mul_iff_of_pos_right hB, hK0, hK0, hsc, hsc, abs_mul, abs_mul, abs_of_pos hK]
          apply mul_le_mul_of_nonneg_right _ hK.le
          generalize numA d e2 = A at *
          generalize denB d e2 = B at *
          have a1 : (Q * d.small * B : Nat) ≤ 2 * m * A + 50 * B := n1
          have b1 : ((Q * d.small * B : Nat) : ℚ) ≤ ((2 * m * A : Nat) : ℚ) + 50 * B := by exact_mod_cast n1
          have b2 : ((2 * m * A : Nat) : ℚ) ≤ ((Q * d.small * B : Nat) : ℚ) + 50 * B := by exact_mod_cast n2
          have c1 : |((Q * d.small * B : Nat) : ℚ) - ((2 * m * A : Nat) : ℚ)| ≤ 50 * B := by
            rw [abs_le]; constructor <;> linarith
          refine le_trans c1 ?_
          rw [le_abs]
          rcases Nat.lt_or_ge t Q with h6 | h6
          · right
            have : (t + 1) * d.small * B ≤ Q * d.small * B := Nat.mul_le_mul_right _ (Nat.mul_le_mul_right _ h6)
            have h7 : (((t + 1) * d.small * B : Nat) : ℚ) ≤ ((Q * d.small * B : Nat) : ℚ) := by exact_mod_cast this
            have h8 : (((t + 1) * d.small * B : Nat) : ℚ) = ((t * d.small * B : Nat) : ℚ) + 100 * B := by
              rw [hs100]; push_cast; ring
            linarith
          · left
            have : (Q + 1) * d.small * B ≤ t * d.small * B := Nat.mul_le_mul_right _ (Nat.mul_le_mul_right _ (by omega))
            have h7 : (((Q + 1) * d.small * B : Nat) : ℚ) ≤ ((t * d.small * B : Nat) : ℚ) := by exact_mod_cast this
            have h8 : (((Q + 1) * d.small * B : Nat) : ℚ) = ((Q * d.small * B : Nat) : ℚ) + 100 * B := by
              rw [hs100]; push_cast; ring
            linarith

/-- Small integers are recognised. -/
def SmallInt (mb : Nat) (E : Int) (m : Nat) : Prop := E ≤ 0 ∧ -E < mb ∧ 2 ^ (-E).toNat ∣ m

theorem smallInt_good (m : Nat) (E : Int) (hE : E ≤ 0) (hm : 1 ≤ m) (hdv : 2 ^ (-E).toNat ∣ m) (close : Prop) :
    Good m E (m >>> (-E).toNat) 0 close := by
  obtain ⟨Q, hQ⟩ := hdv
  have hQm : m >>> (-E).toNat = Q := by
    rw [Nat.shiftRight_eq_div_pow, hQ, Nat.mul_div_cancel_left _ (Nat.pow_pos (by norm_num))]
  rw [hQm]
  have hv : (m : ℚ) * (2 : ℚ) ^ E = Q := by
    rw [hQ]
    push_cast
    rw [show (2 : ℚ) ^ E = ((2 : ℚ) ^ (-E).toNat)⁻¹ by
      rw [← zpow_natCast, ← zpow_neg]; congr 1; omega]
    field_simp
  have hQ0 : 0 < Q := by
    rcases Nat.eq_zero_or_pos Q with h | h
    · rw [h] at hQ; omega
    · exact h
  have hu : (0 : ℚ) < (2 : ℚ) ^ (E - 1) := zpow_pos (by norm_num) _
  have hu2 : (2 : ℚ) ^ (E - 1) ≤ 1 / 2 := by
    calc (2 : ℚ) ^ (E - 1) ≤ (2 : ℚ) ^ (-1 : Int) := zpow_le_zpow_right₀ (by norm_num) (by omega)
      _ = 1 / 2 := by norm_num
  have hv2 := hv
  rw [two_half] at hv2
  refine ⟨hQ0, ?_, ?_, ?_⟩
  · rw [zpow_zero, mul_one, ← hv2]
    unfold InsideQ
    refine ⟨⟨by linarith, by linarith⟩, fun _ => ⟨by linarith, by linarith⟩⟩
  · intro t j hj hin
    obtain ⟨⟨h1, h2⟩, -⟩ := hin
    rw [pow10_step t j 0 hj.le, zpow_zero, mul_one] at *
    rw [mul_one]
    generalize t * 10 ^ (j - 0).toNat = N at *
    have h3 : (N : ℚ) < Q + 1 := by linarith
    have h4 : (Q : ℚ) < N + 1 := by linarith
    have h5 : N < Q + 1 := by exact_mod_cast h3
    have h6 : Q < N + 1 := by exact_mod_cast h4
    have : N = Q := by omega
    rw [this]
  · intro _ t j _ _
    rw [zpow_zero, mul_one, hv, sub_self, abs_zero]
    exact abs_nonneg _

theorem exp_range (d : DB) (hd : IsDB d) (e : Nat) (he : e < 2 ^ d.ebits - 1) :
    ExpRange d (Spec.ulpExp d.mbits d.ebits e) := by
  unfold ExpRange Spec.ulpExp Spec.bias
  rcases hd with rfl | rfl
  · norm_num [db64] at *
    split <;> omega
  · norm_num [db32] at *
    split <;> omega

theorem dragonMain_good (d : DB) (hd : IsDB d) (f e : Nat) (hf : f < 2 ^ d.mbits) (he : e < 2 ^ d.ebits - 1)
    (hnz : ¬ (f = 0 ∧ e = 0)) :
    ∃ Q e10, dragonMain d f e = some (Q, e10) ∧
      (LastDigitOk d (Spec.ulpExp d.mbits d.ebits e) ∨
        (e ≠ 0 ∧ SmallInt d.mbits (Spec.ulpExp d.mbits d.ebits e) (Spec.significand d.mbits e f)) →
        Good (Spec.significand d.mbits e f) (Spec.ulpExp d.mbits d.ebits e) Q e10 (d = db64)) ∧
      Weak (Spec.significand d.mbits e f) (Spec.ulpExp d.mbits d.ebits e) Q e10 ∧
      Q < 2 ^ (d.mbits + 1) * 10 ∧ min (mulLn2DivLn10 (Spec.ulpExp d.mbits d.ebits e)) 0 ≤ e10 := by
  have hr := exp_range d hd e he
  have hbias : ((2 : Int) ^ (d.ebits - 1) - 1) = (Spec.bias d.ebits : Int) := by
    rcases hd with rfl | rfl <;> norm_num [db64, db32, Spec.bias]
  unfold dragonMain
  simp only [hbias]
  by_cases h0 : e = 0
  · subst h0
    rw [if_pos rfl]
    have hE : (1 : Int) - (Spec.bias d.ebits + d.mbits) = Spec.ulpExp d.mbits d.ebits 0 := by
      unfold Spec.ulpExp; simp; ring
    rw [hE]
    have hne : Spec.ulpExp d.mbits d.ebits 0 ≠ 0 := by
      rcases hd with rfl | rfl <;> norm_num [db64, db32, Spec.bias, Spec.ulpExp]
    have hs : Spec.significand d.mbits 0 f = f := rfl
    rw [hs]
    obtain ⟨Q, e10, h1, h2, h2', h3, h4⟩ := dragonRest_good d hd _ hr hne f (by omega)
      (by have : 2 ^ (d.mbits + 1) = 2 * 2 ^ d.mbits := by ring
          omega)
    exact ⟨Q, e10, h1, fun hpar => h2 (by rcases hpar with h | h
                                          · exact h
                                          · exact absurd rfl h.1), h2', h3, by omega⟩
  · rw [if_neg h0]
    have hE : (e : Int) - (Spec.bias d.ebits + d.mbits) = Spec.ulpExp d.mbits d.ebits e := by
      unfold Spec.ulpExp; rw [if_neg h0]; ring
    have hs : f ||| 2 ^ d.mbits = Spec.significand d.mbits e f := by
      unfold Spec.significand
      rw [if_neg h0, Nat.or_comm]
      have := Nat.two_pow_add_eq_or_of_lt hf 1
      rw [Nat.mul_one] at this
      exact this.symm
    rw [hE, hs]
    have hm1 : 1 ≤ Spec.significand d.mbits e f := by
      unfold Spec.significand; rw [if_neg h0]
      have : 0 < 2 ^ d.mbits := Nat.pow_pos (by norm_num)
      omega
    have hm2 : Spec.significand d.mbits e f < 2 ^ (d.mbits + 1) := by
      unfold Spec.significand; rw [if_neg h0]
      have : 2 ^ (d.mbits + 1) = 2 * 2 ^ d.mbits := by ring
      omega
    generalize Spec.significand d.mbits e f = m at *
    generalize Spec.ulpExp d.mbits d.ebits e = E at *
    have hErange : -1074 ≤ E ∧ E ≤ 971 := by
      unfold ExpRange at hr
      rcases hd with rfl | rfl
      · exact hr
      · change -149 ≤ E ∧ E ≤ 104 at hr; omega
    have hmb : d.mbits ≤ 52 ∧ 1 ≤ d.mbits := by rcases hd with rfl | rfl <;> norm_num [db64, db32]
    have hpos : (((-E) % 2 ^ 32).toNat < d.mbits ↔ E ≤ 0 ∧ -E < d.mbits) ∧
        (E ≤ 0 → ((-E) % 2 ^ 32).toNat = (-E).toNat) := by
      constructor
      · constructor
        · intro h; omega
        · intro h; omega
      · intro h; omega
    have hmul : ∀ k, multipleOfPow2U m k = decide (2 ^ k ∣ m) := by
      intro k
      unfold multipleOfPow2U
      rw [Nat.and_two_pow_sub_one_eq_mod, Bool.eq_iff_iff]
      simp [Nat.dvd_iff_mod_eq_zero]
    rw [hmul]
    by_cases hc : SmallInt d.mbits E m
    · obtain ⟨c1, c2, c3⟩ := hc
      rw [if_pos ⟨hpos.1.mpr ⟨c1, c2⟩, by rw [hpos.2 c1]; exact decide_eq_true c3⟩, hpos.2 c1]
      refine ⟨_, 0, rfl, fun _ => smallInt_good m E c1 hm1 c3 _, (smallInt_good m E c1 hm1 c3 True).weak, ?_, by omega⟩
      have : m >>> (-E).toNat ≤ m := by rw [Nat.shiftRight_eq_div_pow]; exact Nat.div_le_self _ _
      omega
    · rw [if_neg, if_neg (by omega)]
      · have hE0 : E ≠ 0 := by
          intro h
          apply hc
          refine ⟨by omega, by omega, ?_⟩
          rw [h]; simp
        obtain ⟨Q, e10, h1, h2, h2', h3, h4⟩ := dragonRest_good d hd E hr hE0 m hm1 hm2
        exact ⟨Q, e10, h1, fun hpar => h2 (by
          rcases hpar with h | h
          · exact h
          · exact absurd h.2 hc), h2', h3, by omega⟩
      · rintro ⟨h1, h2⟩
        obtain ⟨c1, c2⟩ := hpos.1.mp h1
        rw [hpos.2 c1] at h2
        exact hc ⟨c1, c2, of_decide_eq_true h2⟩

/-! ## Removing zeros -/

/-- Same value, larger exponent. -/
def SameValue (m10 : Nat) (e10 : Int) (m' : Nat) (e' : Int) : Prop :=
  ∃ k : Nat, m10 = m' * 10 ^ k ∧ e' = e10 + k

theorem strip100_spec (m10 : Nat) (e10 : Int) (h : 0 < m10) :
    ∃ m' e', strip100 m10 e10 = some (m', e') ∧ SameValue m10 e10 m' e' ∧ m' % 100 ≠ 0 ∧ m' ≤ m10 := by
  induction m10, e10 using strip100.induct with
  | case1 => omega
  | case2 m10 e10 h0 h1 =>
    refine ⟨m10, e10, ?_, ⟨0, by simp, by simp⟩, h1, le_refl _⟩
    unfold strip100
    rw [dif_neg h0, if_pos h1]
  | case3 m10 e10 h0 h1 ih =>
    obtain ⟨m', e', g1, ⟨k, g2, g3⟩, g4, g5⟩ := ih (by omega)
    refine ⟨m', e', ?_, ⟨k + 2, ?_, by push_cast; omega⟩, g4, by omega⟩
    · unfold strip100
      rw [dif_neg h0, if_neg h1]; exact g1
    · rw [pow_add, ← Nat.mul_assoc, ← g2]; omega

theorem SameValue.refl (m : Nat) (e : Int) : SameValue m e m e := ⟨0, by simp, by simp⟩

theorem SameValue.trans {a b c : Nat} {x y z : Int} (h1 : SameValue a x b y) (h2 : SameValue b y c z) :
    SameValue a x c z := by
  obtain ⟨k, rfl, rfl⟩ := h1
  obtain ⟨l, rfl, rfl⟩ := h2
  exact ⟨l + k, by rw [pow_add]; ring, by push_cast; ring⟩

theorem SameValue.pos {a b : Nat} {x y : Int} (h : SameValue a x b y) (ha : 0 < a) : 0 < b := by
  obtain ⟨k, rfl, rfl⟩ := h
  exact Nat.pos_of_mul_pos_right ha

theorem SameValue.le {a b : Nat} {x y : Int} (h : SameValue a x b y) : b ≤ a ∧ x ≤ y := by
  obtain ⟨k, rfl, rfl⟩ := h
  exact ⟨Nat.le_mul_of_pos_right _ (Nat.pow_pos (by norm_num)), by omega⟩

theorem SameValue.val {a b : Nat} {x y : Int} (h : SameValue a x b y) :
    (a : ℚ) * (10 : ℚ) ^ x = b * (10 : ℚ) ^ y := by
  obtain ⟨k, rfl, rfl⟩ := h
  push_cast
  rw [zpow_add₀ (by norm_num), zpow_natCast]; ring

theorem SameValue.div {a c : Nat} {x : Int} (k : Nat) (h : a % 10 ^ k = 0) (hc : c = a / 10 ^ k) :
    SameValue a x c (x + k) :=
  ⟨k, by rw [hc, Nat.div_mul_cancel (Nat.dvd_of_mod_eq_zero h)], rfl⟩

theorem strip100Big_spec (m10 : Nat) (e10 : Int) :
    (∀ m' e', strip100Big m10 e10 = .inr (m', e') → SameValue m10 e10 m' e') ∧
    (∀ m' e', strip100Big m10 e10 = .inl (m', e') → SameValue m10 e10 m' e' ∧ m' < 1000000000) := by
  induction m10, e10 using strip100Big.induct with
  | case1 m10 e10 h0 h1 =>
    unfold strip100Big
    rw [dif_pos h0, if_pos h1]
    refine ⟨fun m' e' h => ?_, fun m' e' h => by simp at h⟩
    simp only [Sum.inr.injEq] at h
    by_cases h2 : m10 % 10 = 0
    · rw [if_pos h2, Prod.mk.injEq] at h
      rw [← h.1, ← h.2]
      exact SameValue.div 1 (by simpa using h2) (by simp)
    · rw [if_neg h2, Prod.mk.injEq] at h
      rw [← h.1, ← h.2]; exact SameValue.refl _ _
  | case2 m10 e10 h0 h1 ih =>
    unfold strip100Big
    rw [dif_pos h0, if_neg h1]
    have hs : SameValue m10 e10 (m10 / 100) (e10 + 2) := SameValue.div 2 (by simpa using h1) (by simp)
    exact ⟨fun m' e' h => hs.trans (ih.1 m' e' h), fun m' e' h => ⟨hs.trans (ih.2 m' e' h).1, (ih.2 m' e' h).2⟩⟩
  | case3 m10 e10 h0 =>
    unfold strip100Big
    rw [dif_neg h0]
    refine ⟨fun m' e' h => by simp at h, fun m' e' h => ?_⟩
    simp only [Sum.inl.injEq, Prod.mk.injEq] at h
    rw [← h.1, ← h.2]
    exact ⟨SameValue.refl _ _, by omega⟩

/-- `dragonbox_impl` keeps the value; with 64-bit `size_t`, and for `float`, no trailing zero remains. -/
theorem dragonImpl_spec (d : DB) (hd : IsDB d) (st : Bool) (f e Q : Nat) (e10 : Int) (hQ : 0 < Q)
    (h : dragonMain d f e = some (Q, e10)) :
    ∃ m' e', dragonImpl d st f e = some (m', e') ∧ SameValue Q e10 m' e' ∧
      (st = true ∨ d.w < 64 → m' % 10 ≠ 0) := by
  have he : ∀ (m : Nat) (x : Int), ∃ m' x', (if m % 100000000 = 0 then (m / 100000000, x + 8) else (m, x)) = (m', x') ∧
      SameValue m x m' x' := by
    intro m x
    by_cases h0 : m % 100000000 = 0
    · rw [if_pos h0]
      exact ⟨_, _, rfl, SameValue.div 8 (by simpa using h0) (by norm_num)⟩
    · rw [if_neg h0]; exact ⟨_, _, rfl, SameValue.refl _ _⟩
  obtain ⟨m1, x1, g1, s1⟩ := he Q e10
  unfold dragonImpl
  rw [h]
  simp only [Option.bind_eq_bind, Option.bind_some, g1]
  have fin : ∀ (m : Nat) (x : Int), 0 < m → ∃ m' x', ((strip100 m x).bind fun p =>
      pure (if p.1 % 10 = 0 then (p.1 / 10, p.2 + 1) else (p.1, p.2))) = some (m', x') ∧ SameValue m x m' x' ∧
      m' % 10 ≠ 0 := by
    intro m x hm
    obtain ⟨m2, x2, k1, k2, k3, k4⟩ := strip100_spec m x hm
    rw [k1, Option.bind_some]
    by_cases h0 : m2 % 10 = 0
    · simp only [if_pos h0]
      exact ⟨_, _, rfl, k2.trans (SameValue.div 1 (by simpa using h0) (by simp)), by omega⟩
    · simp only [if_neg h0]
      exact ⟨_, _, rfl, k2, h0⟩
  by_cases hst : (st || decide (d.w < 64)) = true
  · rw [if_pos hst]
    obtain ⟨m0, x0, q1, q2⟩ : ∃ m0 x0, (if 64 ≤ d.w then (m1, x1) else (Q, e10)) = (m0, x0) ∧
        SameValue Q e10 m0 x0 := by
      by_cases h64 : 64 ≤ d.w
      · rw [if_pos h64]; exact ⟨_, _, rfl, s1⟩
      · rw [if_neg h64]; exact ⟨_, _, rfl, SameValue.refl _ _⟩
    rw [q1]
    obtain ⟨m', x', r1, r2, r3⟩ := fin m0 x0 (q2.pos hQ)
    exact ⟨m', x', r1, q2.trans r2, fun _ => r3⟩
  · rw [if_neg hst]
    have hno : ¬ (st = true ∨ d.w < 64) := by simpa using hst
    cases hb : strip100Big m1 x1 with
    | inr r =>
      obtain ⟨m', x'⟩ := r
      exact ⟨m', x', rfl, s1.trans ((strip100Big_spec m1 x1).1 _ _ hb), fun h => absurd h hno⟩
    | inl r =>
      obtain ⟨m2, x2⟩ := r
      obtain ⟨k1, k2⟩ := (strip100Big_spec m1 x1).2 _ _ hb
      simp only []
      rw [Nat.mod_eq_of_lt (by omega)]
      obtain ⟨m', x', r1, r2, -, -⟩ := strip100_spec m2 x2 (k1.pos (s1.pos hQ))
      exact ⟨m', x', r1, s1.trans (k1.trans r2), fun h => absurd h hno⟩

/-- A result without trailing zeros: `uniq` becomes maximality of the exponent. -/
theorem good_strip {m : Nat} {E : Int} {Q m' : Nat} {x x' : Int} {c : Prop} (h : Good m E Q x c)
    (hs : SameValue Q x m' x') : Good m E m' x' c where
  pos := hs.pos h.pos
  inside := by rw [← hs.val]; exact h.inside
  uniq := fun t j hj hin => by rw [← hs.val]; exact h.uniq t j (by have := hs.le.2; omega) hin
  near := fun hc t j hj hin => by rw [← hs.val]; exact h.near hc t j (by have := hs.le.2; omega) hin

theorem weak_strip {m : Nat} {E : Int} {Q m' : Nat} {x x' : Int} (h : Weak m E Q x)
    (hs : SameValue Q x m' x') : Weak m E m' x' where
  pos := hs.pos h.pos
  near := by rw [← hs.val]; exact h.near
  uniq := fun t j hj hin => by rw [← hs.val]; exact h.uniq t j (by have := hs.le.2; omega) hin

theorem good_maximal {m : Nat} {E : Int} {m' : Nat} {x' : Int} {c : Prop} (h : Good m E m' x' c)
    (h10 : m' % 10 ≠ 0) (t : Nat) (j : Int) (hj : x' < j) : ¬ InsideQ m E (t * (10 : ℚ) ^ j) := by
  intro hin
  have := h.uniq t j hj hin
  rw [pow10_step t j x' hj.le] at this
  have h1 := mul_right_cancel₀ (zpow_pos (by norm_num : (0 : ℚ) < 10) x').ne' this
  have h2 : t * 10 ^ (j - x').toNat = m' := by exact_mod_cast h1
  obtain ⟨k, hk⟩ : ∃ k, (j - x').toNat = k + 1 := ⟨(j - x').toNat - 1, by omega⟩
  rw [hk, pow_succ, ← Nat.mul_assoc] at h2
  omega

/-- Fewest digits: every decimal number in the interval has at least as many digits. -/
theorem good_shortest {m : Nat} {E : Int} {m' : Nat} {x' : Int} {c : Prop} (h : Good m E m' x' c)
    (h10 : m' % 10 ≠ 0) (n : Nat) (hn : 10 ^ n ≤ m') (t : Nat) (j : Int) (ht : 0 < t)
    (hin : InsideQ m E (t * (10 : ℚ) ^ j)) : 10 ^ n ≤ t := by
  by_contra hc
  push Not at hc
  have hjx : j ≤ x' := by
    by_contra hj
    exact good_maximal h h10 t j (by omega) hin
  have hn0 : n ≠ 0 := by
    rintro rfl
    rw [pow_zero] at hc; omega
  -- the power of ten between them
  have hmid : InsideQ m E ((1 : Nat) * (10 : ℚ) ^ (x' + n)) := by
    have h1 : (t : ℚ) * (10 : ℚ) ^ j ≤ ((1 : Nat) : ℚ) * (10 : ℚ) ^ (x' + n) := by
      have a1 : (t : ℚ) ≤ 10 ^ n := by exact_mod_cast hc.le
      have a2 : (10 : ℚ) ^ j ≤ (10 : ℚ) ^ x' := zpow_le_zpow_right₀ (by norm_num) hjx
      rw [zpow_add₀ (by norm_num), zpow_natCast]
      calc (t : ℚ) * (10 : ℚ) ^ j ≤ 10 ^ n * (10 : ℚ) ^ x' :=
            mul_le_mul a1 a2 (zpow_pos (by norm_num) _).le (by positivity)
        _ = _ := by push_cast; ring
    have h2 : ((1 : Nat) : ℚ) * (10 : ℚ) ^ (x' + n) ≤ m' * (10 : ℚ) ^ x' := by
      rw [zpow_add₀ (by norm_num), zpow_natCast]
      have a1 : (10 : ℚ) ^ n ≤ m' := by exact_mod_cast hn
      have a2 : (0 : ℚ) < (10 : ℚ) ^ x' := zpow_pos (by norm_num) _
      push_cast
      nlinarith
    have hi := h.inside
    exact ⟨⟨le_trans hin.1.1 h1, le_trans h2 hi.1.2⟩,
      fun ho => ⟨lt_of_lt_of_le (hin.2 ho).1 h1, lt_of_le_of_lt h2 (hi.2 ho).2⟩⟩
  exact good_maximal h h10 1 (x' + n) (by omega) hmid

end Verif.Float
