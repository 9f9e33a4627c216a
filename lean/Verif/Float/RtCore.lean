import Verif.Float.RtCheck
import Mathlib.Tactic.Ring
import Mathlib.Tactic.Linarith
import Mathlib.Tactic.NormNum
import Mathlib.Algebra.Order.Ring.Nat
/-! # The arithmetic core of the round-trip printer -/
namespace Verif.Float

/-- Between neighbouring fractions `a/b ≤ x < c/d` the integer part of `n·x` is that of `n·a/b` as long as `n < b+d`. -/
theorem floor_between (a b c d A B n : Nat) (hB : 0 < B) (hb : 0 < b) (hdet : c * b = a * d + 1)
    (h1 : a * B ≤ A * b) (h2 : A * d < c * B) (hn : n < b + d) (hn0 : 0 < n) : n * A / B = n * a / b := by
  apply le_antisymm
  · rw [Nat.le_div_iff_mul_le hb]
    by_contra hc
    push Not at hc
    -- p = n*A/B
    set p := n * A / B with hp
    have hpB : p * B ≤ n * A := Nat.div_mul_le_self _ _
    -- p*d < n*c
    have h3 : p * d < n * c := by
      have : p * d * B < n * c * B := by
        calc p * d * B = p * B * d := by ring
          _ ≤ n * A * d := Nat.mul_le_mul_right _ hpB
          _ = n * (A * d) := by ring
          _ < n * (c * B) := Nat.mul_lt_mul_of_pos_left h2 hn0
          _ = n * c * B := by ring
      exact lt_of_mul_lt_mul_right this (Nat.zero_le _)
    -- n = b(nc - pd) + d(pb - na)
    have e : n * (c * b) = n * (a * d) + n := by rw [hdet]; ring
    have h4 : b * (p * d + 1) ≤ b * (n * c) := Nat.mul_le_mul_left _ h3
    have h5 : d * (n * a + 1) ≤ d * (p * b) := Nat.mul_le_mul_left _ hc
    nlinarith
  · rw [Nat.le_div_iff_mul_le hB]
    have hpb : n * a / b * b ≤ n * a := Nat.div_mul_le_self _ _
    have : n * a / b * B * b ≤ n * A * b := by
      calc n * a / b * B * b = n * a / b * b * B := by ring
        _ ≤ n * a * B := Nat.mul_le_mul_right _ hpb
        _ = n * (a * B) := by ring
        _ ≤ n * (A * b) := Nat.mul_le_mul_left _ h1
        _ = n * A * b := by ring
    exact le_of_mul_le_mul_right this hb

/-- Two numbers between the same neighbouring fractions. -/
theorem floor_same (b d A B P T n : Nat) (hB : 0 < B) (hT : 0 < T) (hb : 0 < b)
    (hdet : (A * d / B + 1) * b = A * b / B * d + 1)
    (h1 : A * b / B * T ≤ P * b) (h2 : P * d < (A * d / B + 1) * T) (hn : n < b + d) (hn0 : 0 < n) :
    n * P / T = n * A / B := by
  have ha : A * b / B * B ≤ A * b := Nat.div_mul_le_self _ _
  have hc : A * d < (A * d / B + 1) * B := by
    have := Nat.lt_mul_div_succ (A * d) hB
    rwa [Nat.mul_comm B] at this
  rw [floor_between _ b _ d A B n hB hb hdet ha hc hn hn0, floor_between _ b _ d P T n hT hb hdet h1 h2 hn hn0]

/-- `a ∣`-test through the inverse table. -/
theorem pow5_test (w j n inv lim : Nat) (h1 : inv * 5 ^ j % 2 ^ w = 1) (h2 : lim = (2 ^ w - 1) / 5 ^ j)
    (hn : n < 2 ^ w) : n * inv % 2 ^ w ≤ lim ↔ 5 ^ j ∣ n := by
  have hp : 0 < 5 ^ j := Nat.pow_pos (by omega)
  have hw : 0 < 2 ^ w := Nat.pow_pos (by omega)
  generalize 5 ^ j = p at *
  generalize 2 ^ w = W at *
  have hlim : ∀ t, t ≤ lim ↔ t * p ≤ W - 1 := fun t => by rw [h2, Nat.le_div_iff_mul_le hp]
  constructor
  · intro h
    have h3 := (hlim _).mp h
    have h4 : (n * inv % W * p) % W = n % W := by
      rw [Nat.mod_mul_mod, Nat.mul_assoc, Nat.mul_mod, h1, Nat.mul_one, Nat.mod_mod]
    rw [Nat.mod_eq_of_lt (by omega), Nat.mod_eq_of_lt hn] at h4
    exact ⟨n * inv % W, by rw [Nat.mul_comm]; exact h4.symm⟩
  · rintro ⟨t, rfl⟩
    have ht : t < W := lt_of_le_of_lt (Nat.le_mul_of_pos_left _ hp) hn
    have h4 : p * t * inv % W = t := by
      rw [show p * t * inv = t * (inv * p) by ring, Nat.mul_mod, h1, Nat.mul_one, Nat.mod_mod, Nat.mod_eq_of_lt ht]
    rw [h4, hlim]
    have : t * p = p * t := Nat.mul_comm _ _
    omega

/-- What the rounding step must establish, in units of the scaled grid: `S = D·B` lies in the rounding interval of the
number `2mA`, and in its interior when the significand is odd. -/
def Inside (m A S : Nat) : Prop :=
  (2 * m - 1) * A ≤ S ∧ S ≤ (2 * m + 1) * A ∧ (m % 2 = 1 → (2 * m - 1) * A < S ∧ S < (2 * m + 1) * A)

/-- The last digit: with `zi = q·big + r`, `delta ≤ r ≤ big`, the result is inside; for `double` it is also the
multiple of `small` closest to the number. -/
theorem dbRound_spec (d : DB) (A B C L z zi zr dl dr q r : Nat) (mid : Unit → Option Bool)
    (hB : 0 < B) (hbig : d.big = 10 * d.small) (h : Nat) (hh : d.small = 2 * h) (hh0 : 1 ≤ h) (hb32 : d.big ≤ 1000)
    (hzC : C + A = z) (hL : L + A = C)
    (hzB : z = zi * B + zr) (hzrB : zr < B) (hdB : 2 * A = dl * B + dr) (hdrB : dr < B)
    (hw : zi + 16 ≤ 2 ^ d.w) (hlo : d.small * B < 2 * A)
    (hq : zi = q * d.big + r) (hr1 : dl ≤ r) (hr2 : r ≤ d.big)
    (hpar : 2 ∣ h ∨ ((h + 1) * B ≤ A ∨ ((2 * h + 1) * B ≤ 2 * A ∧ 0 < zr)))
    (hmid : mid () = some (decide (B ∣ C))) :
    ∃ Q, dbRound d dl mid (decide (C / B % 2 = 1)) q r = some (Q, false) ∧
      L < Q * d.small * B ∧ Q * d.small * B < z ∧
      (2 ∣ h → Q * d.small * B ≤ C + h * B ∧ C ≤ Q * d.small * B + h * B) := by
  -- the approximate centre
  obtain ⟨g, hg⟩ : ∃ g, g = dl / 2 := ⟨_, rfl⟩
  obtain ⟨s, hs⟩ : ∃ s, s = dl % 2 := ⟨_, rfl⟩
  have hdl : dl = 2 * g + s := by omega
  have hs1 : s ≤ 1 := by omega
  obtain ⟨Y, hY⟩ : ∃ Y, Y + g = zi := ⟨zi - g, by have : r ≤ zi := by rw [hq]; exact Nat.le_add_left _ _
                                                  omega⟩
  have hYB : z = Y * B + g * B + zr := by rw [hzB, ← hY]; ring
  have hdB' : 2 * A = 2 * (g * B) + s * B + dr := by rw [hdB, hdl]; ring
  have hsB : s * B ≤ B := by
    calc s * B ≤ 1 * B := Nat.mul_le_mul_right _ hs1
      _ = B := Nat.one_mul B
  have c1 : C < Y * B + B := by omega
  have c2 : Y * B < C + B := by omega
  have hAh : h * B < A := by
    have : d.small * B = 2 * (h * B) := by rw [hh]; ring
    omega
  -- the computed distance
  have hsm : 0 < d.small := by omega
  have hdist : (r + 2 ^ 32 - dl / 2 + d.small / 2) % 2 ^ 32 = r - g + h := by
    rw [← hg]
    have : d.small / 2 = h := by omega
    rw [this]; omega
  obtain ⟨ρ, hρ⟩ : ∃ ρ, ρ = (r - g + h) % d.small := ⟨_, rfl⟩
  have hρ2 : ρ < d.small := by rw [hρ]; exact Nat.mod_lt _ hsm
  obtain ⟨Q, hQ⟩ : ∃ Q, Q = q * 10 + (r - g + h) / d.small := ⟨_, rfl⟩
  have hQs : Q * d.small + ρ = Y + h := by
    have e1 := Nat.div_add_mod (r - g + h) d.small
    have e2 : Q * d.small = q * d.big + d.small * ((r - g + h) / d.small) := by
      rw [hQ, hbig]; ring
    rw [← hρ] at e1
    omega
  have hQle : Q ≤ Y + h := by
    have : Q * 1 ≤ Q * d.small := Nat.mul_le_mul_left _ hsm
    omega
  have hqzi : q * 10 ≤ zi := by
    have : q * 10 ≤ q * d.big := Nat.mul_le_mul_left _ (by omega)
    omega
  have hdlsm : d.small ≤ dl := by
    have : d.small * B < (dl + 1) * B := by rw [Nat.add_mul, Nat.one_mul]; omega
    have := Nat.lt_of_mul_lt_mul_right this
    omega
  have hzi1 : 2 ≤ zi := by
    have : r ≤ zi := by rw [hq]; exact Nat.le_add_left _ _
    omega
  have hQw : Q < 2 ^ d.w := by
    have : (r - g + h) / d.small ≤ 10 := by
      rw [Nat.div_le_iff_le_mul_add_pred hsm]; omega
    omega
  have hQB : Q * d.small * B + ρ * B = Y * B + h * B := by rw [← Nat.add_mul, hQs, Nat.add_mul]
  unfold dbRound
  simp only [hdist]
  rw [Nat.mod_eq_of_lt (show q * 10 < 2 ^ d.w by omega), ← hQ, Nat.mod_eq_of_lt hQw]
  have hiff : (r - g + h = (r - g + h) / d.small * d.small) ↔ ρ = 0 := by
    have e1 := Nat.div_add_mod (r - g + h) d.small
    rw [← hρ, Nat.mul_comm] at e1
    omega
  by_cases hρ0 : ρ = 0
  · rw [if_pos (hiff.mpr hρ0)]
    rw [hρ0, Nat.zero_mul, Nat.add_zero] at hQB
    have hQ1 : 1 ≤ Q := by
      rcases Nat.eq_zero_or_pos Q with h0 | h0
      · exfalso; subst h0; omega
      · exact h0
    have hdec : (Q + 2 ^ d.w - 1) % 2 ^ d.w = Q - 1 := by
      rw [show Q + 2 ^ d.w - 1 = Q - 1 + 2 ^ d.w by omega, Nat.add_mod_right, Nat.mod_eq_of_lt (by omega)]
    have hQm : (Q - 1) * d.small * B + 2 * (h * B) = Q * d.small * B := by
      obtain ⟨Q', rfl⟩ : ∃ Q', Q = Q' + 1 := ⟨Q - 1, by omega⟩
      rw [Nat.add_sub_cancel, hh]; ring
    -- what each outcome gives
    have up : C + A = z := hzC
    have res0 : (Y * B ≤ C ∨ ((h + 1) * B ≤ A ∨ ((2 * h + 1) * B ≤ 2 * A ∧ 0 < zr))) → L < Q * d.small * B ∧ Q * d.small * B < z := by
      intro hc
      have : (h + 1) * B = h * B + B := by ring
      have : (2 * h + 1) * B = 2 * (h * B) + B := by ring
      have : 1 * B ≤ h * B := Nat.mul_le_mul_right _ hh0
      have hgh : h * B ≤ g * B := Nat.mul_le_mul_right _ (by omega)
      have hgh2 : g = h ∨ h * B + B ≤ g * B := by
        rcases Nat.lt_or_ge h g with h1 | h1
        · right
          calc h * B + B = (h + 1) * B := by ring
            _ ≤ g * B := Nat.mul_le_mul_right _ h1
        · left; omega
      have hgh3 : g = h → g * B = h * B := fun h => by rw [h]
      omega
    have res1 : (C ≤ Y * B ∨ ((h + 1) * B ≤ A ∨ ((2 * h + 1) * B ≤ 2 * A ∧ 0 < zr))) → L < (Q - 1) * d.small * B ∧ (Q - 1) * d.small * B < z := by
      intro hc
      have : (h + 1) * B = h * B + B := by ring
      have : (2 * h + 1) * B = 2 * (h * B) + B := by ring
      have : 1 * B ≤ h * B := Nat.mul_le_mul_right _ hh0
      have hgh : h * B ≤ g * B := Nat.mul_le_mul_right _ (by omega)
      have hgh2 : g = h ∨ h * B + B ≤ g * B := by
        rcases Nat.lt_or_ge h g with h1 | h1
        · right
          calc h * B + B = (h + 1) * B := by ring
            _ ≤ g * B := Nat.mul_le_mul_right _ h1
        · left; omega
      have hgh3 : g = h → g * B = h * B := fun h => by rw [h]
      omega
    -- parity
    have hparity : 2 ∣ h → ((decide (C / B % 2 = 1) != decide ((r - g + h) % 2 = 1)) = false ↔ Y * B ≤ C) := by
      intro h2
      have hYpar : (r - g + h) % 2 = Y % 2 := by
        have : q * d.big = 2 * (q * (10 * h)) := by rw [hbig, hh]; ring
        omega
      rw [hYpar]
      by_cases hc : Y * B ≤ C
      · have : C / B = Y := by
          apply le_antisymm
          · rw [← Nat.lt_succ_iff, Nat.div_lt_iff_lt_mul hB, Nat.succ_mul]; omega
          · rw [Nat.le_div_iff_mul_le hB]; omega
        rw [this]; simp [hc]
      · have hY1 : 1 ≤ Y := by
          rcases Nat.eq_zero_or_pos Y with h0 | h0
          · exfalso; subst h0; omega
          · exact h0
        have hYm : (Y - 1) * B + B = Y * B := by
          obtain ⟨Y', rfl⟩ : ∃ Y', Y = Y' + 1 := ⟨Y - 1, by omega⟩
          rw [Nat.add_sub_cancel]; ring
        have : C / B = Y - 1 := by
          apply le_antisymm
          · rw [← Nat.lt_succ_iff, Nat.div_lt_iff_lt_mul hB, Nat.succ_mul]; omega
          · rw [Nat.le_div_iff_mul_le hB]; omega
        rw [this]
        simp only [hc, iff_false]
        by_cases hy : Y % 2 = 1
        · have : ¬ ((Y - 1) % 2 = 1) := by omega
          simp [hy, this]
        · have : (Y - 1) % 2 = 1 := by omega
          simp [hy, this]
    rw [hmid]
    have hBh : 1 * B ≤ h * B := Nat.mul_le_mul_right _ hh0
    by_cases hp : (decide (C / B % 2 = 1) != decide ((r - g + h) % 2 = 1)) = true
    · rw [if_pos hp]
      simp only [Option.map_some, if_true, hdec]
      refine ⟨Q - 1, rfl, ?_⟩
      rcases hpar with h2 | h2
      · have hc : ¬ Y * B ≤ C := fun hc => by
          rw [(hparity h2).mpr hc] at hp; exact absurd hp (by simp)
        obtain ⟨a, b⟩ := res1 (Or.inl (by omega))
        exact ⟨a, b, fun _ => by omega⟩
      · obtain ⟨a, b⟩ := res1 (Or.inr h2)
        refine ⟨a, b, fun h2' => ?_⟩
        have hc : ¬ Y * B ≤ C := fun hc => by
          rw [(hparity h2').mpr hc] at hp; exact absurd hp (by simp)
        omega
    · have hp' : (decide (C / B % 2 = 1) != decide ((r - g + h) % 2 = 1)) = false := by simpa using hp
      rw [if_neg hp]
      by_cases hodd : Q % 2 = 1 ∧ B ∣ C
      · rw [if_pos hodd.1]
        simp only [Option.map_some, hodd.2, decide_true, if_true, hdec]
        refine ⟨Q - 1, rfl, ?_⟩
        rcases hpar with h2 | h2
        · have hc := (hparity h2).mp hp'
          have hCY : C = Y * B := by
            obtain ⟨t, ht⟩ := hodd.2
            have : Y ≤ t := by
              by_contra hlt
              have : t * B + B ≤ Y * B := by
                calc t * B + B = (t + 1) * B := by ring
                  _ ≤ Y * B := Nat.mul_le_mul_right _ (by omega)
              rw [Nat.mul_comm] at ht
              omega
            have : t ≤ Y := by
              by_contra hlt
              have : Y * B + B ≤ t * B := by
                calc Y * B + B = (Y + 1) * B := by ring
                  _ ≤ t * B := Nat.mul_le_mul_right _ (by omega)
              rw [Nat.mul_comm] at ht
              omega
            have : t = Y := by omega
            rw [ht, this, Nat.mul_comm]
          obtain ⟨a, b⟩ := res1 (Or.inl (by omega))
          exact ⟨a, b, fun _ => by omega⟩
        · obtain ⟨a, b⟩ := res1 (Or.inr h2)
          refine ⟨a, b, fun h2' => ?_⟩
          have hc := (hparity h2').mp hp'
          have : C < Y * B + B := c1
          -- a multiple of `B` in `[Y*B, Y*B+B)`
          obtain ⟨t, ht⟩ := hodd.2
          have : t ≤ Y := by
            by_contra hlt
            have : Y * B + B ≤ t * B := by
              calc Y * B + B = (Y + 1) * B := by ring
                _ ≤ t * B := Nat.mul_le_mul_right _ (by omega)
            rw [Nat.mul_comm] at ht
            omega
          have : t * B ≤ Y * B := Nat.mul_le_mul_right _ this
          rw [Nat.mul_comm] at ht
          omega
      · have : (if Q % 2 = 1 then some (decide (B ∣ C)) else some false) = some false := by
          by_cases ho : Q % 2 = 1
          · rw [if_pos ho]
            have : ¬ B ∣ C := fun hd => hodd ⟨ho, hd⟩
            simp [this]
          · rw [if_neg ho]
        rw [this]
        simp only [Option.map_some, Bool.false_eq_true, if_false]
        refine ⟨Q, rfl, ?_⟩
        rcases hpar with h2 | h2
        · have hc := (hparity h2).mp hp'
          obtain ⟨a, b⟩ := res0 (Or.inl hc)
          have : 1 * B ≤ h * B := Nat.mul_le_mul_right _ hh0
          exact ⟨a, b, fun _ => by omega⟩
        · obtain ⟨a, b⟩ := res0 (Or.inr h2)
          refine ⟨a, b, fun h2' => ?_⟩
          have hc := (hparity h2').mp hp'
          have : 1 * B ≤ h * B := Nat.mul_le_mul_right _ hh0
          omega
  · rw [if_neg (fun h => hρ0 (hiff.mp h))]
    refine ⟨Q, rfl, ?_⟩
    have r1 : 1 * B ≤ ρ * B := Nat.mul_le_mul_right _ (by omega)
    have r2 : ρ * B + B ≤ 2 * (h * B) := by
      calc ρ * B + B = (ρ + 1) * B := by ring
        _ ≤ d.small * B := Nat.mul_le_mul_right _ (by omega)
        _ = 2 * (h * B) := by rw [hh]; ring
    refine ⟨by omega, by omega, fun _ => by omega⟩

/-- The last digit without the assumption on the scaled unit: the result is within `small/2 + 1` units of the number. -/
theorem dbRound_all (d : DB) (A B C L z zi zr dl dr q r : Nat) (mid : Unit → Option Bool)
    (hB : 0 < B) (hbig : d.big = 10 * d.small) (h : Nat) (hh : d.small = 2 * h) (hh0 : 1 ≤ h) (hb32 : d.big ≤ 1000)
    (hzC : C + A = z) (hL : L + A = C)
    (hzB : z = zi * B + zr) (hzrB : zr < B) (hdB : 2 * A = dl * B + dr) (hdrB : dr < B)
    (hw : zi + 16 ≤ 2 ^ d.w) (hlo : d.small * B < 2 * A)
    (hq : zi = q * d.big + r) (hr1 : dl ≤ r) (hr2 : r ≤ d.big)
    (hmid : mid () = some (decide (B ∣ C))) :
    ∃ Q, dbRound d dl mid (decide (C / B % 2 = 1)) q r = some (Q, false) ∧
      ((2 ∣ h ∨ ((h + 1) * B ≤ A ∨ ((2 * h + 1) * B ≤ 2 * A ∧ 0 < zr))) →
        L < Q * d.small * B ∧ Q * d.small * B < z ∧
        (2 ∣ h → Q * d.small * B ≤ C + h * B ∧ C ≤ Q * d.small * B + h * B)) ∧
      Q * d.small * B ≤ C + (h + 1) * B ∧ C ≤ Q * d.small * B + (h + 1) * B := by
  suffices H : ∃ Q, dbRound d dl mid (decide (C / B % 2 = 1)) q r = some (Q, false) ∧
      Q * d.small * B ≤ C + (h + 1) * B ∧ C ≤ Q * d.small * B + (h + 1) * B by
    obtain ⟨Q, h1, h2⟩ := H
    refine ⟨Q, h1, fun hpar => ?_, h2⟩
    obtain ⟨Q', g1, g2⟩ := dbRound_spec d A B C L z zi zr dl dr q r mid hB hbig h hh hh0 hb32 hzC hL hzB hzrB hdB hdrB hw hlo hq
      hr1 hr2 hpar hmid
    rw [h1] at g1
    obtain rfl : Q = Q' := by simpa using g1
    exact g2
  -- the approximate centre
  obtain ⟨g, hg⟩ : ∃ g, g = dl / 2 := ⟨_, rfl⟩
  obtain ⟨s, hs⟩ : ∃ s, s = dl % 2 := ⟨_, rfl⟩
  have hdl : dl = 2 * g + s := by omega
  have hs1 : s ≤ 1 := by omega
  obtain ⟨Y, hY⟩ : ∃ Y, Y + g = zi := ⟨zi - g, by have : r ≤ zi := by rw [hq]; exact Nat.le_add_left _ _
                                                  omega⟩
  have hYB : z = Y * B + g * B + zr := by rw [hzB, ← hY]; ring
  have hdB' : 2 * A = 2 * (g * B) + s * B + dr := by rw [hdB, hdl]; ring
  have hsB : s * B ≤ B := by
    calc s * B ≤ 1 * B := Nat.mul_le_mul_right _ hs1
      _ = B := Nat.one_mul B
  have c1 : C < Y * B + B := by omega
  have c2 : Y * B < C + B := by omega
  have hAh : h * B < A := by
    have : d.small * B = 2 * (h * B) := by rw [hh]; ring
    omega
  -- the computed distance
  have hsm : 0 < d.small := by omega
  have hdist : (r + 2 ^ 32 - dl / 2 + d.small / 2) % 2 ^ 32 = r - g + h := by
    rw [← hg]
    have : d.small / 2 = h := by omega
    rw [this]; omega
  obtain ⟨ρ, hρ⟩ : ∃ ρ, ρ = (r - g + h) % d.small := ⟨_, rfl⟩
  have hρ2 : ρ < d.small := by rw [hρ]; exact Nat.mod_lt _ hsm
  obtain ⟨Q, hQ⟩ : ∃ Q, Q = q * 10 + (r - g + h) / d.small := ⟨_, rfl⟩
  have hQs : Q * d.small + ρ = Y + h := by
    have e1 := Nat.div_add_mod (r - g + h) d.small
    have e2 : Q * d.small = q * d.big + d.small * ((r - g + h) / d.small) := by
      rw [hQ, hbig]; ring
    rw [← hρ] at e1
    omega
  have hQle : Q ≤ Y + h := by
    have : Q * 1 ≤ Q * d.small := Nat.mul_le_mul_left _ hsm
    omega
  have hqzi : q * 10 ≤ zi := by
    have : q * 10 ≤ q * d.big := Nat.mul_le_mul_left _ (by omega)
    omega
  have hdlsm : d.small ≤ dl := by
    have : d.small * B < (dl + 1) * B := by rw [Nat.add_mul, Nat.one_mul]; omega
    have := Nat.lt_of_mul_lt_mul_right this
    omega
  have hzi1 : 2 ≤ zi := by
    have : r ≤ zi := by rw [hq]; exact Nat.le_add_left _ _
    omega
  have hQw : Q < 2 ^ d.w := by
    have : (r - g + h) / d.small ≤ 10 := by
      rw [Nat.div_le_iff_le_mul_add_pred hsm]; omega
    omega
  have hQB : Q * d.small * B + ρ * B = Y * B + h * B := by rw [← Nat.add_mul, hQs, Nat.add_mul]
  unfold dbRound
  simp only [hdist]
  rw [Nat.mod_eq_of_lt (show q * 10 < 2 ^ d.w by omega), ← hQ, Nat.mod_eq_of_lt hQw]
  have hiff : (r - g + h = (r - g + h) / d.small * d.small) ↔ ρ = 0 := by
    have e1 := Nat.div_add_mod (r - g + h) d.small
    rw [← hρ, Nat.mul_comm] at e1
    omega
  by_cases hρ0 : ρ = 0
  · rw [if_pos (hiff.mpr hρ0)]
    rw [hρ0, Nat.zero_mul, Nat.add_zero] at hQB
    have hQ1 : 1 ≤ Q := by
      rcases Nat.eq_zero_or_pos Q with h0 | h0
      · exfalso; subst h0; omega
      · exact h0
    have hdec : (Q + 2 ^ d.w - 1) % 2 ^ d.w = Q - 1 := by
      rw [show Q + 2 ^ d.w - 1 = Q - 1 + 2 ^ d.w by omega, Nat.add_mod_right, Nat.mod_eq_of_lt (by omega)]
    have hQm : (Q - 1) * d.small * B + 2 * (h * B) = Q * d.small * B := by
      obtain ⟨Q', rfl⟩ : ∃ Q', Q = Q' + 1 := ⟨Q - 1, by omega⟩
      rw [Nat.add_sub_cancel, hh]; ring
    have hB1 : (h + 1) * B = h * B + B := by ring
    rw [hB1]
    have hout : ∀ o : Option Bool, o = some true ∨ o = some false → ∃ R, (o.map fun dec =>
        if dec = true then ((Q + 2 ^ d.w - 1) % 2 ^ d.w, false) else (Q, false)) = some (R, false) ∧ (R = Q ∨ R = Q - 1) := by
      rintro o (rfl | rfl)
      · exact ⟨Q - 1, by simp [hdec], Or.inr rfl⟩
      · exact ⟨Q, by simp, Or.inl rfl⟩
    obtain ⟨R, hR, hR2⟩ := hout (if (decide (C / B % 2 = 1) != decide ((r - g + h) % 2 = 1)) = true then some true
        else if Q % 2 = 1 then mid () else some false) (by
      rw [hmid]
      split
      · exact Or.inl rfl
      · split
        · cases decide (B ∣ C)
          · exact Or.inr rfl
          · exact Or.inl rfl
        · exact Or.inr rfl)
    refine ⟨R, hR, ?_⟩
    rcases hR2 with rfl | rfl <;> omega
  · rw [if_neg (fun h => hρ0 (hiff.mp h))]
    refine ⟨Q, rfl, ?_⟩
    have hB1 : (h + 1) * B = h * B + B := by ring
    rw [hB1]
    have r1 : 1 * B ≤ ρ * B := Nat.mul_le_mul_right _ (by omega)
    have r2 : ρ * B + B ≤ 2 * (h * B) := by
      calc ρ * B + B = (ρ + 1) * B := by ring
        _ ≤ d.small * B := Nat.mul_le_mul_right _ (by omega)
        _ = 2 * (h * B) := by rw [hh]; ring
    exact ⟨by omega, by omega⟩

/-- The whole decision: the result is inside the rounding interval, has the coarse exponent whenever that is possible,
and (`double`) is the closest of its exponent. -/
theorem dbTail_spec (d : DB) (m A B : Nat) (endR endL mid : Unit → Option Bool) (hm : 1 ≤ m) (hA : 0 < A)
    (hB : 0 < B) (hbig : d.big = 10 * d.small) (h : Nat) (hh : d.small = 2 * h) (hh0 : 1 ≤ h) (hb32 : d.big ≤ 1000)
    (hw : (2 * m + 1) * A / B + 16 ≤ 2 ^ d.w) (hlo : d.small * B < 2 * A)
    (hhi : 2 * A < d.big * B)
    (hendR : endR () = some (decide (B ∣ (2 * m + 1) * A)))
    (hendL : endL () = some (decide (B ∣ (2 * m - 1) * A)))
    (hmid : mid () = some (decide (B ∣ 2 * m * A))) :
    ∃ Q up, dbTail d (decide (m % 2 = 0)) ((2 * m + 1) * A / B) (2 * A / B) endR endL mid
        (decide ((2 * m - 1) * A / B % 2 = 1)) (decide (2 * m * A / B % 2 = 1)) = some (Q, up) ∧
      (up = true ∨ (2 ∣ h ∨ ((h + 1) * B ≤ A ∨ ((2 * h + 1) * B ≤ 2 * A ∧ 0 < (2 * m + 1) * A % B))) →
        Inside m A (Q * (if up then d.big else d.small) * B)) ∧
      (up = false → ∀ t, ¬ Inside m A (t * d.big * B)) ∧
      (up = false → 2 ∣ h → Q * d.small * B ≤ 2 * m * A + h * B ∧ 2 * m * A ≤ Q * d.small * B + h * B) ∧
      (up = false → Q * d.small * B ≤ 2 * m * A + (h + 1) * B ∧ 2 * m * A ≤ Q * d.small * B + (h + 1) * B) := by
  obtain ⟨z, hz⟩ : ∃ z, z = (2 * m + 1) * A := ⟨_, rfl⟩
  obtain ⟨C, hC⟩ : ∃ C, C = 2 * m * A := ⟨_, rfl⟩
  obtain ⟨L, hL⟩ : ∃ L, L = (2 * m - 1) * A := ⟨_, rfl⟩
  have hzC : C + A = z := by rw [hC, hz]; ring
  have hLC : L + A = C := by
    obtain ⟨k, rfl⟩ : ∃ k, m = k + 1 := ⟨m - 1, by omega⟩
    rw [hC, hL, show 2 * (k + 1) - 1 = 2 * k + 1 by omega]; ring
  unfold Inside
  simp only [← hz, ← hC, ← hL] at hw hendR hendL hmid ⊢
  clear hz hC hL
  obtain ⟨zi, hzi⟩ : ∃ x, x = z / B := ⟨_, rfl⟩
  obtain ⟨zr, hzr⟩ : ∃ x, x = z % B := ⟨_, rfl⟩
  obtain ⟨dl, hdl⟩ : ∃ x, x = 2 * A / B := ⟨_, rfl⟩
  obtain ⟨dr, hdr⟩ : ∃ x, x = 2 * A % B := ⟨_, rfl⟩
  have hzB : z = zi * B + zr := by rw [hzi, hzr, Nat.mul_comm]; exact (Nat.div_add_mod z B).symm
  have hzrB : zr < B := by rw [hzr]; exact Nat.mod_lt _ hB
  have hdB : 2 * A = dl * B + dr := by rw [hdl, hdr, Nat.mul_comm _ B]; exact (Nat.div_add_mod (2 * A) B).symm
  have hdrB : dr < B := by rw [hdr]; exact Nat.mod_lt _ hB
  rw [← hzi] at hw
  rw [← hzr]
  rw [← hzi, ← hdl]
  obtain ⟨q, hq⟩ : ∃ q, q = zi / d.big := ⟨_, rfl⟩
  obtain ⟨r, hr⟩ : ∃ r, r = zi % d.big := ⟨_, rfl⟩
  have hbp : 0 < d.big := by omega
  have hqr : zi = q * d.big + r := by rw [hq, hr, Nat.mul_comm]; exact (Nat.div_add_mod zi d.big).symm
  have hrb : r < d.big := by rw [hr]; exact Nat.mod_lt _ hbp
  have hzS : z = q * d.big * B + r * B + zr := by rw [hzB, hqr]; ring
  have hdlsm : d.small ≤ dl := by
    have : d.small * B < (dl + 1) * B := by rw [Nat.add_mul, Nat.one_mul]; omega
    have := Nat.lt_of_mul_lt_mul_right this
    omega
  have hdlbig : dl < d.big := by
    have : dl * B < d.big * B := by omega
    exact Nat.lt_of_mul_lt_mul_right this
  have key := fun q r a b c => dbRound_all d A B C L z zi zr dl dr q r mid hB hbig h hh hh0 hb32 hzC hLC hzB hzrB
    hdB hdrB hw hlo a b c hmid
  -- multiples of `big`
  have hmul : ∀ t, t ≤ q ∨ z < t * d.big * B := by
    intro t
    rcases Nat.lt_or_ge q t with ht | ht
    · right
      have e1 : (q + 1) * d.big * B ≤ t * d.big * B := Nat.mul_le_mul_right _ (Nat.mul_le_mul_right _ ht)
      have e2 : (q + 1) * d.big * B = q * d.big * B + d.big * B := by ring
      have e3 : (r + 1) * B ≤ d.big * B := Nat.mul_le_mul_right _ hrb
      have e4 : (r + 1) * B = r * B + B := by ring
      omega
    · exact Or.inl ht
  have hmulle : ∀ t, t ≤ q → t * d.big * B ≤ q * d.big * B := fun t ht =>
    Nat.mul_le_mul_right _ (Nat.mul_le_mul_right _ ht)
  have hS2 : q * d.big % 2 = 0 := by
    have : q * d.big = 2 * (q * (10 * h)) := by rw [hbig, hh]; ring
    omega
  unfold dbTail
  simp only [← hq, ← hr]
  -- the result of `dbRound`
  have fin : ∀ q' r', zi = q' * d.big + r' → dl ≤ r' → r' ≤ d.big →
      (∀ t, ¬ (L ≤ t * d.big * B ∧ t * d.big * B ≤ z ∧
        (m % 2 = 1 → L < t * d.big * B ∧ t * d.big * B < z))) →
      ∃ Q up, dbRound d dl mid (decide (C / B % 2 = 1)) q' r' = some (Q, up) ∧
      (up = true ∨ (2 ∣ h ∨ ((h + 1) * B ≤ A ∨ ((2 * h + 1) * B ≤ 2 * A ∧ 0 < zr))) →
        L ≤ Q * (if up = true then d.big else d.small) * B ∧ Q * (if up = true then d.big else d.small) * B ≤ z ∧
        (m % 2 = 1 → L < Q * (if up = true then d.big else d.small) * B ∧
          Q * (if up = true then d.big else d.small) * B < z)) ∧
      (up = false → ∀ t, ¬ (L ≤ t * d.big * B ∧ t * d.big * B ≤ z ∧
        (m % 2 = 1 → L < t * d.big * B ∧ t * d.big * B < z))) ∧
      (up = false → 2 ∣ h → Q * d.small * B ≤ C + h * B ∧ C ≤ Q * d.small * B + h * B) ∧
      (up = false → Q * d.small * B ≤ C + (h + 1) * B ∧ C ≤ Q * d.small * B + (h + 1) * B) := by
    intro q' r' a b c hno
    obtain ⟨Q, h1, h2, h3⟩ := key q' r' a b c
    refine ⟨Q, false, h1, ?_, fun _ => hno, fun _ h2h => (h2 (Or.inl h2h)).2.2 h2h, fun _ => h3⟩
    simp only [Bool.false_eq_true, if_false, false_or]
    intro hpar
    obtain ⟨g2, g3, -⟩ := h2 hpar
    exact ⟨by omega, by omega, fun _ => ⟨g2, g3⟩⟩
  clear key
  generalize dbRound d dl mid (decide (C / B % 2 = 1)) = R at fin ⊢
  by_cases hc1 : r < dl
  · rw [if_pos hc1]
    have e1 : (r + 1) * B ≤ dl * B := Nat.mul_le_mul_right _ hc1
    have e2 : (r + 1) * B = r * B + B := by ring
    by_cases hkeep : r ≠ 0 ∨ m % 2 = 0 ∨ ¬ B ∣ z
    · have hk : (if r ≠ 0 then some true else if decide (m % 2 = 0) = true then some true
          else (endR ()).map (!·)) = some true := by
        by_cases h0 : r ≠ 0
        · rw [if_pos h0]
        · rw [if_neg h0]
          by_cases h1 : m % 2 = 0
          · simp [h1]
          · have : ¬ B ∣ z := by tauto
            simp [h1, hendR, this]
      rw [hk]
      simp only [Option.bind_some, if_true]
      refine ⟨q, true, rfl, fun _ => ?_, by simp, by simp, by simp⟩
      simp only [if_true]
      refine ⟨by omega, by omega, fun hodd => ⟨by omega, ?_⟩⟩
      rcases hkeep with h0 | h0 | h0
      · have : 1 * B ≤ r * B := Nat.mul_le_mul_right _ (by omega)
        omega
      · omega
      · have : zr ≠ 0 := by
          rw [hzr]; intro h1; exact h0 (Nat.dvd_of_mod_eq_zero h1)
        omega
    · push Not at hkeep
      obtain ⟨h0, h1, h2⟩ := hkeep
      have hk : (if r ≠ 0 then some true else if decide (m % 2 = 0) = true then some true
          else (endR ()).map (!·)) = some false := by
        simp [h0, h1, hendR, h2]
      rw [hk, Option.bind_some, if_neg Bool.false_ne_true]
      have hq1 : 1 ≤ q := by
        rcases Nat.eq_zero_or_pos q with h3 | h3
        · exfalso
          have z1 : z = zr := by rw [hzS, h3, h0]; simp
          have z2 : 1 * B ≤ dl * B := Nat.mul_le_mul_right _ (by omega)
          clear hzS hqr hzB hmul hmulle fin
          omega
        · exact h3
      have hqw : q < 2 ^ d.w := by
        have : q * 1 ≤ q * d.big := Nat.mul_le_mul_left _ hbp
        omega
      have hdec : (q + 2 ^ d.w - 1) % 2 ^ d.w = q - 1 := by
        rw [show q + 2 ^ d.w - 1 = q - 1 + 2 ^ d.w by omega, Nat.add_mod_right]
        exact Nat.mod_eq_of_lt (by omega)
      rw [hdec]
      have e3 : (q - 1) * d.big + d.big = q * d.big := by
        obtain ⟨k, rfl⟩ : ∃ k, q = k + 1 := ⟨q - 1, by omega⟩
        rw [Nat.add_sub_cancel]; ring
      have hzr0 : zr = 0 := by rw [hzr]; exact Nat.mod_eq_zero_of_dvd h2
      have e4 : (q - 1) * d.big * B + d.big * B = q * d.big * B := by rw [← Nat.add_mul, e3]
      have a1 : zi = (q - 1) * d.big + d.big := by omega
      have a2 : dl ≤ d.big := by omega
      have a3 := fin (q - 1) d.big a1 a2 (le_refl _)
      apply a3
      clear a3
      rintro t ⟨t1, t2, t3⟩
      obtain ⟨t4, t5⟩ := t3 (by omega)
      rw [h0] at hzS
      rcases hmul t with ht | ht
      · rcases Nat.lt_or_ge t q with ht' | ht'
        · have : t * d.big * B ≤ (q - 1) * d.big * B := Nat.mul_le_mul_right _ (Nat.mul_le_mul_right _ (by omega))
          omega
        · have : t = q := by omega
          subst this; omega
      · omega
  · rw [if_neg hc1]
    have hqz : q * d.big * B ≤ z := by omega
    by_cases hc2 : r = dl
    · rw [if_pos hc2]
      have hzS' : z = q * d.big * B + dl * B + zr := by rw [hzS, hc2]
      have hLS : L + dr = q * d.big * B + zr := by omega
      -- the parity of the integer part of the left end
      have hparL : L / B % 2 = 1 ↔ zr < dr := by
        by_cases hlt : zr < dr
        · have hS1 : 1 ≤ q * d.big := by
            rcases Nat.eq_zero_or_pos (q * d.big) with h3 | h3
            · rw [h3] at hLS; omega
            · exact h3
          have e3 : (q * d.big - 1) * B + B = q * d.big * B := by
            obtain ⟨k, hk⟩ : ∃ k, q * d.big = k + 1 := ⟨q * d.big - 1, by omega⟩
            rw [hk, Nat.add_sub_cancel]; ring
          have : L / B = q * d.big - 1 := by
            apply le_antisymm
            · rw [← Nat.lt_succ_iff, Nat.div_lt_iff_lt_mul hB, Nat.succ_mul]; omega
            · rw [Nat.le_div_iff_mul_le hB]; omega
          rw [this]; omega
        · have : L / B = q * d.big := by
            apply le_antisymm
            · rw [← Nat.lt_succ_iff, Nat.div_lt_iff_lt_mul hB, Nat.succ_mul]; omega
            · rw [Nat.le_div_iff_mul_le hB]; omega
          rw [this]; omega
      have hdvd : B ∣ L → zr = dr ∨ zr < dr := by
        intro hd
        by_contra hne
        have h1 : ¬ zr < dr := fun h => hne (Or.inr h)
        have h2 : zr ≠ dr := fun h => hne (Or.inl h)
        obtain ⟨x, hx⟩ : B ∣ zr - dr := by
          have : zr - dr = L - q * d.big * B := by omega
          rw [this]
          exact Nat.dvd_sub hd (Dvd.intro_left _ rfl)
        rcases Nat.eq_zero_or_pos x with h3 | h3
        · subst h3; omega
        · have : B * 1 ≤ B * x := Nat.mul_le_mul_left _ h3
          omega
      have hB1 : 1 * B ≤ dl * B := Nat.mul_le_mul_right _ (by omega)
      by_cases hok : (m % 2 = 0 ∧ B ∣ L) ∨ zr < dr
      · have hk : ((if decide (m % 2 = 0) = true then endL () else some false).bind fun a =>
            if (a || decide (L / B % 2 = 1)) = true then some (q, true)
            else R q r) = some (q, true) := by
          by_cases h1 : m % 2 = 0
          · simp only [h1, decide_true, if_true, hendL, Option.bind_some]
            rw [if_pos]
            rcases hok with h2 | h2
            · simp [h2.2]
            · simp [hparL.mpr h2]
          · have : zr < dr := by tauto
            simp [h1, hparL.mpr this]
        rw [hk]
        refine ⟨q, true, rfl, fun _ => ?_, by simp, by simp, by simp⟩
        simp only [if_true]
        have : zr ≤ dr := by
          rcases hok with h1 | h1
          · rcases hdvd h1.2 with h2 | h2 <;> omega
          · omega
        refine ⟨by omega, by omega, fun hodd => ⟨?_, by omega⟩⟩
        rcases hok with h1 | h1 <;> omega
      · have hk : ((if decide (m % 2 = 0) = true then endL () else some false).bind fun a =>
            if (a || decide (L / B % 2 = 1)) = true then some (q, true)
            else R q r) = R q r := by
          have h3 : ¬ L / B % 2 = 1 := fun h => hok (Or.inr (hparL.mp h))
          have h4 : decide (L / B % 2 = 1) = false := decide_eq_false h3
          rw [h4]
          by_cases h1 : m % 2 = 0
          · have h5 : ¬ B ∣ L := fun h => hok (Or.inl ⟨h1, h⟩)
            rw [if_pos (decide_eq_true h1), hendL, Option.bind_some, decide_eq_false h5,
              if_neg (by exact Bool.false_ne_true)]
          · rw [if_neg (by rw [decide_eq_false h1]; exact Bool.false_ne_true), Option.bind_some,
              if_neg (by exact Bool.false_ne_true)]
        rw [hk]
        have ho1 : m % 2 = 0 → ¬ B ∣ L := fun h1 h2 => hok (Or.inl ⟨h1, h2⟩)
        have ho2 : dr ≤ zr := Nat.le_of_not_lt fun h1 => hok (Or.inr h1)
        refine fin q r hqr (Nat.le_of_eq hc2.symm) (Nat.le_of_lt hrb) ?_
        rintro t ⟨t1, t2, t3⟩
        rcases hmul t with ht | ht
        · have := hmulle t ht
          have hLe : L = q * d.big * B := by omega
          by_cases h1 : m % 2 = 0
          · exact ho1 h1 ⟨q * d.big, by rw [hLe]; exact Nat.mul_comm _ _⟩
          · have := t3 (by omega)
            omega
        · omega
    · rw [if_neg hc2]
      refine fin q r hqr (by omega) (by omega) ?_
      rintro t ⟨t1, t2, t3⟩
      have e1 : (dl + 1) * B ≤ r * B := Nat.mul_le_mul_right _ (by omega)
      have e2 : (dl + 1) * B = dl * B + B := by ring
      rcases hmul t with ht | ht
      · have := hmulle t ht
        omega
      · omega

end Verif.Float
