import Verif.Arith.Model
import Mathlib.Tactic.Ring
import Mathlib.Tactic.Linarith
namespace Verif.Arith

theorem pow_pos' (w : Nat) : 0 < 2 ^ w := Nat.pow_pos (by decide)

/-- Two-word additions: what any of the four functions computes. -/
theorem mod_add_one {M a b c : Nat} (ha : a < M) (hb : b < M) (hc : c ≤ 1) :
    (a + b + c < M → (a + b + c) % M = a + b + c) ∧ (M ≤ a + b + c → (a + b + c) % M = a + b + c - M) := by
  constructor
  · exact Nat.mod_eq_of_lt
  · intro h
    rw [Nat.mod_eq_sub_mod h, Nat.mod_eq_of_lt (by omega)]

theorem bool_le (c : Bool) : c.toNat ≤ 1 := by cases c <;> simp

theorem addcBuiltin_eq (w a b : Nat) (cin : Bool) (ha : a < 2 ^ w) (hb : b < 2 ^ w) :
    addcBuiltin w a b cin = ((a + b + cin.toNat) % 2 ^ w, decide (2 ^ w ≤ a + b + cin.toNat)) := by
  have hc := bool_le cin
  unfold addcBuiltin
  generalize cin.toNat = c at *
  generalize 2 ^ w = M at *
  simp only
  rw [Nat.mod_add_mod]
  congr 1
  by_cases h : M ≤ a + b
  · rw [Nat.mod_eq_sub_mod h, Nat.mod_eq_of_lt (by omega)]
    simp only [h, decide_true, Bool.true_or]
    symm; rw [decide_eq_true_iff]; omega
  · rw [Nat.mod_eq_of_lt (by omega : a + b < M)]
    simp [h]

theorem addcPlain_eq (w a b : Nat) (cin : Bool) (ha : a < 2 ^ w) (hb : b < 2 ^ w) (hw : 0 < w) :
    addcPlain w a b cin = ((a + b + cin.toNat) % 2 ^ w, decide (2 ^ w ≤ a + b + cin.toNat)) := by
  have hc := bool_le cin
  have h2 : 2 ≤ 2 ^ w := by calc 2 = 2 ^ 1 := rfl
                              _ ≤ 2 ^ w := Nat.pow_le_pow_right (by decide) hw
  unfold addcPlain
  generalize cin.toNat = c at *
  generalize 2 ^ w = M at *
  simp only
  rw [Nat.mod_add_mod]
  congr 1
  by_cases h : M ≤ a + b
  · rw [Nat.mod_eq_sub_mod h, Nat.mod_eq_of_lt (by omega)]
    have e1 : a + b - M < b := by omega
    have e2 : M ≤ a + b + c := by omega
    simp [e1, e2]
  · rw [Nat.mod_eq_of_lt (by omega : a + b < M)]
    have e1 : ¬ a + b < b := by omega
    simp only [e1, decide_false, Bool.false_or]
    by_cases h3 : M ≤ a + b + c
    · rw [Nat.mod_eq_sub_mod h3, Nat.mod_eq_of_lt (by omega)]
      have : a + b + c - M < c := by omega
      simp [this, h3]
    · rw [Nat.mod_eq_of_lt (by omega : a + b + c < M)]
      have : ¬ a + b + c < c := by omega
      simp [this, h3]

theorem subcBuiltin_eq (w a b : Nat) (cin : Bool) (ha : a < 2 ^ w) (hb : b < 2 ^ w) :
    subcBuiltin w a b cin = ((a + 2 * 2 ^ w - b - cin.toNat) % 2 ^ w, decide (a < b + cin.toNat)) := by
  have hc := bool_le cin
  unfold subcBuiltin
  generalize cin.toNat = c at *
  generalize 2 ^ w = M at *
  simp only
  by_cases h : a < b
  · rw [Nat.mod_eq_of_lt (by omega : a + M - b < M)]
    congr 1
    · congr 1; omega
    · have : a < b + c := by omega
      simp [h, this]
  · rw [Nat.mod_eq_sub_mod (by omega : M ≤ a + M - b), Nat.mod_eq_of_lt (by omega : a + M - b - M < M)]
    congr 1
    · have e : a + 2 * M - b - c = (a + M - b - M + M - c) + M := by omega
      rw [e, Nat.add_mod_right]
    · simp only [h, decide_false, Bool.false_or]
      apply decide_eq_decide.mpr; omega

theorem subcPlain_eq (w a b : Nat) (cin : Bool) (ha : a < 2 ^ w) (hb : b < 2 ^ w) (hw : 0 < w) :
    subcPlain w a b cin = ((a + 2 * 2 ^ w - b - cin.toNat) % 2 ^ w, decide (a < b + cin.toNat)) := by
  have hc := bool_le cin
  have hM : 2 ≤ 2 ^ w := by calc 2 = 2 ^ 1 := rfl
                              _ ≤ 2 ^ w := Nat.pow_le_pow_right (by decide) hw
  unfold subcPlain
  generalize cin.toNat = c at *
  generalize 2 ^ w = M at *
  simp only
  by_cases h : a < b
  · rw [Nat.mod_eq_of_lt (by omega : a + M - b < M)]
    congr 1
    · congr 1; omega
    · have h1 : a < b + c := by omega
      have h2 : a < a + M - b := by omega
      simp [h1, h2]
  · rw [Nat.mod_eq_sub_mod (by omega : M ≤ a + M - b), Nat.mod_eq_of_lt (by omega : a + M - b - M < M)]
    have e : a + 2 * M - b - c = (a + M - b - M + M - c) + M := by omega
    rw [e, Nat.add_mod_right]
    congr 1
    have h2 : ¬ a < a + M - b - M := by omega
    simp only [h2, decide_false, Bool.false_or]
    by_cases h3 : a < b + c
    · rw [Nat.mod_eq_of_lt (by omega : a + M - b - M + M - c < M)]
      have : a + M - b - M < a + M - b - M + M - c := by omega
      simp [h3, this]
    · rw [Nat.mod_eq_sub_mod (by omega : M ≤ a + M - b - M + M - c), Nat.mod_eq_of_lt (by omega : a + M - b - M + M - c - M < M)]
      have : ¬ a + M - b - M < a + M - b - M + M - c - M := by omega
      simp [h3, this]

theorem addCarry_eq (w a b : Nat) (cin : Bool) (ha : a < 2 ^ w) (hb : b < 2 ^ w) (hw : 0 < w) :
    addCarry w cin a b = (decide (2 ^ w ≤ a + b + cin.toNat), (a + b + cin.toNat) % 2 ^ w) := by
  have hc := bool_le cin
  have hM : 2 ≤ 2 ^ w := by calc 2 = 2 ^ 1 := rfl
                              _ ≤ 2 ^ w := Nat.pow_le_pow_right (by decide) hw
  unfold addCarry
  generalize cin.toNat = c at *
  generalize 2 ^ w = M at *
  simp only
  rw [Nat.mod_add_mod, show c + a + b = a + b + c by omega]
  congr 1
  by_cases h1 : c + a < M
  · rw [Nat.mod_eq_of_lt h1]
    have : ¬ c + a < a := by omega
    simp only [this, decide_false, Bool.or_false]
    by_cases h2 : M ≤ a + b + c
    · rw [Nat.mod_eq_sub_mod h2, Nat.mod_eq_of_lt (by omega : a + b + c - M < M)]
      have : a + b + c - M < b := by omega
      simp [h2, this]
    · rw [Nat.mod_eq_of_lt (by omega : a + b + c < M)]
      have : ¬ a + b + c < b := by omega
      simp [h2, this]
  · have h0 : c + a = M := by omega
    rw [h0, Nat.mod_self]
    have h2 : M ≤ a + b + c := by omega
    by_cases h3 : 0 < a
    · simp [h3, h2]
    · exfalso; omega

theorem subBorrow_eq (w a b : Nat) (cin : Bool) (ha : a < 2 ^ w) (hb : b < 2 ^ w) (hw : 0 < w) :
    subBorrow w cin a b = (decide (a < b + cin.toNat), (a + 2 * 2 ^ w - b - cin.toNat) % 2 ^ w) := by
  have hc := bool_le cin
  have hM : 2 ≤ 2 ^ w := by calc 2 = 2 ^ 1 := rfl
                              _ ≤ 2 ^ w := Nat.pow_le_pow_right (by decide) hw
  unfold subBorrow
  generalize cin.toNat = c at *
  generalize 2 ^ w = M at *
  simp only
  by_cases h1 : c ≤ a
  · rw [Nat.mod_eq_sub_mod (by omega : M ≤ a + M - c), Nat.mod_eq_of_lt (by omega : a + M - c - M < M)]
    have h4 : ¬ a < a + M - c - M := by omega
    simp only [h4, decide_false, Bool.or_false]
    by_cases h2 : a < b + c
    · have e : a + 2 * M - b - c = (a + M - c - M + M - b) + M := by omega
      rw [e, Nat.add_mod_right, Nat.mod_eq_of_lt (by omega : a + M - c - M + M - b < M)]
      congr 1
      apply decide_eq_decide.mpr; omega
    · rw [Nat.mod_eq_sub_mod (by omega : M ≤ a + M - c - M + M - b), Nat.mod_eq_of_lt (by omega : a + M - c - M + M - b - M < M)]
      rw [Nat.mod_eq_sub_mod (by omega : M ≤ a + 2 * M - b - c), Nat.mod_eq_sub_mod (by omega : M ≤ a + 2 * M - b - c - M),
        Nat.mod_eq_of_lt (by omega)]
      congr 1
      · apply decide_eq_decide.mpr; omega
      · omega
  · rw [Nat.mod_eq_of_lt (by omega : a + M - c < M)]
    have h4 : a < a + M - c := by omega
    simp only [h4, decide_true, Bool.or_true]
    have h5 : a < b + c := by omega
    simp only [h5, decide_true]
    congr 2
    omega

end Verif.Arith
