import Verif.Leb.Model
import Verif.IntPrint.Lemmas2
import Mathlib.Tactic.Ring
import Mathlib.Tactic.NormNum
import Mathlib.Tactic.Linarith
/-! Helper lemmas about LEB128. -/
namespace Verif.Leb
open Verif Verif.IntPrint

theorem low_bits : ∀ g < 128, (g + 128) &&& 0x7f = g ∧ (g + 128) &&& 0x80 ≠ 0 ∧ g &&& 0x7f = g ∧ g &&& 0x80 = 0 ∧
    (g ||| 0x80) = g + 128 ∧ ((g &&& 0x40 ≠ 0) ↔ 64 ≤ g) := by decide

theorem or_shift {tmp cnt g : Nat} (h : tmp < 2 ^ cnt) : tmp ||| (g * 2 ^ cnt) = tmp + g * 2 ^ cnt := by
  have := Nat.shiftLeft_add_eq_or_of_lt h g
  rw [Nat.shiftLeft_eq] at this
  rw [Nat.or_comm, ← this, Nat.add_comm]

theorem width_maxGroups {bits : Nat} (hw : Width bits) : bits < 7 * maxGroups bits ∧ 7 * (maxGroups bits - 1) < bits ∧
    7 * (maxGroups bits - 1) = bits - bits % 7 ∧ 2 ≤ maxGroups bits ∧ bits % 7 ≠ 0 := by
  rcases hw with h | h | h | h | h <;> subst h <;> simp [maxGroups]

theorem tooBig_early {cfg : Cfg} (hw : Width cfg.bits) {i byte : Nat} (h : i + 1 < maxGroups cfg.bits) :
    tooBig cfg (7 * i) byte = false := by
  have : ¬ (cfg.bits - 7 < 7 * i) := by have := (width_maxGroups hw); omega
  unfold tooBig
  simp only [decide_eq_false this, Bool.false_and, ite_self]

theorem tooBig_late {cfg : Cfg} (hw : Width cfg.bits) {i byte : Nat} (h : maxGroups cfg.bits ≤ i) :
    tooBig cfg (7 * i) byte = true := by
  have h1 : cfg.bits - 7 < 7 * i := by have := (width_maxGroups hw); omega
  have h2 : cfg.bits < 7 * i := by have := (width_maxGroups hw); omega
  unfold tooBig
  simp only [decide_eq_true h1, decide_eq_true h2, Bool.true_and, Bool.true_or, ite_self]

theorem two_pow_bits (bits : Nat) (hw : Width bits) : (2 : Nat) ^ bits = 2 * 2 ^ (bits - 1) := by
  rcases hw with h | h | h | h | h <;> subst h <;> norm_num

/-- One continued group in the middle. -/
theorem loop_step {cfg : Cfg} (hw : Width cfg.bits) (hcw : 8 ≤ cfg.cw) {i tmp g : Nat} (l : List Nat) (hg : g < 128)
    (hi : i + 1 < maxGroups cfg.bits) (ht : tmp < 2 ^ (7 * i)) :
    loop cfg (7 * i) tmp ((g + 128) :: l) = loop cfg (7 * (i + 1)) (tmp + g * 2 ^ (7 * i)) l ∧
      tmp + g * 2 ^ (7 * i) < 2 ^ (7 * (i + 1)) := by
  obtain ⟨b1, b2, _⟩ := low_bits g hg
  have hlt : g * 2 ^ (7 * i) + tmp < 2 ^ (7 * (i + 1)) := by
    have : 2 ^ (7 * (i + 1)) = 128 * 2 ^ (7 * i) := by rw [Nat.mul_add, Nat.pow_add]; norm_num; ring
    rw [this]
    have : g * 2 ^ (7 * i) ≤ 127 * 2 ^ (7 * i) := Nat.mul_le_mul_right _ (by omega)
    omega
  have hwm := width_maxGroups hw
  have hle : 2 ^ (7 * (i + 1)) ≤ 2 ^ cfg.bits := Nat.pow_le_pow_right (by omega) (by omega)
  refine ⟨?_, by omega⟩
  rw [loop]
  rw [if_neg (by omega)]
  simp only [b1, tooBig_early hw hi, Bool.false_eq_true, if_false]
  rw [if_neg (by omega), if_pos b2]
  rw [Nat.shiftLeft_eq, Nat.mod_eq_of_lt (by omega), or_shift ht]
  rfl

/-- The last group of all, when it is not at the top of the word. -/
theorem loop_last_early {cfg : Cfg} (hw : Width cfg.bits) {i tmp g : Nat} (l : List Nat) (hg : g < 128)
    (hi : i + 1 < maxGroups cfg.bits) (ht : tmp < 2 ^ (7 * i)) :
    ∃ s, loop cfg (7 * i) tmp (g :: l) = some s ∧ s.rest = l ∧ s.code = .ok ∧
      fromBits cfg s.tmp = tmp + 2 ^ (7 * i) * value cfg.signed [g] ∧
      InRange cfg.bits cfg.signed (tmp + 2 ^ (7 * i) * value cfg.signed [g]) := by
  obtain ⟨_, _, b1, b2, _, b3⟩ := low_bits g hg
  have hP : 2 ^ (7 * i + 7) = 128 * 2 ^ (7 * i) := by rw [Nat.pow_add]; norm_num; ring
  have hwm := width_maxGroups hw
  have hle : 2 ^ (7 * i + 7) ≤ 2 ^ (cfg.bits - 1) := Nat.pow_le_pow_right (by omega) (by omega)
  have hb := two_pow_bits _ hw
  have hgm : g * 2 ^ (7 * i) ≤ 127 * 2 ^ (7 * i) := Nat.mul_le_mul_right _ (by omega)
  refine ⟨⟨l, .ok, signExtend cfg (7 * i) g (tmp + g * 2 ^ (7 * i)), 7 * i⟩, ?_, rfl, rfl, ?_⟩
  · rw [loop]
    rw [if_neg (by omega)]
    simp only [b1, tooBig_early hw hi, Bool.false_eq_true, if_false]
    rw [if_neg (by omega), if_neg (by simp [b2])]
    rw [Nat.shiftLeft_eq, Nat.mod_eq_of_lt (by omega), or_shift ht]
  · have hPZ : (2 : Int) ^ (7 * i) = ((2 ^ (7 * i) : Nat) : Int) := by push_cast; rfl
    rw [hPZ]
    generalize hPP : 2 ^ (7 * i) = P at *
    cases hs : cfg.signed with
    | false =>
      have h1 : signExtend cfg (7 * i) g (tmp + g * P) = tmp + g * P := by
        unfold signExtend; rw [if_neg (by simp [hs])]
      simp only [h1, fromBits, hs, value, unsignedValue, Bool.false_eq_true, false_and, if_false, InRange]
      refine ⟨by push_cast; ring, by positivity, ?_⟩
      have : tmp + g * P < 2 ^ cfg.bits := by omega
      have : ((tmp + g * P : Nat) : Int) < ((2 ^ cfg.bits : Nat) : Int) := by exact_mod_cast this
      push_cast at this
      calc _ = (tmp : Int) + g * P := by ring
        _ < _ := this
    | true =>
      simp only [value, if_true, signedValue, InRange, fromBits, hs, true_and]
      by_cases h64 : g < 64
      · have h1 : signExtend cfg (7 * i) g (tmp + g * P) = tmp + g * P := by
          unfold signExtend; rw [if_neg]; rintro ⟨_, h, _⟩
          exact absurd (b3.mp h) (by omega)
        rw [h1, if_pos h64]
        have hg63 : g * P ≤ 63 * P := Nat.mul_le_mul_right _ (by omega)
        have hlt : tmp + g * P < 2 ^ (cfg.bits - 1) := by omega
        rw [if_neg (by omega)]
        have : ((tmp + g * P : Nat) : Int) < ((2 ^ (cfg.bits - 1) : Nat) : Int) := by exact_mod_cast hlt
        push_cast at this
        refine ⟨by push_cast; ring, ?_, ?_⟩
        · have : (0 : Int) ≤ 2 ^ (cfg.bits - 1) := by positivity
          have : (0 : Int) ≤ P * g := by positivity
          omega
        · calc _ = (tmp : Int) + g * P := by ring
            _ < _ := this
      · have hg64 : 64 * P ≤ g * P := Nat.mul_le_mul_right _ (by omega)
        have h1 : signExtend cfg (7 * i) g (tmp + g * P) = tmp + g * P + (2 ^ cfg.bits - 128 * P) := by
          unfold signExtend
          rw [if_pos ⟨hs, b3.mpr (by omega), by omega⟩]
          have h2 : ((2 ^ cfg.bits - 1) <<< (7 * i + 7)) % 2 ^ cfg.bits = (2 ^ (cfg.bits - (7 * i + 7)) - 1) * 2 ^ (7 * i + 7) := by
            rw [Nat.shiftLeft_eq]
            have hsp : 2 ^ cfg.bits = 2 ^ (cfg.bits - (7 * i + 7)) * 2 ^ (7 * i + 7) := by
              rw [← Nat.pow_add]; congr 1; omega
            conv_lhs => rw [hsp]
            rw [Nat.mul_mod_mul_right]
            congr 1
            generalize hA : 2 ^ (cfg.bits - (7 * i + 7)) = A
            have hA0 : 0 < A := by rw [← hA]; positivity
            have hB : 1 ≤ 2 ^ (7 * i + 7) := Nat.one_le_two_pow
            have : A * 2 ^ (7 * i + 7) - 1 = (A - 1) + A * (2 ^ (7 * i + 7) - 1) := by
              rw [Nat.mul_sub, Nat.mul_one]
              have : A ≤ A * 2 ^ (7 * i + 7) := Nat.le_mul_of_pos_right _ (by omega)
              omega
            rw [this, Nat.add_mul_mod_self_left, Nat.mod_eq_of_lt (by omega)]
          rw [h2, or_shift (by omega), Nat.sub_mul, Nat.one_mul, ← Nat.pow_add,
            show cfg.bits - (7 * i + 7) + (7 * i + 7) = cfg.bits by omega, hP]
        rw [h1, if_neg h64]
        rw [if_pos (by omega)]
        have hle' : 128 * P ≤ 2 ^ cfg.bits := by omega
        refine ⟨?_, ?_, ?_⟩
        · push_cast [hle']; ring
        · have : ((128 * P : Nat) : Int) ≤ ((2 ^ (cfg.bits - 1) : Nat) : Int) := by exact_mod_cast (by omega : 128 * P ≤ 2 ^ (cfg.bits - 1))
          push_cast at this
          have e : (64 * P : Int) ≤ g * P := by exact_mod_cast hg64
          have : (P : Int) * (g - 128) = g * P - 128 * P := by ring
          rw [this]
          have : (0 : Int) ≤ tmp := by positivity
          omega
        · have e : (g * P : Int) ≤ 127 * P := by exact_mod_cast hgm
          have : (P : Int) * (g - 128) = g * P - 128 * P := by ring
          rw [this]
          have : (0 : Int) < 2 ^ (cfg.bits - 1) := by positivity
          have : (tmp : Int) < P := by exact_mod_cast ht
          omega

/-- The last group, at the top of the word: exact overflow test. -/
theorem loop_last_top {cfg : Cfg} (hw : Width cfg.bits) {i tmp g : Nat} (l : List Nat) (hg : g < 128)
    (hi : i + 1 = maxGroups cfg.bits) (ht : tmp < 2 ^ (7 * i)) :
    ∃ s, loop cfg (7 * i) tmp (g :: l) = some s ∧ s.rest = l ∧
      (InRange cfg.bits cfg.signed (tmp + 2 ^ (7 * i) * value cfg.signed [g]) →
        s.code = .ok ∧ fromBits cfg s.tmp = tmp + 2 ^ (7 * i) * value cfg.signed [g]) ∧
      (¬ InRange cfg.bits cfg.signed (tmp + 2 ^ (7 * i) * value cfg.signed [g]) → s.code = .overflow) := by
  obtain ⟨_, _, b1, b2, _, b3⟩ := low_bits g hg
  have hwm := width_maxGroups hw
  have hi' : 7 * i = cfg.bits - cfg.bits % 7 := by omega
  have hse : ∀ x, signExtend cfg (7 * i) g x = x := by
    intro x; unfold signExtend; rw [if_neg]; rintro ⟨_, _, h⟩
    have : cfg.bits % 7 < 7 := Nat.mod_lt _ (by omega)
    omega
  rw [loop]
  rw [if_neg (by omega)]
  simp only [b1]
  by_cases hbig : tooBig cfg (7 * i) g = true
  · rw [if_pos hbig]
    refine ⟨_, rfl, rfl, ?_, fun _ => rfl⟩
    intro hr
    exfalso
    revert hbig hr
    unfold tooBig InRange value
    rw [hi'] at ht ⊢
    cases hs : cfg.signed <;> simp only [if_true, if_false, Bool.false_eq_true, signedValue, unsignedValue]
    all_goals
      rcases hw with h | h | h | h | h <;> rw [h] at ht ⊢ <;> norm_num [show 255 &&& 127 = 127 by decide, show 510 &&& 127 = 126 by decide, show 2040 &&& 127 = 120 by decide] at ht ⊢ <;> intros <;>
        (try split at *) <;> omega
  · rw [if_neg hbig, if_neg (by omega), if_neg (by simp [b2])]
    refine ⟨_, rfl, rfl, ?_, ?_⟩
    · intro hr
      refine ⟨rfl, ?_⟩
      simp only [hse]
      rw [Nat.shiftLeft_eq]
      have hm : g * 2 ^ (7 * i) % 2 ^ cfg.bits = (g % 2 ^ (cfg.bits % 7)) * 2 ^ (7 * i) := by
        have : 2 ^ cfg.bits = 2 ^ (cfg.bits % 7) * 2 ^ (7 * i) := by rw [← Nat.pow_add]; congr 1; omega
        rw [this, Nat.mul_mod_mul_right]
      rw [hm, or_shift ht]
      revert hr
      unfold fromBits InRange value
      rw [hi'] at ht ⊢
      cases hs : cfg.signed <;> simp only [if_true, if_false, Bool.false_eq_true, signedValue, unsignedValue, false_and, true_and]
      all_goals
        rcases hw with h | h | h | h | h <;> rw [h] at ht ⊢ <;> norm_num [show 255 &&& 127 = 127 by decide, show 510 &&& 127 = 126 by decide, show 2040 &&& 127 = 120 by decide] at ht ⊢ <;> intros <;>
          (try split at *) <;> (try split) <;> omega
    · intro hr
      exfalso
      revert hbig hr
      unfold tooBig InRange value
      rw [hi'] at ht ⊢
      cases hs : cfg.signed <;> simp only [if_true, if_false, Bool.false_eq_true, signedValue, unsignedValue]
      all_goals
        rcases hw with h | h | h | h | h <;> rw [h] at ht ⊢ <;> norm_num [show 255 &&& 127 = 127 by decide, show 510 &&& 127 = 126 by decide, show 2040 &&& 127 = 120 by decide] at ht ⊢ <;> intros <;>
          (try split at *) <;> omega

end Verif.Leb
