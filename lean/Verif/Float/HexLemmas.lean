import Verif.Float.Model
import Verif.Float.Spec
import Verif.IntPrint.Lemmas2
import Mathlib.Tactic.FieldSimp
import Mathlib.Tactic.Push
import Mathlib.Tactic.IntervalCases
/-! # Lemmas about the common parts of floating point printing and about the hexadecimal format -/
namespace Verif.Float
open Verif Verif.IntPrint

theorem ctz_spec (x : Nat) (hx : x ≠ 0) : ∃ y, y % 2 = 1 ∧ x = 2 ^ ctz x * y := by
  induction x using Nat.strongRecOn with
  | _ x ih =>
    rw [ctz]
    by_cases h : x % 2 = 1
    · exact ⟨x, h, by simp [h]⟩
    · have h' : ¬ (x = 0 ∨ x % 2 = 1) := by omega
      obtain ⟨y, hy, e⟩ := ih (x / 2) (by omega) (by omega)
      refine ⟨y, hy, ?_⟩
      rw [dif_neg h', pow_succ]
      generalize 2 ^ ctz (x / 2) = p at *
      have : x = 2 * (x / 2) := by omega
      rw [this, e]; ring_nf

theorem ctz_mul (a y : Nat) (hy : y % 2 = 1) : ctz (2 ^ a * y) = a := by
  induction a with
  | zero => rw [ctz]; simp [hy]
  | succ a ih =>
    have hp : 0 < 2 ^ a * y := Nat.mul_pos (Nat.pow_pos (by omega)) (by omega)
    have e : 2 ^ (a + 1) * y = 2 * (2 ^ a * y) := by ring
    rw [ctz, e, dif_neg (by omega), Nat.mul_div_cancel_left _ (by omega), ih]

theorem countrZero_eq (w x : Nat) (hx : x ≠ 0) (hw : w = 128 → x < 2 ^ 128) : countrZero w x = ctz x := by
  unfold countrZero
  by_cases h : w = 128
  · have hlt := hw h
    rw [if_pos h]
    simp only
    by_cases hl : x % 2 ^ 64 = 0
    · rw [if_neg (by simpa using hl)]
      have hh : x / 2 ^ 64 % 2 ^ 64 = x / 2 ^ 64 := Nat.mod_eq_of_lt (by omega)
      rw [hh]
      obtain ⟨y, hy, e⟩ := ctz_spec (x / 2 ^ 64) (by omega)
      have e2 : x = 2 ^ (ctz (x / 2 ^ 64) + 64) * y := by
        rw [pow_add, Nat.mul_right_comm, ← e]; omega
      conv => rhs; rw [e2]
      rw [ctz_mul _ _ hy]
    · rw [if_pos (by simpa using hl)]
      obtain ⟨y, hy, e⟩ := ctz_spec (x % 2 ^ 64) hl
      generalize ctz (x % 2 ^ 64) = a at *
      have ha : a < 64 := by
        by_contra hc
        have h1 : 2 ^ 64 ≤ 2 ^ a := Nat.pow_le_pow_right (by omega) (by omega)
        have h2 : 2 ^ a * 1 ≤ 2 ^ a * y := Nat.mul_le_mul_left _ (by omega)
        omega
      have e3 : (2:Nat) ^ 64 = 2 ^ a * (2 * 2 ^ (63 - a)) := by
        rw [← pow_succ', ← pow_add]; congr 1; omega
      have e2 : x = 2 ^ a * (y + 2 * (2 ^ (63 - a) * (x / 2 ^ 64))) := by
        have : x = 2 ^ 64 * (x / 2 ^ 64) + x % 2 ^ 64 := (Nat.div_add_mod _ _).symm
        conv => lhs; rw [this, e]
        rw [e3]; ring
      conv => rhs; rw [e2]
      rw [ctz_mul _ _ (by omega)]
  · rw [if_neg h]

theorem hundredFlt_eq (m : Mem) (iter u : Nat) (hu : u < 100) :
    hundredFlt m iter u = some (store m iter ((padded 10 2 u).map (digitChar false)), iter + 2) := by
  unfold hundredFlt
  rw [copyPair_eq 10 false m iter u (by omega)]
  simp [padded]

theorem decText_padded (k u : Nat) (h1 : u < 10 ^ (k + 1)) (h2 : k = 0 ∨ 10 ^ k ≤ u) :
    decText u = (padded 10 (k + 1) u).map (digitChar false) := by
  rw [decText, numeral_eq_padded (by omega) k u h1 h2]

theorem gen10_eq (m : Mem) (iter u k : Nat) (h1 : u < 10 ^ (k + 1)) (h2 : k = 0 ∨ 10 ^ k ≤ u) :
    ((genMain 32 10 false m (iter + (k + 1)) u (k + 1)).map fun m => (m, iter + (k + 1))) =
      some (store m iter (decText u), iter + (decText u).length) := by
  simp only [genMain]
  rw [if_neg (by omega), genWord_eq 10 (by omega) false m iter u (k + 1) h1, decText_padded k u h1 h2]
  simp

theorem store_one_hundred (m : Mem) (iter u : Nat) (h1 : 100 ≤ u) (h2 : u < 1000) :
    hundredFlt (store m iter [48 + u / 100]) (iter + 1) (u % 100) =
      some (store m iter (decText u), iter + (decText u).length) := by
  rw [hundredFlt_eq _ _ _ (Nat.mod_lt _ (by omega)), store_store_at _ _ _ _ _ (by simp)]
  rw [decText_padded 2 u (by norm_num; omega) (by norm_num; omega)]
  have a1 : u % 100 / 10 % 10 = u / 10 % 10 := by omega
  have a2 : u / 10 / 10 % 10 = u / 100 := by omega
  have a3 : u / 100 < 10 := by omega
  simp [padded, a1, a2]
  simp [digitChar, a3]

/-- The exponent writer without indentation writes the decimal numeral. -/
theorem prtExponent_eq (mx : Nat) (h2 : 2 ≤ mx) (h5 : mx ≤ 5) (m : Mem) (iter u : Nat) (hu : u < 10 ^ mx) :
    prtExponent mx false m iter u = some (store m iter (decText u), iter + (decText u).length) := by
  have one : ∀ v, v < 10 → decText v = [48 + v] := fun v h => decText_small v h
  have two : ∀ v, 10 ≤ v → v < 100 → hundredFlt m iter v =
      some (store m iter (decText v), iter + (decText v).length) := by
    intro v hv1 hv2
    rw [hundredFlt_eq _ _ _ hv2, decText_padded 1 v (by norm_num; omega) (by norm_num; omega)]
    simp
  interval_cases mx
  · norm_num at hu
    simp only [prtExponent]
    by_cases h : 10 ≤ u
    · simp [h, two u h hu]
    · simp [h, one u (by omega)]
  · norm_num at hu
    simp only [prtExponent]
    by_cases h : 100 ≤ u
    · simp [h, store_one_hundred m iter u h hu]
    · by_cases h' : u < 10
      · simp [h, h', one u h']
      · simp [h, h', two u (by omega) (by omega)]
  · norm_num at hu
    simp only [prtExponent]
    by_cases h3 : 1000 ≤ u
    · simpa [h3] using gen10_eq m iter u 3 (by norm_num; omega) (by norm_num; omega)
    by_cases h2 : 100 ≤ u
    · simpa [h3, h2] using gen10_eq m iter u 2 (by norm_num; omega) (by norm_num; omega)
    by_cases h1 : 10 ≤ u
    · simpa [h3, h2, h1] using gen10_eq m iter u 1 (by norm_num; omega) (by norm_num; omega)
    · simpa [h3, h2, h1] using gen10_eq m iter u 0 (by norm_num; omega) (by norm_num)
  · norm_num at hu
    simp only [prtExponent]
    by_cases h4 : 10000 ≤ u
    · simpa [h4] using gen10_eq m iter u 4 (by norm_num; omega) (by norm_num; omega)
    by_cases h3 : 1000 ≤ u
    · simpa [h4, h3] using gen10_eq m iter u 3 (by norm_num; omega) (by norm_num; omega)
    by_cases h2 : 100 ≤ u
    · simpa [h4, h3, h2] using gen10_eq m iter u 2 (by norm_num; omega) (by norm_num; omega)
    by_cases h1 : 10 ≤ u
    · simpa [h4, h3, h2, h1] using gen10_eq m iter u 1 (by norm_num; omega) (by norm_num; omega)
    · simpa [h4, h3, h2, h1] using gen10_eq m iter u 0 (by norm_num; omega) (by norm_num)

theorem absBits_eq (e : Int) (h : -(2 ^ 31) < e ∧ e < 2 ^ 31) : absBits 32 e = e.natAbs := by
  unfold absBits
  simp only
  by_cases hn : e < 0
  · rw [if_pos hn]; omega
  · rw [if_neg hn]; omega

theorem hexExponent_eq (d : Nat) (h2 : 2 ≤ d) (h5 : d ≤ 5) (m : Mem) (iter : Nat) (e : Int)
    (he : e.natAbs < 10 ^ d) :
    hexExponent d m iter e =
      some (store m iter ((if e < 0 then 45 else 43) :: decText e.natAbs), iter + 1 + (decText e.natAbs).length) := by
  have : (10:Nat) ^ d ≤ 10 ^ 5 := Nat.pow_le_pow_right (by omega) h5
  norm_num at this
  unfold hexExponent
  simp only
  rw [absBits_eq e (by omega), prtExponent_eq d h2 h5 _ _ _ he, store_store_at _ _ _ _ _ (by simp)]
  rfl

theorem punned_eq (t : Trait) (bits : Nat) : punned t bits =
    (Spec.fracField t.mbits bits, Spec.expField t.mbits t.ebits bits, Spec.signBit t.mbits t.ebits bits) := by
  simp only [punned, Spec.fracField, Spec.expField, Spec.signBit, Nat.and_two_pow_sub_one_eq_mod,
    Nat.shiftRight_eq_div_pow, Nat.and_one_is_mod]

theorem fpSign_eq (showpos : Bool) (m : Mem) (iter : Nat) (sign : Bool) :
    fpSign showpos m iter sign =
      (store m iter (Spec.signText showpos sign), iter + (Spec.signText showpos sign).length) := by
  unfold fpSign Spec.signText
  cases showpos <;> cases sign <;> simp

theorem fpNan_eq (u : Bool) (m : Mem) (iter : Nat) (b : Bool) :
    fpNan u m iter b = (store m iter (Spec.specialText u b), iter + (Spec.specialText u b).length) := by
  unfold fpNan Spec.specialText lit
  cases u <;> cases b <;> simp

/-- What makes the hexadecimal printer work for a format. -/
structure HexGood (t : Trait) : Prop where
  div4 : (t.mbits + ((t.mbits / 4 + 1) * 4 - t.mbits) % 4) % 4 = 0
  fits : t.mbits + ((t.mbits / 4 + 1) * 4 - t.mbits) % 4 ≤ t.mw
  width : t.mw = 16 ∨ t.mw = 32 ∨ t.mw = 64 ∨ t.mw = 128
  ebits : 1 ≤ t.ebits
  dig2 : 2 ≤ t.e2hexdigits
  dig5 : t.e2hexdigits ≤ 5

theorem digits_trim (L M c : Nat) (hM : M < 16 ^ L) (y : Nat) (hy : y % 2 = 1) (e : M = 2 ^ c * y) :
    c / 4 < L ∧ M >>> (c / 4 * 4) < 16 ^ (L - c / 4) ∧ (M >>> (c / 4 * 4)) * 16 ^ (c / 4) = M ∧
      M >>> (c / 4 * 4) % 16 ≠ 0 := by
  have e16 : (2:Nat) ^ (c / 4 * 4) = 16 ^ (c / 4) := by rw [Nat.mul_comm, pow_mul]; norm_num
  have ec : (2:Nat) ^ c = 16 ^ (c / 4) * 2 ^ (c % 4) := by
    rw [← e16, ← pow_add]; congr 1; omega
  have hs : M >>> (c / 4 * 4) = 2 ^ (c % 4) * y := by
    rw [Nat.shiftRight_eq_div_pow, e16, e, ec, Nat.mul_assoc, Nat.mul_div_cancel_left _ (Nat.pow_pos (by omega))]
  have hlt : c / 4 < L := by
    by_contra hc
    have h1 : (16:Nat) ^ L ≤ 16 ^ (c / 4) := Nat.pow_le_pow_right (by omega) (by omega)
    have h2 : 16 ^ (c / 4) * 1 ≤ 16 ^ (c / 4) * (2 ^ (c % 4) * y) :=
      Nat.mul_le_mul_left _ (Nat.mul_pos (Nat.pow_pos (by omega)) (by omega))
    rw [e, ec, Nat.mul_assoc] at hM
    omega
  have heq : (M >>> (c / 4 * 4)) * 16 ^ (c / 4) = M := by rw [hs, e, ec]; ring
  refine ⟨hlt, ?_, heq, ?_⟩
  · have : (16:Nat) ^ L = 16 ^ (L - c / 4) * 16 ^ (c / 4) := by rw [← pow_add]; congr 1; omega
    rw [← heq, this] at hM
    exact lt_of_mul_lt_mul_right hM (Nat.zero_le _)
  · rw [hs]
    have : c % 4 < 4 := Nat.mod_lt _ (by omega)
    generalize c % 4 = r at *
    interval_cases r <;> omega

theorem padded_getLast (b k n : Nat) (hk : 0 < k) : (padded b k n).getLast? = some (n % b) := by
  cases k with
  | zero => omega
  | succ k => simp [padded]

end Verif.Float
