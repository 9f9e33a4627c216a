import Verif.Hash.CrcSpec
import Verif.Hash.CrcModel
namespace Verif.Hash.Crc
open Polynomial Verif

/-- One step of the bitwise register. -/
def stepBit (poly r : BitVec 32) : BitVec 32 := if r.getLsbD 0 then (r >>> 1) ^^^ poly else r >>> 1

def stepN (poly : BitVec 32) : Nat → BitVec 32 → BitVec 32
  | 0, r => r
  | n + 1, r => stepN poly n (stepBit poly r)

theorem stepBit_xor (poly a b : BitVec 32) : stepBit poly (a ^^^ b) = stepBit poly a ^^^ stepBit poly b := by
  unfold stepBit
  rw [BitVec.getLsbD_xor, BitVec.ushiftRight_xor_distrib]
  generalize a >>> 1 = u
  generalize b >>> 1 = v
  cases a.getLsbD 0 <;> cases b.getLsbD 0 <;> simp
  · rw [BitVec.xor_assoc]
  · rw [BitVec.xor_assoc, BitVec.xor_assoc, BitVec.xor_comm poly]
  · rw [BitVec.xor_assoc, ← BitVec.xor_assoc poly, BitVec.xor_comm poly, BitVec.xor_assoc, BitVec.xor_self]; simp

theorem stepN_xor (poly : BitVec 32) (n : Nat) : ∀ a b, stepN poly n (a ^^^ b) = stepN poly n a ^^^ stepN poly n b := by
  induction n with
  | zero => intro a b; rfl
  | succ n ih => intro a b; rw [stepN, stepBit_xor, ih]; rfl

theorem stepN_zeros (poly : BitVec 32) (n : Nat) : ∀ r : BitVec 32, (∀ j < n, r.getLsbD j = false) → stepN poly n r = r >>> n := by
  induction n with
  | zero => intro r _; simp [stepN]
  | succ n ih =>
    intro r h
    rw [stepN, stepBit, h 0 (by omega)]
    simp only [Bool.false_eq_true, if_false]
    rw [ih _ (fun j hj => by rw [BitVec.getLsbD_ushiftRight]; exact h _ (by omega)), ← BitVec.shiftRight_add, Nat.add_comm]

/-- The tables hold the effect of eight bit steps. -/
theorem table_ieee : ∀ i < 256, BitVec.ofNat 32 (crc32Tb.getD i 0) = stepN 0xedb88320#32 8 (BitVec.ofNat 32 i) := by decide +kernel
theorem table_castagnoli : ∀ i < 256, BitVec.ofNat 32 (crc32cTb.getD i 0) = stepN 0x82f63b78#32 8 (BitVec.ofNat 32 i) := by decide +kernel

theorem byte_step (poly : BitVec 32) (tb : List Nat)
    (ht : ∀ i < 256, BitVec.ofNat 32 (tb.getD i 0) = stepN poly 8 (BitVec.ofNat 32 i)) (b : Nat) (hb : b < 256) (r : BitVec 32) :
    BitVec.ofNat 32 (tb.getD ((BitVec.ofNat 32 b ^^^ r) &&& 0xff#32).toNat 0) ^^^ (r >>> 8) =
      stepN poly 8 (r ^^^ BitVec.ofNat 32 b) := by
  have hlt : ((BitVec.ofNat 32 b ^^^ r) &&& 0xff#32).toNat < 256 := by
    rw [BitVec.toNat_and]
    exact lt_of_le_of_lt Nat.and_le_right (by decide)
  rw [ht _ hlt, BitVec.ofNat_toNat, BitVec.setWidth_eq]
  have e : r ^^^ BitVec.ofNat 32 b = ((BitVec.ofNat 32 b ^^^ r) &&& 0xff#32) ^^^ (r &&& 0xffffff00#32) := by
    apply BitVec.eq_of_getLsbD_eq
    intro i hi
    have h1 : (0xff#32).getLsbD i = decide (i < 8) := by
      revert i; decide
    have h2 : (0xffffff00#32).getLsbD i = decide (8 ≤ i) := by
      revert i; decide
    rw [BitVec.getLsbD_xor, BitVec.getLsbD_xor, BitVec.getLsbD_and, BitVec.getLsbD_and, BitVec.getLsbD_xor, h1, h2]
    by_cases h8 : i < 8
    · have : ¬ 8 ≤ i := by omega
      simp [h8, this, Bool.xor_comm]
    · have h3 : 8 ≤ i := by omega
      have : (BitVec.ofNat 32 b).getLsbD i = false := by
        rw [BitVec.getLsbD_ofNat]
        rw [Nat.testBit_lt_two_pow (lt_of_lt_of_le hb (by calc 256 = 2 ^ 8 := rfl
          _ ≤ 2 ^ i := Nat.pow_le_pow_right (by decide) h3))]
        simp
      rw [this]
      simp [h8, h3]
  rw [e, stepN_xor]
  congr 1
  rw [stepN_zeros poly 8 (r &&& 0xffffff00#32) (fun j hj => by
    rw [BitVec.getLsbD_and]
    have : (0xffffff00#32).getLsbD j = false := by revert j; decide
    rw [this]; simp)]
  apply BitVec.eq_of_getLsbD_eq
  intro i hi
  rw [BitVec.getLsbD_ushiftRight, BitVec.getLsbD_ushiftRight, BitVec.getLsbD_and]
  by_cases h : 8 + i < 32
  · have : (0xffffff00#32).getLsbD (8 + i) = true := by
      have : i < 24 := by omega
      clear h hi
      revert i; decide
    rw [this]; simp
  · rw [BitVec.getLsbD_of_ge _ _ (by omega)]; simp

/-! ## The polynomial of the register -/

theorem coeff_regPoly (r : BitVec 32) (k : Nat) :
    (regPoly r).coeff k = if k < 32 ∧ r.getLsbD (31 - k) then 1 else 0 := by
  unfold regPoly
  rw [finset_sum_coeff]
  have : ∀ j ∈ Finset.range 32, (if r.getLsbD j then (X : (ZMod 2)[X]) ^ (31 - j) else 0).coeff k =
      if j = 31 - k then (if k < 32 ∧ r.getLsbD (31 - k) then 1 else 0) else 0 := by
    intro j hj
    rw [Finset.mem_range] at hj
    by_cases h : j = 31 - k
    · rw [if_pos h]
      rw [← h]
      by_cases hk : k < 32
      · have : k = 31 - j := by omega
        cases r.getLsbD j
        · simp
        · simp [this, coeff_X_pow]; omega
      · have : ¬ k = 31 - j := by omega
        cases r.getLsbD j <;> simp [hk, this, coeff_X_pow]
    · rw [if_neg h]
      have : ¬ k = 31 - j := by omega
      by_cases hk : k < 32
      · cases r.getLsbD j <;> simp [this, coeff_X_pow]
      · cases r.getLsbD j <;> simp [this, coeff_X_pow]
  rw [Finset.sum_congr rfl this, Finset.sum_ite_eq']
  rw [if_pos (by rw [Finset.mem_range]; omega)]

theorem degree_regPoly (r : BitVec 32) : (regPoly r).degree < 32 := by
  rw [show (32 : WithBot ℕ) = ((32 : ℕ) : WithBot ℕ) from rfl, degree_lt_iff_coeff_zero]
  intro m hm
  rw [coeff_regPoly, if_neg]
  omega

theorem regPoly_xor (a b : BitVec 32) : regPoly (a ^^^ b) = regPoly a + regPoly b := by
  ext k
  rw [coeff_add, coeff_regPoly, coeff_regPoly, coeff_regPoly, BitVec.getLsbD_xor]
  have two : (1 : ZMod 2) + 1 = 0 := by decide
  by_cases hk : k < 32 <;> cases a.getLsbD (31 - k) <;> cases b.getLsbD (31 - k) <;> simp [hk, two]

theorem regPoly_shift (r : BitVec 32) : regPoly (r >>> 1) = regPoly r * X + if r.getLsbD 0 then X ^ 32 else 0 := by
  have two : (1 : ZMod 2) + 1 = 0 := by decide
  ext k
  rw [coeff_add, coeff_regPoly, BitVec.getLsbD_ushiftRight]
  have hX : (if r.getLsbD 0 then (X : (ZMod 2)[X]) ^ 32 else 0).coeff k = if k = 32 ∧ r.getLsbD 0 then 1 else 0 := by
    cases r.getLsbD 0
    · simp
    · simp [coeff_X_pow]
  rw [hX]
  clear hX
  cases k with
  | zero =>
    rw [coeff_mul_X_zero, BitVec.getLsbD_of_ge _ _ (by omega)]
    simp
  | succ k =>
    rw [coeff_mul_X, coeff_regPoly]
    by_cases hk : k + 1 < 32
    · rw [show 1 + (31 - (k + 1)) = 31 - k by omega]
      have hk' : k < 32 := by omega
      have hne : ¬ k + 1 = 32 := by omega
      simp only [hk, hk', hne, true_and, false_and, if_false, add_zero]
    · simp only [hk, false_and, if_false]
      by_cases h31 : k = 31
      · subst h31
        show 0 = (if 31 < 32 ∧ r.getLsbD 0 = true then 1 else 0) + if 31 + 1 = 32 ∧ r.getLsbD 0 = true then (1 : ZMod 2) else 0
        cases r.getLsbD 0
        · simp
        · simp only [and_true, if_true]; exact two.symm
      · rw [if_neg (by omega), if_neg (by omega), add_zero]

theorem regPoly_step (poly r : BitVec 32) :
    regPoly (stepBit poly r) = regPoly r * X + (if r.getLsbD 0 then generator poly else 0) := by
  unfold stepBit generator
  by_cases h : r.getLsbD 0
  · rw [if_pos h, if_pos h, regPoly_xor, regPoly_shift, if_pos h, add_assoc]
  · rw [if_neg h, if_neg h, regPoly_shift, if_neg h]

/-! ## Feeding bits -/

/-- Bits of the message are added at the low end of the register, one step each. -/
def feed (poly : BitVec 32) (r : BitVec 32) (b : Bool) : BitVec 32 := stepBit poly (r ^^^ if b then 1#32 else 0#32)

theorem regPoly_one : regPoly 1#32 = X ^ 31 := by
  ext k
  rw [coeff_regPoly, coeff_X_pow]
  by_cases hk : k < 32
  · by_cases h : k = 31
    · subst h; simp
    · have : (1#32).getLsbD (31 - k) = false := by
        have : 31 - k ≠ 0 := by omega
        rw [BitVec.getLsbD_one]
        simp
        omega
      simp [this, h]
  · have : k ≠ 31 := by omega
    simp [hk, this]

theorem regPoly_zero : regPoly 0#32 = 0 := by
  ext k
  rw [coeff_regPoly]; simp

theorem feed_mod (poly r : BitVec 32) (b : Bool) :
    generator poly ∣ regPoly (feed poly r b) - (regPoly r * X + if b then X ^ 32 else 0) := by
  unfold feed
  rw [regPoly_step, regPoly_xor]
  have e : regPoly (if b then 1#32 else 0#32) * X = if b then (X : (ZMod 2)[X]) ^ 32 else 0 := by
    cases b
    · simp [regPoly_zero]
    · simp only [if_true]; rw [regPoly_one]; ring
  rw [add_mul, e, add_sub_cancel_left]
  generalize (r ^^^ if b then 1#32 else 0#32).getLsbD 0 = z
  cases z
  · exact dvd_zero _
  · exact dvd_rfl

theorem bitsPoly_foldl (l : List Bool) (p : (ZMod 2)[X]) :
    l.foldl (fun p b => p * X + if b then 1 else 0) p = p * X ^ l.length + bitsPoly l := by
  unfold bitsPoly
  induction l generalizing p with
  | nil => simp
  | cons b l ih =>
    rw [List.foldl_cons, ih, List.foldl_cons, ih (0 * X + _), List.length_cons]
    ring

theorem bitsPoly_cons (b : Bool) (l : List Bool) :
    bitsPoly (b :: l) = (if b then X ^ l.length else 0) + bitsPoly l := by
  unfold bitsPoly
  rw [List.foldl_cons, bitsPoly_foldl, bitsPoly]
  cases b <;> simp

theorem feeds_mod (poly : BitVec 32) (l : List Bool) : ∀ r : BitVec 32,
    generator poly ∣ regPoly (l.foldl (feed poly) r) - (regPoly r * X ^ l.length + bitsPoly l * X ^ 32) := by
  induction l with
  | nil => intro r; simp [bitsPoly]
  | cons b l ih =>
    intro r
    rw [List.foldl_cons, bitsPoly_cons, List.length_cons]
    have h1 := ih (feed poly r b)
    have h2 := (feed_mod poly r b).mul_right (X ^ l.length)
    have := dvd_add h1 h2
    refine this.trans (dvd_of_eq ?_)
    cases b <;> simp <;> ring

theorem xor_bit_step (poly r : BitVec 32) (v : BitVec 32) :
    stepBit poly (r ^^^ v) = feed poly r (v.getLsbD 0) ^^^ (v >>> 1) := by
  unfold feed
  rw [stepBit_xor, stepBit_xor, BitVec.xor_assoc]
  congr 1
  unfold stepBit
  cases v.getLsbD 0 <;> simp [BitVec.xor_comm]

theorem byte_feed (poly r : BitVec 32) (b : Nat) (hb : b < 256) :
    stepN poly 8 (r ^^^ BitVec.ofNat 32 b) = (bitsOf b).foldl (feed poly) r := by
  have key : ∀ (n : Nat) (r v : BitVec 32), v.toNat < 2 ^ n →
      stepN poly n (r ^^^ v) = ((List.range n).map fun i => v.toNat.testBit i).foldl (feed poly) r := by
    intro n
    induction n with
    | zero =>
      intro r v hv
      have : v = 0#32 := BitVec.eq_of_toNat_eq (by simpa using hv)
      subst this; simp [stepN]
    | succ n ih =>
      intro r v hv
      have hv1 : (v >>> 1).toNat = v.toNat / 2 := by
        rw [BitVec.toNat_ushiftRight, Nat.shiftRight_eq_div_pow]
      rw [stepN, xor_bit_step, ih _ _ (by rw [hv1]; rw [pow_succ] at hv; omega), List.range_succ_eq_map, List.map_cons,
        List.foldl_cons, List.map_map]
      congr 1
      apply List.map_congr_left
      intro i _
      show (v >>> 1).toNat.testBit i = v.toNat.testBit (i + 1)
      rw [hv1, Nat.testBit_succ]
  have := key 8 r (BitVec.ofNat 32 b) (by rw [BitVec.toNat_ofNat]; exact lt_of_le_of_lt (Nat.mod_le _ _) hb)
  rw [this, BitVec.toNat_ofNat, Nat.mod_eq_of_lt (by omega)]
  rfl

theorem calculate_eq (poly : BitVec 32) (tb : List Nat)
    (ht : ∀ i < 256, BitVec.ofNat 32 (tb.getD i 0) = stepN poly 8 (BitVec.ofNat 32 i)) (data : List Nat)
    (hd : ∀ b ∈ data, b < 256) : ∀ r, calculate tb r data = (msgBits data).foldl (feed poly) r := by
  unfold calculate msgBits
  induction data with
  | nil => intro r; rfl
  | cons b data ih =>
    intro r
    rw [List.foldl_cons, byte_step poly tb ht b (hd b (by simp)) r, byte_feed poly r b (hd b (by simp)),
      ih (fun b' hb' => hd b' (by simp [hb'])), List.flatMap_cons, List.foldl_append]

theorem calculate_append (tb : List Nat) (r : BitVec 32) (a b : List Nat) :
    calculate tb r (a ++ b) = calculate tb (calculate tb r a) b := by
  simp [calculate, List.foldl_append]

theorem updates_flatten (tb : List Nat) (chunks : List (List Nat)) :
    updates tb chunks = calculate tb 0xffffffff#32 chunks.flatten := by
  unfold updates
  generalize 0xffffffff#32 = r
  induction chunks generalizing r with
  | nil => rfl
  | cons c cs ih => rw [List.foldl_cons, ih, List.flatten_cons, calculate_append]

theorem msgBits_length (m : List Nat) : (msgBits m).length = 8 * m.length := by
  induction m with
  | nil => rfl
  | cons b m ih => rw [msgBits, List.flatMap_cons, List.length_append, List.length_cons, ← msgBits, ih]; simp [bitsOf]; omega

theorem generator_monic (poly : BitVec 32) : (generator poly).Monic ∧ (generator poly).degree = 32 := by
  have h := degree_regPoly poly
  exact ⟨monic_X_pow_add (n := 32) (by exact_mod_cast h), by
    rw [generator, degree_add_eq_left_of_degree_lt] <;> rw [degree_X_pow]
    · rfl
    · exact h⟩

/-- The table-driven register is the remainder. -/
theorem isCrc (poly : BitVec 32) (tb : List Nat)
    (ht : ∀ i < 256, BitVec.ofNat 32 (tb.getD i 0) = stepN poly 8 (BitVec.ofNat 32 i)) (chunks : List (List Nat))
    (hd : ∀ c ∈ chunks, ∀ b ∈ c, b < 256) : IsCrc (generator poly) chunks.flatten (digestValue (updates tb chunks)) := by
  have hd' : ∀ b ∈ chunks.flatten, b < 256 := by
    intro b hb
    obtain ⟨c, hc, hbc⟩ := List.mem_flatten.mp hb
    exact hd c hc b hbc
  unfold IsCrc digestValue
  rw [BitVec.not_not, updates_flatten, calculate_eq poly tb ht _ hd']
  obtain ⟨q, hq⟩ := feeds_mod poly (msgBits chunks.flatten) 0xffffffff#32
  rw [msgBits_length] at hq
  obtain ⟨hm, hdeg⟩ := generator_monic poly
  refine ((div_modByMonic_unique (-q) _ hm ⟨?_, ?_⟩).2).symm
  · rw [mul_neg]
    rw [← hq]; ring
  · rw [hdeg]; exact degree_regPoly _

theorem generator_ieee : generator 0xedb88320#32 = ieee := by
  ext k
  unfold generator ieee
  rw [coeff_add, coeff_regPoly]
  simp only [coeff_add, coeff_X_pow, coeff_one, coeff_X]
  by_cases hk : k < 33
  · revert k; decide
  · simp only [show ¬ k < 32 by omega, false_and, if_false]
    repeat rw [if_neg (by omega)]
    simp

theorem generator_castagnoli : generator 0x82f63b78#32 = castagnoli := by
  ext k
  unfold generator castagnoli
  rw [coeff_add, coeff_regPoly]
  simp only [coeff_add, coeff_X_pow, coeff_one]
  by_cases hk : k < 33
  · revert k; decide
  · simp only [show ¬ k < 32 by omega, false_and, if_false]
    repeat rw [if_neg (by omega)]
    simp

end Verif.Hash.Crc
