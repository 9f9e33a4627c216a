import Verif.Float.RtCore
import Mathlib.Data.Nat.Prime.Basic
/-! # From machine arithmetic to exact numbers -/
namespace Verif.Float

theorem testBit_div (x i : Nat) : x.testBit i = decide (x / 2 ^ i % 2 = 1) := Nat.testBit_eq_decide_div_mod_eq

theorem mulshift64_eq (x lo hi : Nat) (hx : x < 2 ^ 64) (hlo : lo < 2 ^ 64) (hhi : hi < 2 ^ 64) :
    mulshift64 x lo hi = x * (hi * 2 ^ 64 + lo) / 2 ^ 128 := by
  unfold mulshift64
  have e1 : x * (hi * 2 ^ 64 + lo) = x * hi * 2 ^ 64 + x * lo := by ring
  have h1 : x * hi ≤ (2 ^ 64 - 1) * (2 ^ 64 - 1) := Nat.mul_le_mul (by omega) (by omega)
  have h2 : x * lo ≤ (2 ^ 64 - 1) * (2 ^ 64 - 1) := Nat.mul_le_mul (by omega) (by omega)
  rw [e1]
  generalize x * hi = p at *
  generalize x * lo = q at *
  norm_num at *
  omega

theorem mulParity64_eq (x lo hi b : Nat) (hb1 : 1 ≤ b) (hb : b ≤ 63) :
    mulParity64 x lo hi b = decide (x * (hi * 2 ^ 64 + lo) / 2 ^ (128 - b) % 2 = 1) := by
  unfold mulParity64
  have e1 : x * (hi * 2 ^ 64 + lo) = x * lo + x * hi * 2 ^ 64 := by ring
  have e2 : x * (hi * 2 ^ 64 + lo) / 2 ^ (128 - b) = (x * hi + x * lo / 2 ^ 64) / 2 ^ (64 - b) := by
    rw [show 128 - b = 64 + (64 - b) by omega, pow_add, ← Nat.div_div_eq_div_mul, e1,
      Nat.add_mul_div_right _ _ (by norm_num), Nat.add_comm]
  rw [e2]
  simp only []
  have e3 : (x * hi % 2 ^ 64 + x * lo / 2 ^ 64) % 2 ^ 64 = (x * hi + x * lo / 2 ^ 64) % 2 ^ 64 := by
    rw [Nat.mod_add_mod]
  rw [e3, Nat.testBit_mod_two_pow, testBit_div]
  simp; omega

theorem mulParity32_eq (x p b : Nat) (hb1 : 1 ≤ b) : mulParity32 x p b = decide (x * p / 2 ^ (64 - b) % 2 = 1) := by
  unfold mulParity32
  rw [Nat.testBit_mod_two_pow, testBit_div]
  simp; omega

/-- The numbers `dragonbox_main` computes with, in terms of the table entry `φ`. -/
theorem shift_div (x φ b w : Nat) (hb : b ≤ w) : x * 2 ^ b * φ / 2 ^ w = x * φ / 2 ^ (w - b) := by
  have : 2 ^ w = 2 ^ (w - b) * 2 ^ b := by rw [← pow_add]; congr 1; omega
  rw [this, show x * 2 ^ b * φ = x * φ * 2 ^ b by ring, Nat.mul_div_mul_right _ _ (Nat.pow_pos (by norm_num))]

/-- Divisibility by a power of two with a factor that is a power of five. -/
theorem pow2_dvd (j k n : Nat) : 2 ^ j ∣ n * 5 ^ k ↔ 2 ^ j ∣ n := by
  constructor
  · intro h
    exact (Nat.Coprime.pow j k (by decide : Nat.Coprime 2 5)).dvd_of_dvd_mul_right h
  · intro h; exact Dvd.dvd.mul_right h _

theorem pow5_dvd (j k n : Nat) : 5 ^ j ∣ n * 2 ^ k ↔ 5 ^ j ∣ n := by
  constructor
  · intro h
    exact (Nat.Coprime.pow j k (by decide : Nat.Coprime 5 2)).dvd_of_dvd_mul_right h
  · intro h; exact Dvd.dvd.mul_right h _

/-- The two instantiations. -/
def IsDB (d : DB) : Prop := d = db64 ∨ d = db32

theorem multipleOfPow5_64 (n : Nat) (j : Int) (hj : 0 ≤ j) (hj2 : j < 24) (hn : n < 2 ^ 64) :
    multipleOfPow5 64 n j = some (decide (5 ^ j.toNat ∣ n)) := by
  have hlen : j.toNat < mod5Tb64.length := by rw [mod5Tb64_length]; omega
  have e : multipleOfPow5 64 n j =
      (mod5Tb64[j.toNat]?).map fun t => decide (n * t.1 % 2 ^ 64 ≤ t.2) := by
    unfold multipleOfPow5
    rw [if_neg (by omega)]; rfl
  obtain ⟨h1, h2⟩ := chkMod5_get 64 0 mod5Tb64 chkMod5_64 j.toNat _ (List.getElem?_eq_getElem hlen)
  rw [Nat.zero_add] at h1 h2
  rw [e, List.getElem?_eq_getElem hlen, Option.map_some, decide_eq_decide.mpr (pow5_test 64 j.toNat n _ _ h1 h2 hn)]

theorem multipleOfPow5_32 (n : Nat) (j : Int) (hj : 0 ≤ j) (hj2 : j < 11) (hn : n < 2 ^ 32) :
    multipleOfPow5 32 n j = some (decide (5 ^ j.toNat ∣ n)) := by
  have hlen : j.toNat < mod5Tb32.length := by rw [mod5Tb32_length]; omega
  have e : multipleOfPow5 32 n j =
      (mod5Tb32[j.toNat]?).map fun t => decide (n * t.1 % 2 ^ 32 ≤ t.2) := by
    unfold multipleOfPow5
    rw [if_neg (by omega)]; rfl
  obtain ⟨h1, h2⟩ := chkMod5_get 32 0 mod5Tb32 chkMod5_32 j.toNat _ (List.getElem?_eq_getElem hlen)
  rw [Nat.zero_add] at h1 h2
  rw [e, List.getElem?_eq_getElem hlen, Option.map_some, decide_eq_decide.mpr (pow5_test 32 j.toNat n _ _ h1 h2 hn)]

theorem multipleOfPow5_eq (d : DB) (hd : IsDB d) (n : Nat) (j : Int) (hj : 0 ≤ j)
    (hj2 : j < (if d.w = 64 then 24 else 11)) (hn : n < 2 ^ d.w) :
    multipleOfPow5 d.w n j = some (decide (5 ^ j.toNat ∣ n)) := by
  rcases hd with rfl | rfl
  · exact multipleOfPow5_64 n j hj hj2 hn
  · exact multipleOfPow5_32 n j hj hj2 hn

theorem multipleOfPow2_eq (w n : Nat) (j : Int) (hj : 0 ≤ j) (hn : n < 2 ^ w) (hn0 : 0 < n) :
    multipleOfPow2 w n j = some (decide (2 ^ j.toNat ∣ n)) := by
  unfold multipleOfPow2
  by_cases h : j < (w : Int)
  · rw [if_pos h, if_neg (by omega)]
    unfold multipleOfPow2U
    rw [Nat.and_two_pow_sub_one_eq_mod]
    simp only [Option.some.injEq]
    rw [Bool.eq_iff_iff]
    simp [Nat.dvd_iff_mod_eq_zero]
  · rw [if_neg h]
    have : ¬ 2 ^ j.toNat ∣ n := fun hd => by
      have h1 := Nat.le_of_dvd hn0 hd
      have h2 : 2 ^ w ≤ 2 ^ j.toNat := Nat.pow_le_pow_right (by norm_num) (by omega)
      omega
    simp [this]

/-- What `chk` says about the exponent tests. -/
structure ExpFacts (d : DB) (e2 : Int) : Prop where
  small : e2 ≤ d.hi1 → minusKOf d e2 ≤ 0 ∧ (d.endLo ≤ e2 ↔ 0 ≤ uOf d e2) ∧ (d.midLo ≤ e2 ↔ -1 ≤ uOf d e2)
  large : d.hi1 < e2 → 0 < minusKOf d e2 ∧ 0 ≤ uOf d e2 ∧ d.midLo ≤ e2 ∧ d.endLo ≤ e2 ∧
    (e2 ≤ d.hi2 → minusKOf d e2 < (if d.w = 64 then 24 else 11)) ∧
    (d.hi2 < e2 → 2 ^ (d.mbits + 2) < 5 ^ (minusKOf d e2).toNat)

theorem integralEnd_eq (d : DB) (hd : IsDB d) (e2 : Int) (hf : ExpFacts d e2) (n : Nat) (hodd : n % 2 = 1)
    (hn : n ≤ 2 ^ (d.mbits + 2)) :
    integralEnd d n e2 (minusKOf d e2) = some (decide (denB d e2 ∣ n * numA d e2)) := by
  have hnw : n < 2 ^ d.w := lt_of_le_of_lt hn (by rcases hd with rfl | rfl <;> norm_num [db64, db32])
  unfold integralEnd denB numA
  have hn0 : 0 < n := by omega
  by_cases h1 : e2 ≤ d.hi1
  · obtain ⟨a, b, c⟩ := hf.small h1
    rw [show (minusKOf d e2).toNat = 0 by omega, pow_zero, Nat.mul_one]
    by_cases h2 : e2 < d.endLo
    · rw [if_pos h2]
      have hu : uOf d e2 < 0 := by omega
      rw [show (uOf d e2).toNat = 0 by omega, pow_zero, Nat.one_mul]
      have : ¬ 2 ^ (-uOf d e2).toNat ∣ n * 5 ^ (-minusKOf d e2).toNat := by
        rw [pow2_dvd]
        intro h
        have : (2 : Nat) ∣ n := dvd_trans (dvd_pow_self 2 (by omega)) h
        omega
      rw [decide_eq_false this]
    · rw [if_neg h2, if_pos h1]
      have hu : 0 ≤ uOf d e2 := by omega
      rw [show (-uOf d e2).toNat = 0 by omega, pow_zero]
      simp
  · obtain ⟨a, b, c, e, f, g⟩ := hf.large (by omega)
    rw [if_neg (by omega), if_neg h1]
    rw [show (-uOf d e2).toNat = 0 by omega, show (-minusKOf d e2).toNat = 0 by omega, pow_zero, pow_zero,
      Nat.mul_one, Nat.one_mul]
    by_cases h2 : e2 ≤ d.hi2
    · rw [if_pos h2, multipleOfPow5_eq d hd n _ (by omega) (f h2) hnw]
      simp only [pow5_dvd]
    · rw [if_neg h2]
      have : ¬ 5 ^ (minusKOf d e2).toNat ∣ n * 2 ^ (uOf d e2).toNat := by
        rw [pow5_dvd]
        intro h
        have h1 := Nat.le_of_dvd hn0 h
        have := g (by omega)
        omega
      rw [decide_eq_false this]

theorem integralMid_eq (d : DB) (hd : IsDB d) (e2 : Int) (hf : ExpFacts d e2) (n : Nat) (hev : n % 2 = 0) (hn0 : 0 < n)
    (hn : n ≤ 2 ^ (d.mbits + 2)) :
    integralMid d n e2 (minusKOf d e2) = some (decide (denB d e2 ∣ n * numA d e2)) := by
  have hnw : n < 2 ^ d.w := lt_of_le_of_lt hn (by rcases hd with rfl | rfl <;> norm_num [db64, db32])
  unfold integralMid denB numA
  by_cases h1 : e2 ≤ d.hi1
  · obtain ⟨a, b, c⟩ := hf.small h1
    rw [show (minusKOf d e2).toNat = 0 by omega, pow_zero, Nat.mul_one]
    by_cases h2 : e2 < d.midLo
    · have hu : uOf d e2 < -1 := by omega
      rw [if_pos h2, show minusKOf d e2 - e2 + 1 = -uOf d e2 by unfold uOf; omega,
        multipleOfPow2_eq d.w n _ (by omega) hnw hn0]
      rw [show (uOf d e2).toNat = 0 by omega, pow_zero, Nat.one_mul]
      simp only [pow2_dvd]
    · rw [if_neg h2, if_pos h1]
      have hu : -1 ≤ uOf d e2 := by omega
      have : 2 ^ (-uOf d e2).toNat ∣ n := by
        rcases (show (-uOf d e2).toNat = 0 ∨ (-uOf d e2).toNat = 1 by omega) with h | h
        · rw [h]; simp
        · rw [h, pow_one]; omega
      rw [decide_eq_true (Dvd.dvd.mul_right this _)]
  · obtain ⟨a, b, c, e, f, g⟩ := hf.large (by omega)
    rw [if_neg (by omega), if_neg h1]
    rw [show (-uOf d e2).toNat = 0 by omega, show (-minusKOf d e2).toNat = 0 by omega, pow_zero, pow_zero,
      Nat.mul_one, Nat.one_mul]
    by_cases h2 : e2 ≤ d.hi2
    · rw [if_pos h2, multipleOfPow5_eq d hd n _ (by omega) (f h2) hnw]
      simp only [pow5_dvd]
    · rw [if_neg h2]
      have : ¬ 5 ^ (minusKOf d e2).toNat ∣ n * 2 ^ (uOf d e2).toNat := by
        rw [pow5_dvd]
        intro h
        have h1 := Nat.le_of_dvd hn0 h
        have := g (by omega)
        omega
      rw [decide_eq_false this]

/-- The facts about one exponent that `chk` establishes. -/
structure Facts (d : DB) (e2 : Int) (φ : Nat) : Prop where
  phi : phiOf d (-minusKOf d e2) = some φ
  beta1 : 1 ≤ betaOf d e2
  beta2 : betaOf d e2 ≤ (d.w : Int) - d.mbits - 3
  phiLt : φ < 2 ^ (2 * d.w)
  delta : φ / 2 ^ (2 * d.w - 1 - (betaOf d e2).toNat) = 2 * numA d e2 / denB d e2
  lo : e2 ≠ 0 → d.small * denB d e2 < 2 * numA d e2
  hi : 2 * numA d e2 < d.big * denB d e2
  floor : ∀ n, 0 < n → n ≤ 2 ^ (d.mbits + 2) →
    n * φ / 2 ^ (2 * d.w - (betaOf d e2).toNat) = n * numA d e2 / denB d e2
  exps : ExpFacts d e2

theorem numA_pos (d : DB) (e2 : Int) : 0 < numA d e2 :=
  Nat.mul_pos (Nat.pow_pos (by norm_num)) (Nat.pow_pos (by norm_num))

theorem denB_pos (d : DB) (e2 : Int) : 0 < denB d e2 :=
  Nat.mul_pos (Nat.pow_pos (by norm_num)) (Nat.pow_pos (by norm_num))

theorem facts_of_chk (d : DB) (e2 : Int) (c : Nat × Nat) (h : chk d e2 c = true) : ∃ φ, Facts d e2 φ := by
  have hB := denB_pos d e2
  have hA := numA_pos d e2
  unfold chk at h
  simp only [] at h
  cases hp : phiOf d (-minusKOf d e2) with
  | none => rw [hp] at h; simp at h
  | some φ =>
    rw [hp] at h
    simp only [Bool.and_eq_true, Bool.or_eq_true, decide_eq_true_eq] at h
    obtain ⟨⟨⟨⟨⟨⟨⟨⟨⟨⟨h1, h2⟩, h3⟩, h4⟩, h5⟩, h6⟩, h7⟩, h8⟩, h9⟩, h10⟩, h11⟩ := h
    have hb : 0 < c.1 := by
      rcases Nat.eq_zero_or_pos c.1 with h0 | h0
      · rw [h0] at h7; simp at h7
      · exact h0
    refine ⟨φ, ⟨hp, h1, h2, h3, h4, fun h => by tauto, h6, ?_, ⟨?_, ?_⟩⟩⟩
    · intro n hn0 hn
      exact floor_same c.1 c.2 (numA d e2) (denB d e2) φ _ n hB (Nat.pow_pos (by norm_num)) hb h7 h9 h10
        (by omega) hn0
    · intro he
      rw [if_pos he] at h11
      simp only [Bool.and_eq_true, decide_eq_true_eq, beq_iff_eq, decide_eq_decide] at h11
      exact ⟨h11.1.1, h11.1.2, h11.2⟩
    · intro he
      rw [if_neg (by omega)] at h11
      simp only [Bool.and_eq_true, decide_eq_true_eq] at h11
      obtain ⟨⟨⟨⟨a, b⟩, c⟩, e⟩, f⟩ := h11
      refine ⟨a, b, c, e, fun h => ?_, fun h => ?_⟩
      · rw [if_pos h, decide_eq_true_eq] at f; exact f
      · rw [if_neg (by omega), decide_eq_true_eq] at f; exact f

/-- The exponents of the finite numbers of each format. -/
def ExpRange (d : DB) (e2 : Int) : Prop :=
  if d.w = 64 then -1074 ≤ e2 ∧ e2 ≤ 971 else -149 ≤ e2 ∧ e2 ≤ 104

theorem facts_exist (d : DB) (hd : IsDB d) (e2 : Int) (h : ExpRange d e2) : ∃ φ, Facts d e2 φ := by
  rcases hd with rfl | rfl
  · obtain ⟨c, hc⟩ := chk64 e2 h.1 h.2
    exact facts_of_chk _ _ _ hc
  · obtain ⟨c, hc⟩ := chk32 e2 h.1 h.2
    exact facts_of_chk _ _ _ hc

/-- The low words of the table are words. -/
theorem pow10_lo_all : pow10Tb64.all (fun p => decide (p.2 < 2 ^ 64)) = true := by decide +kernel

theorem pow10_lo (i hi lo : Nat) (h : pow10Tb64[i]? = some (hi, lo)) : lo < 2 ^ 64 := by
  have := List.all_eq_true.mp pow10_lo_all (hi, lo) (List.mem_of_getElem? h)
  simpa using this

/-- The multiplications of `dragonbox_main`. -/
def mulStep (d : DB) (b twoFl twoFc twoFr : Nat) (plusK : Int) : Option (Nat × Nat × Bool × Bool) :=
  if d.w = 64 then
    if plusK + 292 < 0 then none
    else (pow10Tb64[(plusK + 292).toNat]?).map fun (hi, lo) =>
      (mulshift64 (twoFr <<< b % 2 ^ 64) lo hi, hi >>> (63 - b) % 2 ^ 32, mulParity64 twoFl lo hi b,
        mulParity64 twoFc lo hi b)
  else
    if plusK + 31 < 0 then none
    else (pow10Tb32[(plusK + 31).toNat]?).map fun p =>
      (mulshift32 (twoFr <<< b % 2 ^ 32) p, p >>> (63 - b) % 2 ^ 32, mulParity32 twoFl p b, mulParity32 twoFc p b)

theorem dragonRest_eq (d : DB) (m2 : Nat) (e2 : Int) (h : ¬ (betaOf d e2 < 1 ∨ 63 < betaOf d e2)) :
    dragonRest d m2 e2 =
      (mulStep d (betaOf d e2).toNat ((m2 * 2 % 2 ^ d.w + 2 ^ d.w - 1) % 2 ^ d.w) (m2 * 2 % 2 ^ d.w)
        ((m2 * 2 % 2 ^ d.w + 1) % 2 ^ d.w) (-minusKOf d e2)).bind fun (zi, delta, parL, parC) =>
      (dbTail d (decide (m2 % 2 = 0)) zi delta
        (fun _ => integralEnd d ((m2 * 2 % 2 ^ d.w + 1) % 2 ^ d.w) e2 (minusKOf d e2))
        (fun _ => integralEnd d ((m2 * 2 % 2 ^ d.w + 2 ^ d.w - 1) % 2 ^ d.w) e2 (minusKOf d e2))
        (fun _ => integralMid d (m2 * 2 % 2 ^ d.w) e2 (minusKOf d e2)) parL parC).bind fun (q, up) =>
      some (q, if up then minusKOf d e2 + d.kappa + 1 else minusKOf d e2 + d.kappa) := by
  unfold dragonRest
  have h' : ¬ (e2 + mulLn10DivLn2 (-(mulLn2DivLn10 e2 - d.kappa)) < 1 ∨
      63 < e2 + mulLn10DivLn2 (-(mulLn2DivLn10 e2 - d.kappa))) := h
  simp only [if_neg h']
  unfold mulStep
  by_cases h1 : d.w = 64
  · rw [if_pos h1, if_pos h1]
    by_cases h2 : -(mulLn2DivLn10 e2 - d.kappa) + 292 < 0
    · have h3 : -minusKOf d e2 + 292 < 0 := h2
      rw [if_pos h2, if_pos h3]; rfl
    · have h3 : ¬ -minusKOf d e2 + 292 < 0 := h2
      rw [if_neg h2, if_neg h3]; rfl
  · rw [if_neg h1, if_neg h1]
    by_cases h2 : -(mulLn2DivLn10 e2 - d.kappa) + 31 < 0
    · have h3 : -minusKOf d e2 + 31 < 0 := h2
      rw [if_pos h2, if_pos h3]; rfl
    · have h3 : ¬ -minusKOf d e2 + 31 < 0 := h2
      rw [if_neg h2, if_neg h3]; rfl

theorem mulStep_eq (d : DB) (hd : IsDB d) (e2 : Int) (φ : Nat) (hf : Facts d e2 φ) (l c r : Nat)
    (hr : r ≤ 2 ^ (d.mbits + 2)) :
    mulStep d (betaOf d e2).toNat l c r (-minusKOf d e2) =
      some (r * φ / 2 ^ (2 * d.w - (betaOf d e2).toNat), φ / 2 ^ (2 * d.w - 1 - (betaOf d e2).toNat) % 2 ^ 32,
        decide (l * φ / 2 ^ (2 * d.w - (betaOf d e2).toNat) % 2 = 1),
        decide (c * φ / 2 ^ (2 * d.w - (betaOf d e2).toNat) % 2 = 1)) := by
  have hp := hf.phi
  have b1 := hf.beta1
  have b2 := hf.beta2
  have hlt := hf.phiLt
  obtain ⟨b, hb⟩ : ∃ b, b = (betaOf d e2).toNat := ⟨_, rfl⟩
  rw [← hb]
  generalize -minusKOf d e2 = k at *
  unfold mulStep phiOf at *
  rcases hd with rfl | rfl
  · have b3 : b ≤ 9 := by
      change betaOf db64 e2 ≤ (64 : Int) - 52 - 3 at b2
      omega
    have hw : db64.w = 64 := rfl
    rw [hw] at hp hlt ⊢
    rw [if_pos rfl] at hp ⊢
    change r ≤ 2 ^ 54 at hr
    have hrb : r * 2 ^ b < 2 ^ 64 := by
      calc r * 2 ^ b ≤ 2 ^ 54 * 2 ^ 9 := Nat.mul_le_mul hr (Nat.pow_le_pow_right (by norm_num) b3)
        _ < 2 ^ 64 := by norm_num
    by_cases hk : k + 292 < 0
    · rw [if_pos hk] at hp; simp at hp
    · rw [if_neg hk] at hp ⊢
      cases hg : pow10Tb64[(k + 292).toNat]? with
      | none => rw [hg] at hp; simp at hp
      | some p =>
        obtain ⟨hi, lo⟩ := p
        rw [hg] at hp
        simp only [Option.map_some, Option.some.injEq] at hp ⊢
        have hlo : lo < 2 ^ 64 := pow10_lo _ _ _ hg
        have hhi : hi < 2 ^ 64 := by
          rw [← hp] at hlt
          by_contra hc
          have : 2 ^ 64 * 2 ^ 64 ≤ hi * 2 ^ 64 := Nat.mul_le_mul_right _ (by omega)
          norm_num at *
          omega
        rw [Nat.shiftLeft_eq, Nat.mod_eq_of_lt hrb, mulshift64_eq _ _ _ hrb hlo hhi, hp,
          mulParity64_eq _ _ _ _ (by omega) (by omega), mulParity64_eq _ _ _ _ (by omega) (by omega), hp,
          shift_div r φ b 128 (by omega), Nat.shiftRight_eq_div_pow]
        have e : hi / 2 ^ (63 - b) = φ / 2 ^ (2 * 64 - 1 - b) := by
          rw [← hp, show 2 * 64 - 1 - b = 64 + (63 - b) by omega, pow_add, ← Nat.div_div_eq_div_mul,
            show hi * 2 ^ 64 + lo = lo + hi * 2 ^ 64 by ring, Nat.add_mul_div_right _ _ (by norm_num),
            Nat.div_eq_of_lt hlo, Nat.zero_add]
        rw [e]
  · have b3 : b ≤ 6 := by
      change betaOf db32 e2 ≤ (32 : Int) - 23 - 3 at b2
      omega
    have hw : db32.w = 32 := rfl
    rw [hw] at hp hlt ⊢
    rw [if_neg (by norm_num)] at hp ⊢
    change r ≤ 2 ^ 25 at hr
    have hrb : r * 2 ^ b < 2 ^ 32 := by
      calc r * 2 ^ b ≤ 2 ^ 25 * 2 ^ 6 := Nat.mul_le_mul hr (Nat.pow_le_pow_right (by norm_num) b3)
        _ < 2 ^ 32 := by norm_num
    by_cases hk : k + 31 < 0
    · rw [if_pos hk] at hp; simp at hp
    · rw [if_neg hk] at hp ⊢
      cases hg : pow10Tb32[(k + 31).toNat]? with
      | none => rw [hg] at hp; simp at hp
      | some p =>
        rw [hg] at hp
        simp only [Option.some.injEq] at hp
        simp only [Option.map_some, Option.some.injEq]
        subst hp
        have hs : mulshift32 (r * 2 ^ b) p = r * p / 2 ^ (2 * 32 - b) := by
          unfold mulshift32
          have : r * 2 ^ b * p / 2 ^ 64 < 2 ^ 32 := by
            rw [Nat.div_lt_iff_lt_mul (by norm_num)]
            calc r * 2 ^ b * p ≤ r * 2 ^ b * 2 ^ 64 := Nat.mul_le_mul_left _ (by omega)
              _ < 2 ^ 32 * 2 ^ 64 := Nat.mul_lt_mul_of_pos_right hrb (by norm_num)
          rw [Nat.mod_eq_of_lt this, shift_div r p b 64 (by omega)]
        rw [Nat.shiftLeft_eq, Nat.mod_eq_of_lt hrb, hs, mulParity32_eq _ _ _ (by omega),
          mulParity32_eq _ _ _ (by omega), Nat.shiftRight_eq_div_pow]

/-- The scaled unit is so large that the wrong parity test of `float` does no harm (see `RtPrint`), or the number is a
`double`. -/
def LastDigitOk (d : DB) (e2 : Int) : Prop :=
  d = db64 ∨ 6 * denB d e2 ≤ numA d e2 ∨ (11 * denB d e2 ≤ 2 * numA d e2 ∧
    ((0 ≤ minusKOf d e2 → 2 ^ (d.mbits + 2) < 5 ^ (minusKOf d e2).toNat ∧ 0 ≤ uOf d e2) ∧
      (minusKOf d e2 < 0 → uOf d e2 < 0)))

/-- Then the right end point of the rounding interval is not an integer. -/
theorem end_not_integral (d : DB) (e2 : Int) (m : Nat) (hm2 : m < 2 ^ (d.mbits + 1))
    (h : (0 ≤ minusKOf d e2 → 2 ^ (d.mbits + 2) < 5 ^ (minusKOf d e2).toNat ∧ 0 ≤ uOf d e2) ∧
      (minusKOf d e2 < 0 → uOf d e2 < 0)) : 0 < (2 * m + 1) * numA d e2 % denB d e2 := by
  rw [Nat.pos_iff_ne_zero]
  intro h0
  have hdv : denB d e2 ∣ (2 * m + 1) * numA d e2 := Nat.dvd_of_mod_eq_zero h0
  unfold denB numA at hdv
  by_cases hk : 0 ≤ minusKOf d e2
  · obtain ⟨h1, h2⟩ := h.1 hk
    have e1 : (-uOf d e2).toNat = 0 := by omega
    have e2' : (-minusKOf d e2).toNat = 0 := by omega
    rw [e1, e2', pow_zero, pow_zero, Nat.one_mul, Nat.mul_one] at hdv
    have hc : Nat.Coprime (5 ^ (minusKOf d e2).toNat) (2 ^ (uOf d e2).toNat) :=
      Nat.Coprime.pow _ _ (by decide)
    have := Nat.le_of_dvd (by omega) (hc.dvd_of_dvd_mul_right hdv)
    have : 2 ^ (d.mbits + 2) = 2 * 2 ^ (d.mbits + 1) := by ring
    omega
  · have h1 := h.2 (by omega)
    obtain ⟨k, hk'⟩ : ∃ k, (-uOf d e2).toNat = k + 1 := ⟨(-uOf d e2).toNat - 1, by omega⟩
    have e1 : (uOf d e2).toNat = 0 := by omega
    rw [hk', e1, pow_zero, Nat.one_mul, pow_succ] at hdv
    have h2 : 2 ∣ (2 * m + 1) * 5 ^ (-minusKOf d e2).toNat :=
      dvd_trans (Dvd.intro_left _ rfl) (dvd_trans (Dvd.intro _ rfl) hdv)
    rcases (Nat.Prime.dvd_mul Nat.prime_two).mp h2 with h3 | h3
    · omega
    · have := Nat.Prime.dvd_of_dvd_pow Nat.prime_two h3
      omega

/-- Scaled to integers: `Q·10^(e10+k)·B` in units where the number is `2mA`. -/
theorem dragonRest_spec (d : DB) (hd : IsDB d) (e2 : Int) (hr : ExpRange d e2) (he : e2 ≠ 0) (m : Nat) (hm1 : 1 ≤ m)
    (hm2 : m < 2 ^ (d.mbits + 1)) :
    ∃ Q up, dragonRest d m e2 =
        some (Q, if up then minusKOf d e2 + d.kappa + 1 else minusKOf d e2 + d.kappa) ∧
      (up = true ∨ LastDigitOk d e2 → Inside m (numA d e2) (Q * (if up then d.big else d.small) * denB d e2)) ∧
      (up = false → ∀ t, ¬ Inside m (numA d e2) (t * d.big * denB d e2)) ∧
      (up = false → d = db64 → Q * d.small * denB d e2 ≤ 2 * m * numA d e2 + 50 * denB d e2 ∧
        2 * m * numA d e2 ≤ Q * d.small * denB d e2 + 50 * denB d e2) ∧
      (up = false → 5 * (Q * d.small * denB d e2) ≤ 10 * m * numA d e2 + 6 * numA d e2 ∧
        10 * m * numA d e2 ≤ 5 * (Q * d.small * denB d e2) + 6 * numA d e2) := by
  obtain ⟨φ, hf⟩ := facts_exist d hd e2 hr
  have b1 := hf.beta1
  have b2 := hf.beta2
  have hw2 : 2 ^ (d.mbits + 2) = 2 * 2 ^ (d.mbits + 1) := by ring
  have hmw : 2 ^ (d.mbits + 2) < 2 ^ d.w := by rcases hd with rfl | rfl <;> norm_num [db64, db32]
  have e1 : m * 2 % 2 ^ d.w = 2 * m := by rw [Nat.mod_eq_of_lt (by omega), Nat.mul_comm]
  have e2' : (2 * m + 2 ^ d.w - 1) % 2 ^ d.w = 2 * m - 1 := by
    rw [show 2 * m + 2 ^ d.w - 1 = 2 * m - 1 + 2 ^ d.w by omega, Nat.add_mod_right]
    exact Nat.mod_eq_of_lt (by omega)
  have e3 : (2 * m + 1) % 2 ^ d.w = 2 * m + 1 := Nat.mod_eq_of_lt (by omega)
  have hbb : ¬ (betaOf d e2 < 1 ∨ 63 < betaOf d e2) := by
    have : (d.w : Int) ≤ 64 := by rcases hd with rfl | rfl <;> norm_num [db64, db32]
    omega
  have hdl : 2 * numA d e2 / denB d e2 < 2 ^ 32 := by
    have : 2 * numA d e2 / denB d e2 < d.big := by
      rw [Nat.div_lt_iff_lt_mul (denB_pos d e2)]; exact hf.hi
    have : d.big ≤ 1000 := by rcases hd with rfl | rfl <;> norm_num [db64, db32]
    omega
  have hzi : (2 * m + 1) * numA d e2 / denB d e2 + 16 ≤ 2 ^ d.w := by
    have h1 : (2 * m + 1) * numA d e2 / denB d e2 < 2 ^ (d.mbits + 1) * d.big := by
      rw [Nat.div_lt_iff_lt_mul (denB_pos d e2)]
      have : 2 * ((2 * m + 1) * numA d e2) < 2 * (2 ^ (d.mbits + 1) * d.big * denB d e2) := by
        calc 2 * ((2 * m + 1) * numA d e2) = (2 * m + 1) * (2 * numA d e2) := by ring
          _ < (2 * m + 1) * (d.big * denB d e2) := Nat.mul_lt_mul_of_pos_left hf.hi (by omega)
          _ ≤ (2 * 2 ^ (d.mbits + 1)) * (d.big * denB d e2) := Nat.mul_le_mul_right _ (by omega)
          _ = _ := by ring
      omega
    have h2 : 2 ^ (d.mbits + 1) * d.big + 16 ≤ 2 ^ d.w := by rcases hd with rfl | rfl <;> norm_num [db64, db32]
    omega
  rw [dragonRest_eq d m e2 hbb]
  simp only [e1, e2', e3]
  rw [mulStep_eq d hd e2 φ hf _ _ _ (by omega), Option.bind_some]
  simp only []
  rw [hf.delta, Nat.mod_eq_of_lt hdl, hf.floor (2 * m + 1) (by omega) (by omega),
    hf.floor (2 * m - 1) (by omega) (by omega), hf.floor (2 * m) (by omega) (by omega)]
  obtain ⟨h, hh, hbig, hh0, hb32, hpar', h50, h5⟩ : ∃ h, d.small = 2 * h ∧ d.big = 10 * d.small ∧ 1 ≤ h ∧ d.big ≤ 1000 ∧
      (LastDigitOk d e2 → 2 ∣ h ∨ ((h + 1) * denB d e2 ≤ numA d e2 ∨
        ((2 * h + 1) * denB d e2 ≤ 2 * numA d e2 ∧ 0 < (2 * m + 1) * numA d e2 % denB d e2))) ∧
      ((d = db64 → h = 50) ∧ 5 ≤ h) := by
    rcases hd with rfl | rfl
    · exact ⟨50, rfl, rfl, by norm_num, by norm_num [db64], fun _ => Or.inl (by norm_num), fun _ => rfl, by norm_num⟩
    · refine ⟨5, rfl, rfl, by norm_num, by norm_num [db32], fun hpar => Or.inr ?_, fun h => ?_, le_refl _⟩
      · rcases hpar with h | h | h
        · exact absurd (congrArg DB.w h) (by norm_num [db64, db32])
        · exact Or.inl h
        · exact Or.inr ⟨h.1, end_not_integral _ _ _ hm2 h.2⟩
      · exact absurd (congrArg DB.w h) (by norm_num [db64, db32])
  obtain ⟨Q, up, h1, h2, h3, h4, h6⟩ := dbTail_spec d m (numA d e2) (denB d e2)
    (fun _ => integralEnd d (2 * m + 1) e2 (minusKOf d e2)) (fun _ => integralEnd d (2 * m - 1) e2 (minusKOf d e2))
    (fun _ => integralMid d (2 * m) e2 (minusKOf d e2)) hm1 (numA_pos d e2) (denB_pos d e2) hbig h hh hh0 hb32
    hzi (hf.lo he) hf.hi
    (integralEnd_eq d hd e2 hf.exps _ (by omega) (by omega)) (integralEnd_eq d hd e2 hf.exps _ (by omega) (by omega))
    (integralMid_eq d hd e2 hf.exps _ (by omega) (by omega) (by omega))
  refine ⟨Q, up, ?_, fun hor => h2 (hor.imp id hpar'), h3, fun a b => ?_, fun a => ?_⟩
  · rw [h1]; rfl
  · have := h50 b
    subst this
    exact h4 a (by norm_num)
  · obtain ⟨n1, n2⟩ := h6 a
    have hlo := hf.lo he
    have e4 : 5 * ((h + 1) * denB d e2) ≤ 6 * (h * denB d e2) := by
      rw [← Nat.mul_assoc, ← Nat.mul_assoc]
      exact Nat.mul_le_mul_right _ (by omega)
    have e5 : h * denB d e2 ≤ numA d e2 := by
      have : d.small * denB d e2 = 2 * (h * denB d e2) := by rw [hh]; ring
      omega
    have e6 : 10 * m * numA d e2 = 5 * (2 * m * numA d e2) := by ring
    omega

end Verif.Float
