import Verif.Float.RtPrint
/-! # Powers of two, where the neighbour below is closer

`dragonbox_main` treats them like all other numbers (see `dragonMain`), so what it prints may be nearer to the
neighbour below.  Here: exactly for which powers of two the text is read back correctly. -/
namespace Verif.Float
open Verif Verif.IntPrint

/-- Reading back a number from the symmetric interval of a power of two: the lower quarter is lost. -/
theorem rounds_pow2 (mb eb e : Nat) (hmb : 1 ≤ mb) (he : 2 ≤ e) (x : ℚ)
    (h : InsideQ (Spec.significand mb e 0) (Spec.ulpExp mb eb e) x) :
    Spec.RoundsTo mb eb x e 0 ↔ (2 ^ (mb + 2) - 1 : ℚ) * (2 : ℚ) ^ (Spec.ulpExp mb eb e - 2) ≤ x := by
  have hmin : Spec.ulpExp mb eb 0 ≤ Spec.ulpExp mb eb e - 1 := by
    unfold Spec.ulpExp
    rw [if_pos rfl, if_neg (by omega)]; omega
  have hsig : Spec.significand mb e 0 = 2 ^ mb := by
    unfold Spec.significand; rw [if_neg (by omega)]; rfl
  have hv : Spec.magnitude mb eb e 0 = 2 ^ (mb + 2) * (2 : ℚ) ^ (Spec.ulpExp mb eb e - 2) := by
    unfold Spec.magnitude
    rw [hsig, two_half, two_half (Spec.ulpExp mb eb e - 1), show Spec.ulpExp mb eb e - 1 - 1 = Spec.ulpExp mb eb e - 2 by ring]
    push_cast; ring
  have hu : (0 : ℚ) < (2 : ℚ) ^ (Spec.ulpExp mb eb e - 2) := zpow_pos (by norm_num) _
  constructor
  · intro hr
    have hdn : Spec.Grid mb eb ((2 ^ (mb + 2) - 2 : ℚ) * (2 : ℚ) ^ (Spec.ulpExp mb eb e - 2)) := by
      refine ⟨2 ^ (mb + 1) - 1, Spec.ulpExp mb eb e - 1, ?_, hmin, ?_⟩
      · have : 0 < 2 ^ (mb + 1) := Nat.pow_pos (by norm_num)
        omega
      · rw [two_half (Spec.ulpExp mb eb e - 1), show Spec.ulpExp mb eb e - 1 - 1 = Spec.ulpExp mb eb e - 2 by ring,
          Nat.cast_sub (Nat.one_le_two_pow)]
        push_cast; ring
    have r2 := hr _ hdn (by rw [hv]; intro h0; nlinarith)
    rw [hv] at r2
    generalize (2 : ℚ) ^ (Spec.ulpExp mb eb e - 2) = u at *
    generalize (2 : ℚ) ^ (mb + 2) = p at *
    have q2 : (x - p * u) ^ 2 ≤ (x - (p - 2) * u) ^ 2 := sq_le_sq.mpr (r2.elim le_of_lt (fun h => h.1.le))
    nlinarith
  · intro hx w hw hne
    -- the neighbours
    have hfar : w ≤ (2 ^ (mb + 2) - 2 : ℚ) * (2 : ℚ) ^ (Spec.ulpExp mb eb e - 2) ∨
        (2 ^ (mb + 2) + 4 : ℚ) * (2 : ℚ) ^ (Spec.ulpExp mb eb e - 2) ≤ w := by
      obtain ⟨M, F, hM, hF, rfl⟩ := hw
      rw [hv] at hne
      generalize hE : Spec.ulpExp mb eb e = E at *
      have hp4 : (2 : ℚ) ^ (mb + 2) = 4 * 2 ^ mb := by ring
      have hm1 : (2 : ℚ) ≤ 2 ^ mb := by
        have : 2 ^ 1 ≤ 2 ^ mb := Nat.pow_le_pow_right (by norm_num) hmb
        have : 2 ≤ 2 ^ mb := by simpa using this
        exact_mod_cast this
      by_cases hFE : E ≤ F
      · obtain ⟨k, rfl⟩ : ∃ k : Nat, F = E + k := ⟨(F - E).toNat, by omega⟩
        have e1 : (M : ℚ) * (2 : ℚ) ^ (E + (k : Int)) = (4 * (M * 2 ^ k : Nat) : ℚ) * (2 : ℚ) ^ (E - 2) := by
          rw [zpow_add₀ (by norm_num), zpow_natCast, two_half E, two_half (E - 1), show E - 1 - 1 = E - 2 by ring]
          push_cast; ring
        rw [e1] at hne ⊢
        have hne' : M * 2 ^ k ≠ 2 ^ mb := by
          intro h0
          apply hne
          rw [h0, hp4]; push_cast; ring
        rcases Nat.lt_or_gt_of_ne hne' with hlt | hgt
        · left
          apply mul_le_mul_of_nonneg_right _ hu.le
          have : M * 2 ^ k + 1 ≤ 2 ^ mb := hlt
          have : ((M * 2 ^ k : Nat) : ℚ) + 1 ≤ 2 ^ mb := by exact_mod_cast this
          rw [hp4]; linarith
        · right
          apply mul_le_mul_of_nonneg_right _ hu.le
          have : 2 ^ mb + 1 ≤ M * 2 ^ k := hgt
          have : (2 : ℚ) ^ mb + 1 ≤ ((M * 2 ^ k : Nat) : ℚ) := by exact_mod_cast this
          rw [hp4]; linarith
      · left
        by_cases hF1 : F = E - 1
        · subst hF1
          have e1 : (M : ℚ) * (2 : ℚ) ^ (E - 1) = (2 * M : ℚ) * (2 : ℚ) ^ (E - 2) := by
            rw [two_half (E - 1), show E - 1 - 1 = E - 2 by ring]; ring
          rw [e1]
          apply mul_le_mul_of_nonneg_right _ hu.le
          have : M + 1 ≤ 2 ^ (mb + 1) := hM
          have : (M : ℚ) + 1 ≤ 2 ^ (mb + 1) := by exact_mod_cast this
          have h2 : (2 : ℚ) ^ (mb + 1) = 2 * 2 ^ mb := by ring
          rw [hp4]; linarith
        · have a1 : (M : ℚ) ≤ 2 ^ (mb + 1) := by exact_mod_cast hM.le
          have a2 : (2 : ℚ) ^ F ≤ (2 : ℚ) ^ (E - 2) := zpow_le_zpow_right₀ (by norm_num) (by omega)
          have h2 : (2 : ℚ) ^ (mb + 1) = 2 * 2 ^ mb := by ring
          calc (M : ℚ) * (2 : ℚ) ^ F ≤ 2 ^ (mb + 1) * (2 : ℚ) ^ (E - 2) :=
                mul_le_mul a1 a2 (zpow_pos (by norm_num) _).le (by positivity)
            _ ≤ _ := by
                apply mul_le_mul_of_nonneg_right _ hu.le
                rw [hp4, h2]; linarith
    have hup : x ≤ (2 ^ (mb + 2) + 2 : ℚ) * (2 : ℚ) ^ (Spec.ulpExp mb eb e - 2) := by
      have := h.1.2
      rw [hsig, two_half (Spec.ulpExp mb eb e - 1), show Spec.ulpExp mb eb e - 1 - 1 = Spec.ulpExp mb eb e - 2 by ring] at this
      push_cast at this
      calc x ≤ _ := this
        _ = _ := by ring
    rw [hv]
    have heven : Spec.significand mb e 0 % 2 = 0 := by
      rw [hsig]
      obtain ⟨k, rfl⟩ : ∃ k, mb = k + 1 := ⟨mb - 1, by omega⟩
      rw [pow_succ]; omega
    generalize (2 : ℚ) ^ (Spec.ulpExp mb eb e - 2) = u at *
    generalize (2 : ℚ) ^ (mb + 2) = p at *
    have : |x - p * u| ≤ |x - w| := by
      rcases hfar with hw' | hw'
      · rw [abs_of_nonneg (a := x - w) (by nlinarith), abs_le]
        constructor <;> nlinarith
      · rw [abs_of_nonpos (a := x - w) (by nlinarith), abs_le]
        constructor <;> nlinarith
    rcases lt_or_eq_of_le this with h1 | h1
    · exact Or.inl h1
    · exact Or.inr ⟨h1, heven⟩

/-- The comparison of `rounds_pow2` in integers. -/
def pow2Test (d : DB) (e : Nat) : Bool :=
  let E : Int := (e : Int) - (2 ^ (d.ebits - 1) - 1) - d.mbits
  match dragonMain d 0 e with
  | none => false
  | some (Q, x) => decide ((2 ^ (d.mbits + 2) - 1) * 2 ^ (E - 2).toNat * 10 ^ (-x).toNat ≤
      Q * 10 ^ x.toNat * 2 ^ (2 - E).toNat)

/-- The powers of two in `double` that are not read back, by exponent field. -/
def badPow64 : List Nat := [4, 5, 6, 10, 11, 12, 16, 21, 22, 61, 62, 63, 64, 65, 66, 75, 98, 99, 100, 101, 102, 131,
  138, 147, 148, 165, 198, 207, 208, 209, 210, 211, 212, 213, 214, 215, 221, 231, 232, 233, 234, 235, 243, 244, 245,
  246, 247, 248, 249, 250, 251, 261, 262, 263, 264, 271, 288, 289, 290, 291, 304, 317, 318, 328, 334, 361, 370, 371,
  394, 403, 404, 405, 406, 407, 437, 438, 439, 440, 472, 473, 474, 493, 494, 510, 514, 515, 516, 517, 527, 533, 534,
  535, 536, 537, 546, 547, 580, 590, 602, 603, 613, 622, 623, 630, 639, 640, 657, 658, 659, 660, 672, 673, 680, 686,
  702, 703, 726, 727, 756, 765, 766, 771, 772, 799, 806, 826, 836, 841, 842, 869, 883, 925, 926, 930, 931, 932, 933,
  934, 935, 941, 942, 946, 955, 979, 998, 999, 1087, 1088, 1089, 1090, 1091, 1108, 1112, 1131, 1145, 1155, 1156, 1157,
  1158, 1181, 1188, 1194, 1195, 1205, 1206, 1207, 1208, 1238, 1250, 1251, 1283, 1284, 1291, 1298, 1310, 1311, 1328,
  1329, 1330, 1331, 1360, 1361, 1362, 1363, 1364, 1368, 1383, 1384, 1393, 1394, 1395, 1396, 1397, 1401, 1409, 1410,
  1414, 1421, 1428, 1442, 1443, 1480, 1487, 1499, 1500, 1501, 1502, 1503, 1504, 1520, 1533, 1557, 1558, 1559, 1560,
  1567, 1576, 1577, 1583, 1592, 1593, 1597, 1617, 1625, 1626, 1675, 1676, 1692, 1693, 1732, 1733, 1758, 1759, 1786,
  1787, 1788, 1789, 1808, 1809, 1810, 1811, 1812, 1826, 1839, 1885, 1886, 1887, 1888, 1889, 1902, 1917, 1918, 1919,
  1999, 2025]

/-- The powers of two in `float` that are not read back, by exponent field. -/
def badPow32 : List Nat := [24, 30, 57, 67, 80, 152, 153, 172, 173, 183, 202, 203, 209, 213, 214, 215, 216, 217, 218,
  219, 220, 221, 222, 223, 224]

/-- The exponent fields of `float` in which the wrong parity test does harm. -/
def badField32 : List Nat := [57, 67, 77, 87, 160, 170, 180, 190, 253]

def allFrom (p : Nat → Bool) (lo : Nat) : Nat → Bool
  | 0 => true
  | n + 1 => p lo && allFrom p (lo + 1) n

theorem allFrom_spec (p : Nat → Bool) (n : Nat) : ∀ lo, allFrom p lo n = true → ∀ e, lo ≤ e → e < lo + n → p e = true := by
  induction n with
  | zero => intro lo _ e h1 h2; omega
  | succ n ih =>
    intro lo h e h1 h2
    unfold allFrom at h
    rw [Bool.and_eq_true] at h
    rcases Nat.eq_or_lt_of_le h1 with h3 | h3
    · rw [← h3]; exact h.1
    · exact ih (lo + 1) h.2 e h3 (by omega)

set_option maxRecDepth 100000 in
theorem pow2Test64 : allFrom (fun e => pow2Test db64 e == !badPow64.contains e) 2 2045 = true := by decide +kernel

set_option maxRecDepth 100000 in
theorem pow2Test32 : allFrom (fun e => badField32.contains e || pow2Test db32 e == !badPow32.contains e) 2 253 = true := by
  decide +kernel

/-- The exact condition for a power of two. -/
theorem pow2_rounds {t : Trait} {d : DB} (hp : Pair t d) (st : Bool) (e k : Nat) (n : Int) (he : 2 ≤ e)
    (he2 : e < 2 ^ t.ebits - 1) (hpar : FieldsOk t d e 0) (hi : dragonImpl d st 0 e = some (k, n)) :
    Spec.RoundsTo t.mbits t.ebits (k * (10 : ℚ) ^ n) e 0 ↔ pow2Test d e = true := by
  obtain ⟨hb1, hb2⟩ := hp.bits
  unfold FieldsOk at hpar
  rw [hb1, hb2] at hpar
  rw [hb2] at he2
  have hmb : 1 ≤ d.mbits := by rcases hp.isDB with rfl | rfl <;> decide
  have heb : 1 ≤ d.ebits := by rcases hp.isDB with rfl | rfl <;> decide
  obtain ⟨Q, x, h1, h2, -, -, -⟩ := dragonMain_good d hp.isDB 0 e (Nat.pow_pos (by norm_num)) he2 (by omega)
  have h2 := h2 hpar
  obtain ⟨k', n', g1, g2, -⟩ := dragonImpl_spec d hp.isDB st 0 e Q x h2.pos h1
  rw [hi] at g1
  obtain ⟨rfl, rfl⟩ : k = k' ∧ n = n' := by simpa using g1
  rw [← g2.val, hb1, hb2, rounds_pow2 d.mbits d.ebits e hmb he _ h2.inside]
  unfold pow2Test
  rw [h1]
  simp only [decide_eq_true_eq]
  have hE : (e : Int) - (2 ^ (d.ebits - 1) - 1) - d.mbits = Spec.ulpExp d.mbits d.ebits e := by
    unfold Spec.ulpExp Spec.bias
    rw [if_neg (by omega)]
    have : 1 ≤ 2 ^ (d.ebits - 1) := Nat.one_le_two_pow
    push_cast [Nat.cast_sub this]
    ring
  rw [hE]
  generalize Spec.ulpExp d.mbits d.ebits e = E
  have c1 := pow_split 2 (by norm_num) (E - 2)
  have c2 := pow_split 10 (by norm_num) x
  have p1 : (0 : ℚ) < 2 ^ (-(E - 2)).toNat := by positivity
  have p2 : (0 : ℚ) < 10 ^ (-x).toNat := by positivity
  have hc : ((2 ^ (d.mbits + 2) - 1) * 2 ^ (E - 2).toNat * 10 ^ (-x).toNat ≤ Q * 10 ^ x.toNat * 2 ^ (2 - E).toNat) ↔
      ((2 ^ (d.mbits + 2) - 1 : ℚ) * 2 ^ (E - 2).toNat * 10 ^ (-x).toNat ≤ Q * 10 ^ x.toNat * 2 ^ (2 - E).toNat) := by
    rw [← Nat.cast_le (α := ℚ)]
    push_cast [Nat.cast_sub (Nat.one_le_two_pow (n := d.mbits + 2))]
    rfl
  rw [hc, c1, c2, show (2 - E) = -(E - 2) by ring]
  have l : (2 ^ (d.mbits + 2) - 1 : ℚ) * (2 ^ (-(E - 2)).toNat * 2 ^ (E - 2)) * 10 ^ (-x).toNat =
      ((2 ^ (d.mbits + 2) - 1 : ℚ) * 2 ^ (E - 2)) * (2 ^ (-(E - 2)).toNat * 10 ^ (-x).toNat) := by ring
  have r : (Q : ℚ) * (10 ^ (-x).toNat * 10 ^ x) * 2 ^ (-(E - 2)).toNat =
      (Q * 10 ^ x) * (2 ^ (-(E - 2)).toNat * 10 ^ (-x).toNat) := by ring
  rw [l, r]
  exact (mul_le_mul_iff_left₀ (mul_pos p1 p2)).symm

end Verif.Float
