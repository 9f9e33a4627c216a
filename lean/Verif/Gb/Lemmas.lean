import Verif.Gb.Model
import Mathlib.Tactic.SplitIfs
import Mathlib.Tactic.NormNum
/-!
# GB 18030: the tables
-/
namespace Verif.Gb
open Verif

/-- The ranges, as numbers; the codes relative to the first. -/
theorem ranges_eq : ranges =
    [(0x0452, 0x2010, 1687218 + 820, 1687218 + 7921), (0x2643, 0x2E81, 1687218 + 9219, 1687218 + 11328), (0x361B, 0x3918, 1687218 + 12973, 1687218 + 13737),
     (0x3CE1, 0x4056, 1687218 + 14698, 1687218 + 15582), (0x4160, 0x4337, 1687218 + 15847, 1687218 + 16317), (0x44D7, 0x464C, 1687218 + 16729, 1687218 + 17101),
     (0x478E, 0x4947, 1687218 + 17418, 1687218 + 17858), (0x49B8, 0x4C77, 1687218 + 17961, 1687218 + 18663), (0x9FA6, 0xD800, 1687218 + 19043, 1687218 + 33468),
     (0xE865, 0xF92C, 1687218 + 33550, 1687218 + 37844), (0xFA2A, 0xFE30, 1687218 + 38078, 1687218 + 39107), (0xFFE6, 0x10000, 1687218 + 39394, 1687218 + 39419),
     (0x10000, 0x110000, 1687218 + 189000, 1687218 + 1237575)] := by decide +kernel

theorem base_eq : linearBase = 1687218 := by decide +kernel

theorem sub32_lt (u a b : Nat) (hu : u < 2 ^ 32) (hab : a ≤ b) (hb : b < 2 ^ 32) : sub32 u a < sub32 b a ↔ a ≤ u ∧ u < b := by
  simp only [sub32]; omega

theorem sub32_le (u a b : Nat) (hu : u < 2 ^ 32) (hab : a ≤ b) (hb : b < 2 ^ 32) : sub32 u a ≤ sub32 b a ↔ a ≤ u ∧ u ≤ b := by
  simp only [sub32]; omega

theorem sub32_eq (u a : Nat) (hu : u < 2 ^ 32) (h : a ≤ u) : sub32 u a = u - a := by simp only [sub32]; omega

theorem add32_eq (a b : Nat) (h : a + b < 2 ^ 32) : add32 a b = a + b := Nat.mod_eq_of_lt h

/-- The four bytes computed from a number. -/
theorem four_eq (k : Nat) (h : k < 1587600) : [(0x81 + k / 10 / 126 / 10) % 256, 0x30 + k / 10 / 126 % 10, 0x81 + k / 10 % 126, 0x30 + k % 10] = four k := by
  have h1 : k / 10 / 126 / 10 = k / 12600 := by omega
  have h2 : k / 10 / 126 = k / 1260 := by omega
  simp only [four, h1, h2, List.cons.injEq, and_true]
  omega

/-- One turn of the loop, with the arithmetic of the ranges done. -/
theorem encLoop_step (u e0 e1 k2 e3 n0 : Nat) (n : Nat × Nat × Nat) (rest : List (Nat × Nat × Nat × Nat)) (sum : Nat) (hu : u < 0x110000) (h1 : e0 ≤ e1)
    (h2 : e1 ≤ n0) (h3 : n0 ≤ 0x110000) (h4 : k2 < 200000) (hs : sum < 2 ^ 31) (h5 : e1 - e0 + k2 ≤ 1587600) :
    encLoop u ((e0, e1, 1687218 + k2, e3) :: (n0, n) :: rest) sum =
      if e0 ≤ u ∧ u < e1 then some (four (u - e0 + k2))
      else if e1 ≤ u ∧ u < n0 then lookupUni (sub32 u (sum + (e1 - e0)))
      else encLoop u ((n0, n) :: rest) (sum + (e1 - e0)) := by
  rw [encLoop]
  have hsub : sub32 e1 e0 = e1 - e0 := sub32_eq _ _ (by omega) h1
  have hadd : add32 sum (e1 - e0) = sum + (e1 - e0) := add32_eq _ _ (by omega)
  simp only [sub32_lt u e0 e1 (by omega) h1 (by omega), sub32_lt u e1 n0 (by omega) h2 (by omega)]
  simp only [hsub, hadd]
  split_ifs with hc
  · rw [sub32_eq u e0 (by omega) hc.1, add32_eq _ _ (by omega), base_eq, sub32_eq _ _ (by omega) (by omega)]
    have : u - e0 + (1687218 + k2) - 1687218 = u - e0 + k2 := by omega
    rw [this, four_eq _ (by omega)]
  · rfl
  · rfl

theorem encLoop_last (u e3 sum : Nat) (hu : u < 0x110000) (h : 0x10000 ≤ u) :
    encLoop u [(0x10000, 0x110000, 1687218 + 189000, e3)] sum = some (four (u - 0x10000 + 189000)) := by
  rw [encLoop]
  simp only [sub32_lt u 0x10000 0x110000 (by omega) (by omega) (by omega)]
  rw [if_pos ⟨h, hu⟩, sub32_eq u _ (by omega) h, add32_eq _ _ (by omega), base_eq, sub32_eq _ _ (by omega) (by omega)]
  have : u - 65536 + (1687218 + 189000) - 1687218 = u - 65536 + 189000 := by omega
  rw [this, four_eq _ (by omega)]

/-- The ranges of characters with computed codes: first, end, number of the first code. -/
def computed : List (Nat × Nat × Nat) :=
  [(0x0452, 0x2010, 820), (0x2643, 0x2E81, 9219), (0x361B, 0x3918, 12973), (0x3CE1, 0x4056, 14698), (0x4160, 0x4337, 15847), (0x44D7, 0x464C, 16729),
   (0x478E, 0x4947, 17418), (0x49B8, 0x4C77, 17961), (0x9FA6, 0xD800, 19043), (0xE865, 0xF92C, 33550), (0xFA2A, 0xFE30, 38078), (0xFFE6, 0x10000, 39394),
   (0x10000, 0x110000, 189000)]

/-- The ranges with codes from the table: first, end, difference to the index in the table, of code numbers to indices of the other table (0: none). -/
def gaps : List (Nat × Nat × Nat × Nat) :=
  [(0x80, 0x0452, 128, 0), (0x2010, 0x2643, 7230, 7922), (0x2E81, 0x361B, 9340, 10032), (0x3918, 0x3CE1, 10105, 10797), (0x4056, 0x4160, 10990, 11682),
   (0x4337, 0x44D7, 11461, 12153), (0x464C, 0x478E, 11834, 12526), (0x4947, 0x49B8, 12275, 12967), (0x4C77, 0x9FA6, 12978, 13670),
   (0xD800, 0xE865, 27404, 28096), (0xF92C, 0xFA2A, 31699, 32391), (0xFE30, 0xFFE6, 32729, 33421)]

theorem lookup_gap (u off : Nat) (hu : u < 0x110000) (h : off ≤ u) : lookupUni (sub32 u off) = lookupUni (u - off) := by
  rw [sub32_eq _ _ (by omega) h]

/-- `encode`, by ranges. -/
theorem encode_cases (u : Nat) (h0 : 0x80 ≤ u) (hu : u < 0x110000) :
    (∃ e0 e1 k, (e0, e1, k) ∈ computed ∧ e0 ≤ u ∧ u < e1 ∧ encode u = some (four (u - e0 + k))) ∨
    (∃ lo hi off sub, (lo, hi, off, sub) ∈ gaps ∧ lo ≤ u ∧ u < hi ∧ encode u = lookupUni (u - off)) := by
  rw [encode, if_neg (by omega), if_pos hu]
  by_cases hl : u < 0x452
  · rw [if_pos hl]
    exact Or.inr ⟨0x80, 0x452, 128, 0, by decide, h0, hl, rfl⟩
  · rw [if_neg hl, ranges_eq]
    rw [encLoop_step _ _ _ _ _ _ _ _ _ hu (by norm_num) (by norm_num) (by norm_num) (by norm_num) (by norm_num) (by norm_num)]
    split_ifs with a0 b0
    · exact Or.inl ⟨1106, 8208, 820, by decide, a0.1, a0.2, rfl⟩
    · exact Or.inr ⟨8208, 9795, 7230, 7922, by decide, b0.1, b0.2, lookup_gap _ _ hu (by omega)⟩
    rw [encLoop_step _ _ _ _ _ _ _ _ _ hu (by norm_num) (by norm_num) (by norm_num) (by norm_num) (by norm_num) (by norm_num)]
    split_ifs with a1 b1
    · exact Or.inl ⟨9795, 11905, 9219, by decide, a1.1, a1.2, rfl⟩
    · exact Or.inr ⟨11905, 13851, 9340, 10032, by decide, b1.1, b1.2, lookup_gap _ _ hu (by omega)⟩
    rw [encLoop_step _ _ _ _ _ _ _ _ _ hu (by norm_num) (by norm_num) (by norm_num) (by norm_num) (by norm_num) (by norm_num)]
    split_ifs with a2 b2
    · exact Or.inl ⟨13851, 14616, 12973, by decide, a2.1, a2.2, rfl⟩
    · exact Or.inr ⟨14616, 15585, 10105, 10797, by decide, b2.1, b2.2, lookup_gap _ _ hu (by omega)⟩
    rw [encLoop_step _ _ _ _ _ _ _ _ _ hu (by norm_num) (by norm_num) (by norm_num) (by norm_num) (by norm_num) (by norm_num)]
    split_ifs with a3 b3
    · exact Or.inl ⟨15585, 16470, 14698, by decide, a3.1, a3.2, rfl⟩
    · exact Or.inr ⟨16470, 16736, 10990, 11682, by decide, b3.1, b3.2, lookup_gap _ _ hu (by omega)⟩
    rw [encLoop_step _ _ _ _ _ _ _ _ _ hu (by norm_num) (by norm_num) (by norm_num) (by norm_num) (by norm_num) (by norm_num)]
    split_ifs with a4 b4
    · exact Or.inl ⟨16736, 17207, 15847, by decide, a4.1, a4.2, rfl⟩
    · exact Or.inr ⟨17207, 17623, 11461, 12153, by decide, b4.1, b4.2, lookup_gap _ _ hu (by omega)⟩
    rw [encLoop_step _ _ _ _ _ _ _ _ _ hu (by norm_num) (by norm_num) (by norm_num) (by norm_num) (by norm_num) (by norm_num)]
    split_ifs with a5 b5
    · exact Or.inl ⟨17623, 17996, 16729, by decide, a5.1, a5.2, rfl⟩
    · exact Or.inr ⟨17996, 18318, 11834, 12526, by decide, b5.1, b5.2, lookup_gap _ _ hu (by omega)⟩
    rw [encLoop_step _ _ _ _ _ _ _ _ _ hu (by norm_num) (by norm_num) (by norm_num) (by norm_num) (by norm_num) (by norm_num)]
    split_ifs with a6 b6
    · exact Or.inl ⟨18318, 18759, 17418, by decide, a6.1, a6.2, rfl⟩
    · exact Or.inr ⟨18759, 18872, 12275, 12967, by decide, b6.1, b6.2, lookup_gap _ _ hu (by omega)⟩
    rw [encLoop_step _ _ _ _ _ _ _ _ _ hu (by norm_num) (by norm_num) (by norm_num) (by norm_num) (by norm_num) (by norm_num)]
    split_ifs with a7 b7
    · exact Or.inl ⟨18872, 19575, 17961, by decide, a7.1, a7.2, rfl⟩
    · exact Or.inr ⟨19575, 40870, 12978, 13670, by decide, b7.1, b7.2, lookup_gap _ _ hu (by omega)⟩
    rw [encLoop_step _ _ _ _ _ _ _ _ _ hu (by norm_num) (by norm_num) (by norm_num) (by norm_num) (by norm_num) (by norm_num)]
    split_ifs with a8 b8
    · exact Or.inl ⟨40870, 55296, 19043, by decide, a8.1, a8.2, rfl⟩
    · exact Or.inr ⟨55296, 59493, 27404, 28096, by decide, b8.1, b8.2, lookup_gap _ _ hu (by omega)⟩
    rw [encLoop_step _ _ _ _ _ _ _ _ _ hu (by norm_num) (by norm_num) (by norm_num) (by norm_num) (by norm_num) (by norm_num)]
    split_ifs with a9 b9
    · exact Or.inl ⟨59493, 63788, 33550, by decide, a9.1, a9.2, rfl⟩
    · exact Or.inr ⟨63788, 64042, 31699, 32391, by decide, b9.1, b9.2, lookup_gap _ _ hu (by omega)⟩
    rw [encLoop_step _ _ _ _ _ _ _ _ _ hu (by norm_num) (by norm_num) (by norm_num) (by norm_num) (by norm_num) (by norm_num)]
    split_ifs with a10 b10
    · exact Or.inl ⟨64042, 65072, 38078, by decide, a10.1, a10.2, rfl⟩
    · exact Or.inr ⟨65072, 65510, 32729, 33421, by decide, b10.1, b10.2, lookup_gap _ _ hu (by omega)⟩
    rw [encLoop_step _ _ _ _ _ _ _ _ _ hu (by norm_num) (by norm_num) (by norm_num) (by norm_num) (by norm_num) (by norm_num)]
    split_ifs with a11 b11
    · exact Or.inl ⟨65510, 65536, 39394, by decide, a11.1, a11.2, rfl⟩
    · omega
    rw [encLoop_last _ _ _ hu (by omega)]
    exact Or.inl ⟨65536, 1114112, 189000, by decide, by omega, hu, rfl⟩

theorem sub32_big (B k s : Nat) (h1 : s ≤ k) (h2 : B + k < 2 ^ 32) : sub32 (B + k) (B + s) = k - s := by
  rw [sub32_eq _ _ h2 (by omega)]; omega

theorem idxLoop_step (k e0 e1 k2 k3 n0 n1 m2 n3 : Nat) (rest : List (Nat × Nat × Nat × Nat)) (sum : Nat) (hk : k < 2000000) (h1 : e0 ≤ e1)
    (h3 : e1 ≤ 0x110000) (h4 : k2 ≤ k3) (h6 : k3 < 2 ^ 24) (hs : sum < 2 ^ 24) :
    idxLoop (1687218 + k) ((e0, e1, 1687218 + k2, 1687218 + k3) :: (n0, n1, 1687218 + m2, n3) :: rest) (1687218 + sum) =
      if k2 ≤ k ∧ k ≤ k3 then k - k2 + e0
      else if k3 < k ∧ k < m2 then lookup4 (sub32 (1687218 + k) (1687218 + (sum + (e1 - e0))))
      else idxLoop (1687218 + k) ((n0, n1, 1687218 + m2, n3) :: rest) (1687218 + (sum + (e1 - e0))) := by
  rw [idxLoop]
  have hsub : sub32 e1 e0 = e1 - e0 := sub32_eq _ _ (by omega) h1
  have hadd : add32 (1687218 + sum) (e1 - e0) = 1687218 + (sum + (e1 - e0)) := by rw [add32_eq _ _ (by omega)]; omega
  simp only [sub32_le (1687218 + k) (1687218 + k2) (1687218 + k3) (by omega) (by omega) (by omega)]
  simp only [hsub, hadd, Nat.add_le_add_iff_left, Nat.add_lt_add_iff_left]
  split_ifs with hc
  · rw [sub32_big _ _ _ hc.1 (by omega), add32_eq _ _ (by omega)]
  · rfl
  · rfl

theorem idxLoop_last (k e0 e1 k2 k3 : Nat) (sum : Nat) (hk : k < 2000000) (h3 : e0 ≤ 0x110000) (h4 : k2 ≤ k3) (h6 : k3 < 2 ^ 24) :
    idxLoop (1687218 + k) [(e0, e1, 1687218 + k2, 1687218 + k3)] sum = if k2 ≤ k ∧ k ≤ k3 then k - k2 + e0 else 0xFFFD := by
  rw [idxLoop]
  simp only [sub32_le (1687218 + k) (1687218 + k2) (1687218 + k3) (by omega) (by omega) (by omega), Nat.add_le_add_iff_left]
  split_ifs with hc
  · rw [sub32_big _ _ _ hc.1 (by omega), add32_eq _ _ (by omega)]
  · rfl

/-- `byIndex`, by ranges. -/
theorem byIndex_eq (k : Nat) (hk : k < 2000000) : byIndex (1687218 + k) =
    if 820 ≤ k ∧ k ≤ 7921 then k - 820 + 1106 else
    if 7921 < k ∧ k < 9219 then lookup4 (k - 7922) else
    if 9219 ≤ k ∧ k ≤ 11328 then k - 9219 + 9795 else
    if 11328 < k ∧ k < 12973 then lookup4 (k - 10032) else
    if 12973 ≤ k ∧ k ≤ 13737 then k - 12973 + 13851 else
    if 13737 < k ∧ k < 14698 then lookup4 (k - 10797) else
    if 14698 ≤ k ∧ k ≤ 15582 then k - 14698 + 15585 else
    if 15582 < k ∧ k < 15847 then lookup4 (k - 11682) else
    if 15847 ≤ k ∧ k ≤ 16317 then k - 15847 + 16736 else
    if 16317 < k ∧ k < 16729 then lookup4 (k - 12153) else
    if 16729 ≤ k ∧ k ≤ 17101 then k - 16729 + 17623 else
    if 17101 < k ∧ k < 17418 then lookup4 (k - 12526) else
    if 17418 ≤ k ∧ k ≤ 17858 then k - 17418 + 18318 else
    if 17858 < k ∧ k < 17961 then lookup4 (k - 12967) else
    if 17961 ≤ k ∧ k ≤ 18663 then k - 17961 + 18872 else
    if 18663 < k ∧ k < 19043 then lookup4 (k - 13670) else
    if 19043 ≤ k ∧ k ≤ 33468 then k - 19043 + 40870 else
    if 33468 < k ∧ k < 33550 then lookup4 (k - 28096) else
    if 33550 ≤ k ∧ k ≤ 37844 then k - 33550 + 59493 else
    if 37844 < k ∧ k < 38078 then lookup4 (k - 32391) else
    if 38078 ≤ k ∧ k ≤ 39107 then k - 38078 + 64042 else
    if 39107 < k ∧ k < 39394 then lookup4 (k - 33421) else
    if 39394 ≤ k ∧ k ≤ 39419 then k - 39394 + 65510 else
    if 39419 < k ∧ k < 189000 then lookup4 (k - 33447) else
    if 189000 ≤ k ∧ k ≤ 1237575 then k - 189000 + 65536 else 0xFFFD := by
  have hg : ∀ s, s ≤ k → lookup4 (sub32 (1687218 + k) (1687218 + s)) = lookup4 (k - s) := fun s h => by rw [sub32_big _ _ _ h (by omega)]
  have hb : add32 linearBase 820 = 1687218 + 820 := by decide +kernel
  rw [byIndex, hb, ranges_eq]
  rw [idxLoop_step _ _ _ _ _ _ _ _ _ _ _ hk (by norm_num) (by norm_num) (by norm_num) (by norm_num) (by norm_num)]
  refine if_congr Iff.rfl rfl ?_
  by_cases b0 : 7921 < k ∧ k < 9219
  · rw [if_pos b0, if_pos b0]; exact hg _ (by omega)
  rw [if_neg b0, if_neg b0]
  rw [idxLoop_step _ _ _ _ _ _ _ _ _ _ _ hk (by norm_num) (by norm_num) (by norm_num) (by norm_num) (by norm_num)]
  refine if_congr Iff.rfl rfl ?_
  by_cases b1 : 11328 < k ∧ k < 12973
  · rw [if_pos b1, if_pos b1]; exact hg _ (by omega)
  rw [if_neg b1, if_neg b1]
  rw [idxLoop_step _ _ _ _ _ _ _ _ _ _ _ hk (by norm_num) (by norm_num) (by norm_num) (by norm_num) (by norm_num)]
  refine if_congr Iff.rfl rfl ?_
  by_cases b2 : 13737 < k ∧ k < 14698
  · rw [if_pos b2, if_pos b2]; exact hg _ (by omega)
  rw [if_neg b2, if_neg b2]
  rw [idxLoop_step _ _ _ _ _ _ _ _ _ _ _ hk (by norm_num) (by norm_num) (by norm_num) (by norm_num) (by norm_num)]
  refine if_congr Iff.rfl rfl ?_
  by_cases b3 : 15582 < k ∧ k < 15847
  · rw [if_pos b3, if_pos b3]; exact hg _ (by omega)
  rw [if_neg b3, if_neg b3]
  rw [idxLoop_step _ _ _ _ _ _ _ _ _ _ _ hk (by norm_num) (by norm_num) (by norm_num) (by norm_num) (by norm_num)]
  refine if_congr Iff.rfl rfl ?_
  by_cases b4 : 16317 < k ∧ k < 16729
  · rw [if_pos b4, if_pos b4]; exact hg _ (by omega)
  rw [if_neg b4, if_neg b4]
  rw [idxLoop_step _ _ _ _ _ _ _ _ _ _ _ hk (by norm_num) (by norm_num) (by norm_num) (by norm_num) (by norm_num)]
  refine if_congr Iff.rfl rfl ?_
  by_cases b5 : 17101 < k ∧ k < 17418
  · rw [if_pos b5, if_pos b5]; exact hg _ (by omega)
  rw [if_neg b5, if_neg b5]
  rw [idxLoop_step _ _ _ _ _ _ _ _ _ _ _ hk (by norm_num) (by norm_num) (by norm_num) (by norm_num) (by norm_num)]
  refine if_congr Iff.rfl rfl ?_
  by_cases b6 : 17858 < k ∧ k < 17961
  · rw [if_pos b6, if_pos b6]; exact hg _ (by omega)
  rw [if_neg b6, if_neg b6]
  rw [idxLoop_step _ _ _ _ _ _ _ _ _ _ _ hk (by norm_num) (by norm_num) (by norm_num) (by norm_num) (by norm_num)]
  refine if_congr Iff.rfl rfl ?_
  by_cases b7 : 18663 < k ∧ k < 19043
  · rw [if_pos b7, if_pos b7]; exact hg _ (by omega)
  rw [if_neg b7, if_neg b7]
  rw [idxLoop_step _ _ _ _ _ _ _ _ _ _ _ hk (by norm_num) (by norm_num) (by norm_num) (by norm_num) (by norm_num)]
  refine if_congr Iff.rfl rfl ?_
  by_cases b8 : 33468 < k ∧ k < 33550
  · rw [if_pos b8, if_pos b8]; exact hg _ (by omega)
  rw [if_neg b8, if_neg b8]
  rw [idxLoop_step _ _ _ _ _ _ _ _ _ _ _ hk (by norm_num) (by norm_num) (by norm_num) (by norm_num) (by norm_num)]
  refine if_congr Iff.rfl rfl ?_
  by_cases b9 : 37844 < k ∧ k < 38078
  · rw [if_pos b9, if_pos b9]; exact hg _ (by omega)
  rw [if_neg b9, if_neg b9]
  rw [idxLoop_step _ _ _ _ _ _ _ _ _ _ _ hk (by norm_num) (by norm_num) (by norm_num) (by norm_num) (by norm_num)]
  refine if_congr Iff.rfl rfl ?_
  by_cases b10 : 39107 < k ∧ k < 39394
  · rw [if_pos b10, if_pos b10]; exact hg _ (by omega)
  rw [if_neg b10, if_neg b10]
  rw [idxLoop_step _ _ _ _ _ _ _ _ _ _ _ hk (by norm_num) (by norm_num) (by norm_num) (by norm_num) (by norm_num)]
  refine if_congr Iff.rfl rfl ?_
  by_cases b11 : 39419 < k ∧ k < 189000
  · rw [if_pos b11, if_pos b11]; exact hg _ (by omega)
  rw [if_neg b11, if_neg b11]
  rw [idxLoop_last _ _ _ _ _ _ hk (by norm_num) (by norm_num) (by norm_num)]

end Verif.Gb
