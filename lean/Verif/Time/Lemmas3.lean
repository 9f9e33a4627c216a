import Verif.Time.Model
import Mathlib.Tactic.Ring
import Mathlib.Tactic.Linarith
import Mathlib.Tactic.NormNum
/-! Arithmetic of timestamps. -/
namespace Verif.Time

theorem S_eq : S = 10000000000000000000 := by norm_num [S]

theorem addCarry_eq (c : Bool) (a b : Nat) (ha : a < 2 ^ 64) (hb : b < 2 ^ 64) (h : c.toNat + a + b < 2 ^ 64) :
    Arith.addCarry 64 c a b = (false, c.toNat + a + b) := by
  unfold Arith.addCarry
  have h1 : c.toNat ≤ 1 := by cases c <;> simp
  norm_num at *
  rw [Nat.mod_eq_of_lt (by omega : c.toNat + a < 18446744073709551616)]
  rw [Nat.mod_eq_of_lt h]
  refine ⟨⟨by omega, by omega⟩, by omega⟩

theorem subBorrow_ge (c : Bool) (a b : Nat) (ha : a < 2 ^ 64) (hb : b < 2 ^ 64) (h : c.toNat + b ≤ a) :
    Arith.subBorrow 64 c a b = (false, a - b - c.toNat) := by
  unfold Arith.subBorrow
  have h1 : c.toNat ≤ 1 := by cases c <;> simp
  norm_num at *
  rw [show (a + 18446744073709551616 - c.toNat) % 18446744073709551616 = a - c.toNat by omega]
  rw [show (a - c.toNat + 18446744073709551616 - b) % 18446744073709551616 = a - b - c.toNat by omega]
  refine ⟨⟨by omega, by omega⟩, rfl⟩

theorem subBorrow_lt (a b : Nat) (ha : a < 2 ^ 64) (hb : b < 2 ^ 64) (h : a < b) :
    Arith.subBorrow 64 false a b = (true, a + 2 ^ 64 - b) := by
  unfold Arith.subBorrow
  norm_num at *
  rw [Nat.mod_eq_of_lt ha]
  rw [show (a + 18446744073709551616 - b) % 18446744073709551616 = a + 18446744073709551616 - b by omega]
  refine ⟨Or.inl (by omega), rfl⟩

theorem addImpl_eq (a1 a2 b1 b2 : Nat) (ha : a2 < S) (hb : b2 < S) (h : a2 + b2 < 2 ^ 64) (h1 : a1 + b1 + 1 < 2 ^ 64) :
    addImpl (a1, a2) (b1, b2) = if S ≤ a2 + b2 then (a1 + b1 + 1, a2 + b2 - S) else (a1 + b1, a2 + b2) := by
  rw [S_eq] at *
  unfold addImpl
  rw [addCarry_eq false a2 b2 (by omega) (by omega) (by simpa using h)]
  simp only [Bool.toNat_false, Nat.zero_add, S_eq]
  split_ifs with c
  · rw [addCarry_eq true a1 b1 (by omega) (by omega) (by simp; omega)]
    simp only [Bool.toNat_true, Prod.mk.injEq]
    norm_num at *
    omega
  · rw [addCarry_eq false a1 b1 (by omega) (by omega) (by simp; omega)]
    simp

theorem subImpl_eq (a1 a2 b1 b2 : Nat) (ha : a2 < S) (hb : b2 < S) (ha1 : a1 < 2 ^ 64) (h : b1 < a1 ∨ (b1 = a1 ∧ b2 ≤ a2)) :
    subImpl (a1, a2) (b1, b2) = if a2 < b2 then (a1 - b1 - 1, a2 + S - b2) else (a1 - b1, a2 - b2) := by
  rw [S_eq] at *
  unfold subImpl
  split_ifs with c
  · rw [subBorrow_lt a2 b2 (by omega) (by omega) c]
    simp only [if_true]
    rw [subBorrow_ge true a1 b1 ha1 (by omega) (by simp; omega)]
    simp only [Bool.toNat_true, Prod.mk.injEq, S_eq]
    norm_num at *
    omega
  · rw [subBorrow_ge false a2 b2 (by omega) (by omega) (by simp; omega)]
    simp only [Bool.toNat_false]
    rw [subBorrow_ge false a1 b1 ha1 (by omega) (by simp; omega)]
    simp

theorem u64_pos (x : Int) (h : 0 ≤ x ∧ x < 2 ^ 63) : u64 x = x.toNat := by
  unfold u64; norm_num at *; rw [Int.emod_eq_of_lt h.1 (by omega)]

theorem neg64_u64 (x : Int) (h : -2 ^ 63 ≤ x ∧ x < 0) : neg64 (u64 x) = (-x).toNat := by
  unfold u64 neg64; norm_num at *; omega

theorem s64_pos (x : Nat) (h : x < 2 ^ 63) : s64 x = x := by unfold s64; rw [if_pos h]

theorem s64_neg (x : Nat) (h : x ≤ 2 ^ 63) : s64 (neg64 x) = -(x : Int) := by
  unfold s64 neg64; norm_num at *; split_ifs <;> omega

/-- A representable value has one representation. -/
theorem val_inj (a b : TS) (ha : a.sub < S) (hb : b.sub < S) (h : a.val = b.val) : a = b := by
  unfold TS.val at h
  rw [S_eq] at *
  have : a.sec = b.sec ∧ a.sub = b.sub := by
    split_ifs at h <;> push_cast at h <;> omega
  cases a; cases b; simp_all

theorem add_eq (a b c : TS) (ha : a.Ok) (hb : b.Ok) (hc : c.Ok) (h : c.val = a.val + b.val)
    (hs : (a.sec < 0 ↔ b.sec < 0) → a.sub + b.sub < 2 ^ 64) : add a b = c := by
  obtain ⟨a1, a2⟩ := a
  obtain ⟨b1, b2⟩ := b
  obtain ⟨c1, c2⟩ := c
  obtain ⟨ha1, ha2, ha3⟩ := ha
  obtain ⟨hb1, hb2, hb3⟩ := hb
  obtain ⟨hc1, hc2, hc3⟩ := hc
  simp only at *
  have hSe := S_eq
  unfold add TS.val at *
  simp only at *
  by_cases sa : a1 < 0 <;> by_cases sb : b1 < 0 <;> simp only [sa, sb, if_true, if_false] at h ⊢
  · have hs' := hs (by tauto)
    rw [neg64_u64 a1 ⟨ha1, sa⟩, neg64_u64 b1 ⟨hb1, sb⟩]
    have hle : (-a1).toNat + (-b1).toNat + (if S ≤ a2 + b2 then 1 else 0) ≤ 2 ^ 63 := by
      rw [S_eq] at *; norm_num at *; split_ifs at h ⊢ <;> omega
    rw [addImpl_eq _ _ _ _ ha3 hb3 hs' (by norm_num at *; split_ifs at hle <;> omega)]
    split_ifs at hle ⊢ with d
    · simp only
      rw [s64_neg _ (by omega)]
      simp only [TS.mk.injEq]
      rw [S_eq] at *; norm_num at *; split_ifs at h <;> omega
    · simp only
      rw [s64_neg _ (by omega)]
      simp only [TS.mk.injEq]
      rw [S_eq] at *; norm_num at *; split_ifs at h <;> omega
  · rw [neg64_u64 a1 ⟨ha1, sa⟩, u64_pos b1 ⟨by omega, hb2⟩]
    norm_num at *
    split_ifs with d
    · rw [subImpl_eq _ _ _ _ hb3 ha3 (by norm_num; omega) (by omega)]
      rw [s64_pos _ (by norm_num; split_ifs <;> simp only <;> omega)]
      simp only [TS.mk.injEq]
      rw [S_eq] at *; split_ifs at h ⊢ <;> simp only <;> omega
    · rw [subImpl_eq _ _ _ _ ha3 hb3 (by norm_num; omega) (by omega)]
      rw [s64_neg _ (by norm_num; split_ifs <;> simp only <;> omega)]
      simp only [TS.mk.injEq]
      rw [S_eq] at *; split_ifs at h ⊢ <;> simp only <;> omega
  · rw [neg64_u64 b1 ⟨hb1, sb⟩, u64_pos a1 ⟨by omega, ha2⟩]
    norm_num at *
    split_ifs with d
    · rw [subImpl_eq _ _ _ _ hb3 ha3 (by norm_num; omega) (by omega)]
      rw [s64_neg _ (by norm_num; split_ifs <;> simp only <;> omega)]
      simp only [TS.mk.injEq]
      rw [S_eq] at *; split_ifs at h ⊢ <;> simp only <;> omega
    · rw [subImpl_eq _ _ _ _ ha3 hb3 (by norm_num; omega) (by omega)]
      rw [s64_pos _ (by norm_num; split_ifs <;> simp only <;> omega)]
      simp only [TS.mk.injEq]
      rw [S_eq] at *; split_ifs at h ⊢ <;> simp only <;> omega
  · have hs' := hs (by tauto)
    rw [u64_pos a1 ⟨by omega, ha2⟩, u64_pos b1 ⟨by omega, hb2⟩]
    have hle : a1.toNat + b1.toNat + (if S ≤ a2 + b2 then 1 else 0) < 2 ^ 63 := by
      rw [S_eq] at *; norm_num at *; split_ifs at h ⊢ <;> omega
    rw [addImpl_eq _ _ _ _ ha3 hb3 hs' (by norm_num at *; split_ifs at hle <;> omega)]
    split_ifs at hle ⊢ with d
    · simp only
      rw [s64_pos _ (by omega)]
      simp only [TS.mk.injEq]
      rw [S_eq] at *; norm_num at *; split_ifs at h <;> omega
    · simp only
      rw [s64_pos _ (by omega)]
      simp only [TS.mk.injEq]
      rw [S_eq] at *; norm_num at *; split_ifs at h <;> omega

theorem neg_val (a : TS) (ha : a.Ok) (h : a.sec ≠ 0 ∨ a.sub = 0) (h2 : a.sec ≠ -2 ^ 63) :
    (neg a).Ok ∧ (neg a).val = -a.val ∧ neg a = { sec := -a.sec, sub := a.sub } := by
  obtain ⟨h3, h4, h5⟩ := ha
  have e : neg a = { sec := -a.sec, sub := a.sub } := by
    unfold neg s64 neg64 u64
    norm_num at *
    split_ifs <;> omega
  refine ⟨?_, ?_, e⟩
  · rw [e]; refine ⟨?_, ?_, h5⟩ <;> norm_num at * <;> omega
  · rw [e]; unfold TS.val; simp only; rw [S_eq] at *; split_ifs <;> push_cast <;> omega

theorem cmp_eq (a b : TS) (ha : a.Ok) (hb : b.Ok) : cmpTS a b = compare a.val b.val := by
  obtain ⟨_, _, h5⟩ := ha
  obtain ⟨_, _, h6⟩ := hb
  rw [S_eq] at *
  unfold cmpTS
  have k : ∀ x y : Int, compare x y = if x < y then .lt else if x = y then .eq else .gt := fun x y => rfl
  have k2 : ∀ x y : Nat, compare x y = if x < y then .lt else if x = y then .eq else .gt := fun x y => rfl
  simp only [k, k2]
  unfold TS.val
  rw [S_eq]
  push_cast
  by_cases e : a.sec = b.sec
  · simp only [e, lt_irrefl, if_false, if_true]
    split_ifs <;> first | rfl | omega
  · simp only [e, if_false]
    by_cases l : a.sec < b.sec
    · simp only [l, if_true]
      rw [if_neg (by simp), if_pos (by split_ifs <;> omega)]
    · simp only [l, if_false]
      rw [if_neg (by simp), if_neg (by split_ifs <;> omega), if_neg (by split_ifs <;> omega)]

theorem div_eq (a : TS) (ha : a.Ok) (d : Nat) (hd : 0 < d) (hd2 : d < 2 ^ 64) :
    ∃ q : Nat, (2 * (d * q) ≤ 2 * a.val.natAbs + d + 1 ∧ 2 * a.val.natAbs ≤ 2 * (d * q) + d + 1) ∧
      (d % 2 = 0 → (2 * (d * q) ≤ 2 * a.val.natAbs + d ∧ 2 * a.val.natAbs ≤ 2 * (d * q) + d) ∧
        (2 * (d * q) = 2 * a.val.natAbs + d ∨ 2 * a.val.natAbs = 2 * (d * q) + d → q % 2 = 0)) ∧
      divUint a d = some { sec := s64 (if a.sec < 0 then neg64 (q / S % 2 ^ 64) else q / S % 2 ^ 64), sub := q % S } := by
  obtain ⟨h1, h2, h3⟩ := ha
  unfold divUint
  rw [if_neg (by omega)]
  have htot : ((if decide (a.sec < 0) = true then neg64 (u64 a.sec) else u64 a.sec) * S + a.sub) % 2 ^ 128 = a.val.natAbs := by
    unfold TS.val
    have hSe := S_eq
    by_cases c : a.sec < 0
    · simp only [c, decide_true, if_true]
      rw [neg64_u64 _ ⟨h1, c⟩, hSe]
      rw [hSe] at h3
      norm_num at *
      omega
    · simp only [c, decide_false, if_false]
      rw [if_neg (by simp), u64_pos _ ⟨by omega, h2⟩, hSe]
      rw [hSe] at h3
      norm_num at *
      omega
  have hN : a.val.natAbs ≤ 2 ^ 63 * S + S := by
    unfold TS.val; rw [S_eq] at *; norm_num at *; split_ifs <;> omega
  simp only
  rw [htot]
  generalize a.val.natAbs = N at *
  have hdm := Nat.div_add_mod N d
  have hml := Nat.mod_lt N hd
  have hq : N / d ≤ N := Nat.div_le_self N d
  rw [Nat.mod_eq_of_lt (by omega : N % d < 2 ^ 64)]
  have hSe := S_eq
  have hq2 : N / d + 1 < 2 ^ 128 := by rw [hSe] at hN; norm_num at *; omega
  rw [Nat.mod_eq_of_lt hq2]
  refine ⟨if d / 2 < N % d then N / d + 1 else if d / 2 = N % d then (if N / d % 2 = 1 then N / d + 1 else N / d) else N / d, ?_, ?_, ?_⟩
  · generalize N / d = q at *
    have he : d * (q + 1) = d * q + d := by ring
    split_ifs <;> (try rw [he]) <;> generalize d * q = dq at * <;> omega
  · intro hev
    generalize N / d = q at *
    have he : d * (q + 1) = d * q + d := by ring
    split_ifs <;> (try rw [he]) <;> generalize d * q = dq at * <;> omega
  · have hm : ∀ x : Nat, x % S % 2 ^ 64 = x % S := fun x => Nat.mod_eq_of_lt (by rw [hSe]; norm_num; omega)
    simp only [hm, decide_eq_true_eq]

end Verif.Time
