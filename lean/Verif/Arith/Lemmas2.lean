import Verif.Arith.Lemmas
/-! Multiplication and division. -/
namespace Verif.Arith

theorem umul32_eq (a b : Nat) (ha : a < 2 ^ 32) (hb : b < 2 ^ 32) : (umul32 a b).1 + 2 ^ 32 * (umul32 a b).2 = a * b ∧
    (umul32 a b).1 < 2 ^ 32 ∧ (umul32 a b).2 < 2 ^ 32 := by
  have h : a * b < 2 ^ 64 := by
    calc a * b < 2 ^ 32 * 2 ^ 32 := Nat.mul_lt_mul'' ha hb
      _ = 2 ^ 64 := by norm_num
  unfold umul32
  simp only
  rw [Nat.mod_eq_of_lt h]
  generalize a * b = v at *
  omega

theorem shl_or (low high k : Nat) (hl : low < 2 ^ k) : high <<< k ||| low = low + 2 ^ k * high := by
  rw [Nat.shiftLeft_eq, Nat.mul_comm, ← Nat.two_pow_add_eq_or_of_lt hl, Nat.add_comm]

theorem mul_or (low high k : Nat) (hl : low < 2 ^ k) : high * 2 ^ k ||| low = low + 2 ^ k * high := by
  rw [← shl_or low high k hl, Nat.shiftLeft_eq]

theorem carry_word (w : Nat) (c : Bool) (a b : Nat) (ha : a < 2 ^ w) (hb : b < 2 ^ w) (hw : 0 < w) :
    (addCarry w c a b).2 + 2 ^ w * (addCarry w c a b).1.toNat = a + b + c.toNat ∧ (addCarry w c a b).2 < 2 ^ w := by
  rw [addCarry_eq w a b c ha hb hw]
  have hc := bool_le c
  generalize c.toNat = c at *
  have hp := pow_pos' w
  generalize 2 ^ w = M at *
  simp only
  by_cases h : M ≤ a + b + c
  · rw [Nat.mod_eq_sub_mod h, Nat.mod_eq_of_lt (by omega : a + b + c - M < M)]
    simp [h]
    omega
  · rw [Nat.mod_eq_of_lt (by omega : a + b + c < M)]
    simp [h]
    omega

set_option maxHeartbeats 1000000 in
theorem umul64_eq (a b : Nat) (ha : a < 2 ^ 64) (hb : b < 2 ^ 64) :
    (umul64Emulated a b).1 + 2 ^ 64 * (umul64Emulated a b).2 = a * b ∧ (umul64Emulated a b).1 < 2 ^ 64 ∧
      umul64HighEmulated a b = (umul64Emulated a b).2 := by
  suffices h : (umul64Emulated a b).1 + 2 ^ 64 * (umul64Emulated a b).2 = a * b ∧ (umul64Emulated a b).1 < 2 ^ 64 from
    ⟨h.1, h.2, rfl⟩
  have hab : a * b < 2 ^ 64 * 2 ^ 64 := Nat.mul_lt_mul'' ha hb
  have e : a * b = (a % 2 ^ 32) * (b % 2 ^ 32) + 2 ^ 32 * ((a % 2 ^ 32) * (b / 2 ^ 32) + (a / 2 ^ 32) * (b % 2 ^ 32)) +
      2 ^ 64 * ((a / 2 ^ 32) * (b / 2 ^ 32)) := by
    conv_lhs => rw [← Nat.mod_add_div a (2 ^ 32), ← Nat.mod_add_div b (2 ^ 32)]
    ring
  unfold umul64Emulated unpack64
  simp only
  have ha0 : a % 2 ^ 32 < 2 ^ 32 := Nat.mod_lt _ (by decide)
  have hb0 : b % 2 ^ 32 < 2 ^ 32 := Nat.mod_lt _ (by decide)
  have ha1 : a / 2 ^ 32 < 2 ^ 32 := by omega
  have hb1 : b / 2 ^ 32 < 2 ^ 32 := by omega
  generalize a % 2 ^ 32 = a0 at *
  generalize a / 2 ^ 32 = a1 at *
  generalize b % 2 ^ 32 = b0 at *
  generalize b / 2 ^ 32 = b1 at *
  obtain ⟨p1, p2, p3⟩ := umul32_eq a0 b0 ha0 hb0
  obtain ⟨q1, q2, q3⟩ := umul32_eq a0 b1 ha0 hb1
  obtain ⟨r1, r2, r3⟩ := umul32_eq a1 b0 ha1 hb0
  obtain ⟨s1, s2, s3⟩ := umul32_eq a1 b1 ha1 hb1
  generalize umul32 a0 b0 = C at *
  generalize umul32 a0 b1 = D at *
  generalize umul32 a1 b0 = E at *
  generalize umul32 a1 b1 = F at *
  obtain ⟨x1, y1⟩ := carry_word 32 false C.2 D.1 p3 q2 (by decide)
  obtain ⟨x2, y2⟩ := carry_word 32 (addCarry 32 false C.2 D.1).1 D.2 F.1 q3 s2 (by decide)
  obtain ⟨x3, y3⟩ := carry_word 32 (addCarry 32 (addCarry 32 false C.2 D.1).1 D.2 F.1).1 0 F.2 (by decide) s3 (by decide)
  generalize addCarry 32 (addCarry 32 (addCarry 32 false C.2 D.1).1 D.2 F.1).1 0 F.2 = R3 at *
  generalize addCarry 32 (addCarry 32 false C.2 D.1).1 D.2 F.1 = R2 at *
  generalize addCarry 32 false C.2 D.1 = R1 at *
  obtain ⟨x4, y4⟩ := carry_word 32 false R1.2 E.1 y1 r2 (by decide)
  obtain ⟨x5, y5⟩ := carry_word 32 (addCarry 32 false R1.2 E.1).1 E.2 R2.2 r3 y2 (by decide)
  obtain ⟨x6, y6⟩ := carry_word 32 (addCarry 32 (addCarry 32 false R1.2 E.1).1 E.2 R2.2).1 0 R3.2 (by decide) y3 (by decide)
  generalize addCarry 32 (addCarry 32 (addCarry 32 false R1.2 E.1).1 E.2 R2.2).1 0 R3.2 = R6 at *
  generalize addCarry 32 (addCarry 32 false R1.2 E.1).1 E.2 R2.2 = R5 at *
  generalize addCarry 32 false R1.2 E.1 = R4 at *
  unfold pack64
  rw [shl_or _ _ _ p2, shl_or _ _ _ y5]
  simp only [Bool.toNat_false] at *
  generalize a * b = v at *
  generalize a0 * b0 = v0 at *
  generalize a0 * b1 = v1 at *
  generalize a1 * b0 = v2 at *
  generalize a1 * b1 = v3 at *
  have hC := p2
  generalize C.1 = n1 at *
  generalize C.2 = n2 at *
  generalize D.1 = n3 at *
  generalize D.2 = n4 at *
  generalize E.1 = n5 at *
  generalize E.2 = n6 at *
  generalize F.1 = n7 at *
  generalize F.2 = n8 at *
  generalize R1.1.toNat = k1 at *
  generalize R2.1.toNat = k2 at *
  generalize R3.1.toNat = k3 at *
  generalize R4.1.toNat = k4 at *
  generalize R5.1.toNat = k5 at *
  generalize R6.1.toNat = k6 at *
  generalize R1.2 = m1 at *
  generalize R2.2 = m2 at *
  generalize R3.2 = m3 at *
  generalize R4.2 = m4 at *
  generalize R5.2 = m5 at *
  generalize R6.2 = m6 at *
  clear R1 R2 R3 R4 R5 R6 C D E F
  have key : n1 + 2 ^ 32 * m4 + 2 ^ 64 * (m5 + 2 ^ 32 * m6) + 2 ^ 128 * (k3 + k6) = v := by
    norm_num at *
    linarith
  clear e p1 q1 r1 s1 x1 x2 x3 x4 x5 x6
  constructor
  · have : k3 + k6 = 0 := by
      by_contra hne
      have h1 : 2 ^ 128 * 1 ≤ 2 ^ 128 * (k3 + k6) := Nat.mul_le_mul_left _ (Nat.pos_of_ne_zero hne)
      have h2 : (2 ^ 128 : Nat) = 2 ^ 64 * 2 ^ 64 := by norm_num
      rw [← h2] at hab
      clear h2
      generalize 2 ^ 128 * (k3 + k6) = z at *
      generalize (2 ^ 128 : Nat) = M at *
      omega
    rw [this, Nat.mul_zero, Nat.add_zero] at key
    exact key
  · clear key hab ha hb
    norm_num at hC y4 ⊢
    omega

/-! ## Division of two words by one -/

theorem clz_spec (w x : Nat) (hx : 0 < x) (hw : x < 2 ^ w) : x * 2 ^ clz w x < 2 ^ w ∧ 2 ^ (w - 1) ≤ x * 2 ^ clz w x ∧
    clz w x < w := by
  unfold clz
  rw [if_neg (by omega)]
  have h1 := Nat.pow_log_le_self 2 (x := x) (by omega)
  have h2 := Nat.lt_pow_succ_log_self (b := 2) (by decide) x
  have h3 : Nat.log 2 x < w := Nat.log_lt_of_lt_pow (by omega) hw
  generalize Nat.log 2 x = k at *
  have e1 : w - 1 = k + (w - 1 - k) := by omega
  have e2 : 2 ^ w = 2 ^ (k + 1) * 2 ^ (w - 1 - k) := by rw [← pow_add]; congr 1; omega
  refine ⟨?_, ?_, by omega⟩
  · rw [e2]; exact Nat.mul_lt_mul_of_pos_right h2 (pow_pos' _)
  · conv_lhs => rw [e1, pow_add]
    exact Nat.mul_le_mul_right _ h1

/-- The correction loop finds the digit. `U*B+u` is divided by `V=vn1*B+vn0`. -/
theorem adjust_eq (w B vn1 vn0 U u : Nat) (hB : B * B = 2 ^ w) (h1 : vn1 < B) (h0 : vn0 < B)
    (hU : U < vn1 * B + vn0) (hu : u < B) : ∀ q rhat, q * vn1 + rhat = U → rhat < B → (U * B + u) / (vn1 * B + vn0) ≤ q →
      adjust w B vn1 vn0 u q rhat = (U * B + u) / (vn1 * B + vn0) := by
  have hV : 0 < vn1 * B + vn0 := by omega
  have hdlt : (U * B + u) / (vn1 * B + vn0) < B := by
    rw [Nat.div_lt_iff_lt_mul hV]
    calc U * B + u < U * B + B := by omega
      _ = (U + 1) * B := by ring
      _ ≤ (vn1 * B + vn0) * B := Nat.mul_le_mul_right _ hU
      _ = B * (vn1 * B + vn0) := Nat.mul_comm _ _
  intro q
  induction q with
  | zero => intro rhat _ _ h; rw [adjust]; exact (Nat.le_zero.mp h).symm
  | succ q ih =>
    intro rhat he hr hq
    have hBr : B * rhat + u < 2 ^ w := by
      rw [← hB]
      calc B * rhat + u < B * rhat + B := by omega
        _ = B * (rhat + 1) := by ring
        _ ≤ B * B := Nat.mul_le_mul_left _ hr
    have key : (q + 1) * (vn1 * B + vn0) + B * rhat = U * B + (q + 1) * vn0 := by
      rw [← he]; ring
    rw [adjust]
    by_cases hc : B ≤ q + 1 ∨ (B * rhat + u) % 2 ^ w < (q + 1) * vn0 % 2 ^ w
    · rw [if_pos hc]
      have hlt : (U * B + u) / (vn1 * B + vn0) < q + 1 := by
        by_cases hq1 : B ≤ q + 1
        · omega
        · have h2 := hc.resolve_left hq1
          rw [Nat.mod_eq_of_lt hBr] at h2
          have h3 : (q + 1) * vn0 < 2 ^ w := by
            rw [← hB]; exact Nat.mul_lt_mul'' (by omega) h0
          rw [Nat.mod_eq_of_lt h3] at h2
          rw [Nat.div_lt_iff_lt_mul hV]
          omega
      have he' : q * vn1 + (rhat + vn1) = U := by rw [← he]; ring
      have hlt2 : rhat + vn1 < 2 ^ w := by
        have hB2 : 2 ≤ B := by
          by_contra hcon
          have : B = 1 := by omega
          subst this
          omega
        calc rhat + vn1 < B + B := by omega
          _ = 2 * B := by ring
          _ ≤ B * B := Nat.mul_le_mul_right _ hB2
          _ = 2 ^ w := hB
      simp only
      rw [Nat.mod_eq_of_lt hlt2]
      by_cases hb : B ≤ rhat + vn1
      · rw [if_pos hb]
        -- q is exact
        apply le_antisymm _ (by omega)
        rw [Nat.le_div_iff_mul_le hV]
        have hqB : q * vn0 ≤ B * (rhat + vn1) := by
          have hq' : q ≤ B := by
            by_contra hcon
            have : B * vn1 ≤ q * vn1 := Nat.mul_le_mul_right _ (by omega)
            have e2 : vn1 * B = B * vn1 := Nat.mul_comm _ _
            omega
          calc q * vn0 ≤ B * B := Nat.mul_le_mul hq' (by omega)
            _ ≤ B * (rhat + vn1) := Nat.mul_le_mul_left _ hb
        have key2 : q * (vn1 * B + vn0) + B * (rhat + vn1) = U * B + q * vn0 := by
          rw [← he']; ring
        omega
      · rw [if_neg hb]
        exact ih _ he' (by omega) (by omega)
    · rw [if_neg hc]
      have hn1 : ¬ B ≤ q + 1 := fun h => hc (Or.inl h)
      have hn2 : ¬ (B * rhat + u) % 2 ^ w < (q + 1) * vn0 % 2 ^ w := fun h => hc (Or.inr h)
      rw [Nat.mod_eq_of_lt hBr] at hn2
      have h3 : (q + 1) * vn0 < 2 ^ w := by
        rw [← hB]; exact Nat.mul_lt_mul'' (by omega) h0
      rw [Nat.mod_eq_of_lt h3] at hn2
      apply le_antisymm _ hq
      rw [Nat.le_div_iff_mul_le hV]
      omega

theorem qhat_ge (B vn1 vn0 U u : Nat) (h1 : 0 < vn1) (hu : u < B) : (U * B + u) / (vn1 * B + vn0) ≤ U / vn1 := by
  have hB : 0 < B := by omega
  rw [Nat.le_div_iff_mul_le h1]
  have h := Nat.div_mul_le_self (U * B + u) (vn1 * B + vn0)
  generalize (U * B + u) / (vn1 * B + vn0) = t at *
  have h2 : t * vn1 * B < (U + 1) * B := by
    calc t * vn1 * B ≤ t * (vn1 * B + vn0) := by rw [Nat.mul_add, Nat.mul_assoc]; omega
      _ ≤ U * B + u := h
      _ < (U + 1) * B := by rw [Nat.add_mul]; omega
  have := Nat.lt_of_mul_lt_mul_right h2
  omega

/-- One digit: quotient digit and remainder. -/
theorem digit_eq (w B V U u : Nat) (hB : B * B = 2 ^ w) (hV : V < 2 ^ w) (hn : B ≤ 2 * (V / B)) (hU : U < V) (hu : u < B) :
    let q := adjust w B (V / B) (V % B) u (U / (V / B)) ((U + 2 ^ w - U / (V / B) * (V / B) % 2 ^ w) % 2 ^ w)
    q = (U * B + u) / V ∧ q < B ∧ (U * B + u + 2 ^ w - q * V % 2 ^ w) % 2 ^ w = (U * B + u) % V := by
  intro q
  have hB0 : 0 < B := by omega
  have h1 : V / B < B := by rw [Nat.div_lt_iff_lt_mul hB0, hB]; exact hV
  have h1p : 0 < V / B := by omega
  have h0 : V % B < B := Nat.mod_lt _ hB0
  have eV : V / B * B + V % B = V := by rw [Nat.mul_comm]; exact Nat.div_add_mod V B
  have hq0 : U / (V / B) * (V / B) ≤ U := Nat.div_mul_le_self _ _
  have hr : (U + 2 ^ w - U / (V / B) * (V / B) % 2 ^ w) % 2 ^ w = U % (V / B) := by
    rw [Nat.mod_eq_of_lt (by omega : U / (V / B) * (V / B) < 2 ^ w),
      show U + 2 ^ w - U / (V / B) * (V / B) = (U - U / (V / B) * (V / B)) + 2 ^ w by omega, Nat.add_mod_right,
      Nat.mod_eq_of_lt (by omega)]
    rw [Nat.mul_comm, ← Nat.mod_eq_sub_mul_div]
  have hq : q = (U * B + u) / V := by
    show adjust w B (V / B) (V % B) u (U / (V / B)) _ = _
    rw [hr, adjust_eq w B (V / B) (V % B) U u hB h1 h0 (by rw [eV]; exact hU) hu _ _ (Nat.div_add_mod' U _)
      (lt_trans (Nat.mod_lt _ h1p) h1) (qhat_ge B _ _ U u h1p hu), eV]
  have hVp : 0 < V := by omega
  refine ⟨hq, ?_, ?_⟩
  · rw [hq, Nat.div_lt_iff_lt_mul hVp]
    calc U * B + u < (U + 1) * B := by rw [Nat.add_mul]; omega
      _ ≤ V * B := Nat.mul_le_mul_right _ hU
      _ = B * V := Nat.mul_comm _ _
  · rw [hq]
    have hm : (U * B + u) / V * V % 2 ^ w < 2 ^ w := Nat.mod_lt _ (pow_pos' w)
    have hd := Nat.div_add_mod' (U * B + u) V
    have hlt : (U * B + u) % V < 2 ^ w := lt_trans (Nat.mod_lt _ hVp) hV
    generalize (U * B + u) / V * V = t at *
    conv_lhs => rw [← hd]
    have e : t + (U * B + u) % V + 2 ^ w - t % 2 ^ w = (U * B + u) % V + 2 ^ w * (t / 2 ^ w + 1) := by
      have := Nat.mod_add_div t (2 ^ w)
      rw [Nat.mul_add, Nat.mul_one]
      omega
    rw [e, Nat.add_mul_mod_self_left, Nat.mod_eq_of_lt hlt]

/-- Two words by one word, quotient in one word. -/
theorem udivBigBySmall_eq (h u1 u0 v : Nat) (hh : 0 < h) (hv : v < 2 ^ (2 * h)) (hu : u1 < v) (hu0 : u0 < 2 ^ (2 * h)) :
    udivBigBySmall h u1 u0 v = some ((u1 * 2 ^ (2 * h) + u0) / v, (u1 * 2 ^ (2 * h) + u0) % v) := by
  obtain ⟨c1, c2, c3⟩ := clz_spec (2 * h) v (by omega) hv
  have hB : 2 ^ h * 2 ^ h = 2 ^ (2 * h) := by rw [← pow_add]; congr 1; omega
  generalize hs : clz (2 * h) v = s at *
  -- the normalised operands
  have eV : (if s ≠ 0 then v * 2 ^ s % 2 ^ (2 * h) else v) = v * 2 ^ s := by
    by_cases h0 : s = 0
    · subst h0; simp
    · rw [if_pos h0, Nat.mod_eq_of_lt c1]
  have hpw : 2 ^ (2 * h) = 2 ^ (2 * h - s) * 2 ^ s := by rw [← pow_add]; congr 1; omega
  have hu1s : u1 * 2 ^ s < 2 ^ (2 * h) := lt_of_le_of_lt (Nat.mul_le_mul_right _ (by omega : u1 ≤ v)) c1
  have hdv : u0 / 2 ^ (2 * h - s) < 2 ^ s := by
    rw [Nat.div_lt_iff_lt_mul (pow_pos' _), Nat.mul_comm, ← hpw]; exact hu0
  have eU : (if s ≠ 0 then (u1 * 2 ^ s % 2 ^ (2 * h)) ||| (u0 / 2 ^ (2 * h - s)) else u1) =
      u1 * 2 ^ s + u0 / 2 ^ (2 * h - s) := by
    by_cases h0 : s = 0
    · subst h0
      simp [Nat.div_eq_of_lt hu0]
    · rw [if_pos h0, Nat.mod_eq_of_lt hu1s, mul_or _ _ _ hdv]; ring
  have eL : (if s ≠ 0 then u0 * 2 ^ s % 2 ^ (2 * h) else u0) = u0 % 2 ^ (2 * h - s) * 2 ^ s := by
    by_cases h0 : s = 0
    · subst h0; simp [Nat.mod_eq_of_lt hu0]
    · rw [if_pos h0, hpw, Nat.mul_mod_mul_right]
  unfold udivBigBySmall
  simp only [hs]
  rw [eV, eU, eL]
  -- names
  have hUV : u1 * 2 ^ s + u0 / 2 ^ (2 * h - s) < v * 2 ^ s := by
    calc _ < u1 * 2 ^ s + 2 ^ s := by omega
      _ = (u1 + 1) * 2 ^ s := by ring
      _ ≤ v * 2 ^ s := Nat.mul_le_mul_right _ hu
  have hN : (u1 * 2 ^ s + u0 / 2 ^ (2 * h - s)) * 2 ^ (2 * h) + u0 % 2 ^ (2 * h - s) * 2 ^ s =
      (u1 * 2 ^ (2 * h) + u0) * 2 ^ s := by
    have := Nat.mod_add_div u0 (2 ^ (2 * h - s))
    conv_rhs => rw [← this]
    generalize u0 / 2 ^ (2 * h - s) = x at *
    generalize u0 % 2 ^ (2 * h - s) = y at *
    rw [hpw]; ring
  have hLlt : u0 % 2 ^ (2 * h - s) * 2 ^ s < 2 ^ (2 * h) := by
    rw [hpw]; exact Nat.mul_lt_mul_of_pos_right (Nat.mod_lt _ (pow_pos' _)) (pow_pos' _)
  have hsp : 0 < 2 ^ s := pow_pos' s
  rw [← Nat.mul_div_mul_right _ v hsp, ← hN]
  have hrem : (u1 * 2 ^ (2 * h) + u0) % v = ((u1 * 2 ^ (2 * h) + u0) * 2 ^ s) % (v * 2 ^ s) / 2 ^ s := by
    rw [Nat.mul_mod_mul_right, Nat.mul_div_cancel _ hsp]
  rw [hrem, ← hN]
  generalize u1 * 2 ^ s + u0 / 2 ^ (2 * h - s) = U at *
  generalize u0 % 2 ^ (2 * h - s) * 2 ^ s = L at *
  generalize v * 2 ^ s = V at *
  have hBp : 0 < 2 ^ h := pow_pos' h
  have hnorm : 2 ^ h ≤ 2 * (V / 2 ^ h) := by
    have e : 2 ^ h = 2 * 2 ^ (h - 1) := by rw [← pow_succ']; congr 1; omega
    have : 2 ^ (h - 1) ≤ V / 2 ^ h := by
      rw [Nat.le_div_iff_mul_le hBp, ← pow_add]
      refine le_trans (Nat.pow_le_pow_right (by decide) ?_) c2
      omega
    omega
  have hL1 : L / 2 ^ h < 2 ^ h := by rw [Nat.div_lt_iff_lt_mul hBp, hB]; exact hLlt
  have hL0 : L % 2 ^ h < 2 ^ h := Nat.mod_lt _ hBp
  rw [if_neg (by omega)]
  obtain ⟨d1, d2, d3⟩ := digit_eq (2 * h) (2 ^ h) V U (L / 2 ^ h) hB c1 hnorm hUV hL1
  rw [d3, d1]
  rw [d1] at d2
  have hRV : (U * 2 ^ h + L / 2 ^ h) % V < V := Nat.mod_lt _ (by omega)
  obtain ⟨f1, f2, f3⟩ := digit_eq (2 * h) (2 ^ h) V ((U * 2 ^ h + L / 2 ^ h) % V) (L % 2 ^ h) hB c1 hnorm hRV hL0
  rw [f3, f1]
  rw [f1] at f2
  have hdm := Nat.div_add_mod' (U * 2 ^ h + L / 2 ^ h) V
  have hdm2 := Nat.div_add_mod' ((U * 2 ^ h + L / 2 ^ h) % V * 2 ^ h + L % 2 ^ h) V
  have hr2 : ((U * 2 ^ h + L / 2 ^ h) % V * 2 ^ h + L % 2 ^ h) % V < V := Nat.mod_lt _ (by omega)
  have eN : U * 2 ^ (2 * h) + L = (U * 2 ^ h + L / 2 ^ h) * 2 ^ h + L % 2 ^ h := by
    have := Nat.div_add_mod' L (2 ^ h)
    rw [← hB, Nat.add_mul]
    conv_lhs => rw [← this]
    ring
  generalize (U * 2 ^ h + L / 2 ^ h) / V = q1 at *
  generalize ((U * 2 ^ h + L / 2 ^ h) % V * 2 ^ h + L % 2 ^ h) / V = q0 at *
  generalize ((U * 2 ^ h + L / 2 ^ h) % V * 2 ^ h + L % 2 ^ h) % V = r at *
  have eN2 : U * 2 ^ (2 * h) + L = r + V * (q1 * 2 ^ h + q0) := by
    rw [eN, ← hdm, Nat.add_mul, Nat.add_assoc, ← hdm2]; ring
  have hVp : 0 < V := by omega
  rw [eN2, Nat.add_mul_div_left _ _ hVp, Nat.add_mul_mod_self_left, Nat.div_eq_of_lt hr2, Nat.mod_eq_of_lt hr2, Nat.zero_add,
    Nat.mod_eq_of_lt]
  calc q1 * 2 ^ h + q0 < q1 * 2 ^ h + 2 ^ h := by omega
    _ = (q1 + 1) * 2 ^ h := by ring
    _ ≤ 2 ^ h * 2 ^ h := Nat.mul_le_mul_right _ d2
    _ = 2 ^ (2 * h) := hB

end Verif.Arith
