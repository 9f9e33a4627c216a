import Verif.Arith.Lemmas3
/-!
# C41, C42: multi-word arithmetic

Specification: the number written by a low and a high word is `val w l h = l + 2^w*h`.
-/
namespace Verif.Arith

/-- The value of two words. -/
def val (w l h : Nat) : Nat := l + 2 ^ w * h

/-- The value of many words, least significant first. -/
def valList (w : Nat) : List Nat → Nat
  | [] => 0
  | x :: l => x + 2 ^ w * valList w l

/-! ## C41 division -/

/-- **C41.** Two words divided by one word with the quotient in one word: exact quotient and remainder, never a division by
zero inside. -/
theorem c41_big_by_small (h u1 u0 v : Nat) (hh : 0 < h) (hv : v < 2 ^ (2 * h)) (hu : u1 < v) (hu0 : u0 < 2 ^ (2 * h)) :
    udivBigBySmall h u1 u0 v = some (val (2 * h) u0 u1 / v, val (2 * h) u0 u1 % v) := by
  rw [udivBigBySmall_eq h u1 u0 v hh hv hu hu0]
  unfold val
  rw [show u1 * 2 ^ (2 * h) + u0 = u0 + 2 ^ (2 * h) * u1 by ring]

example : udivBigBySmall 32 12345678901234567890 9876543210 18446744073709551557 =
    some (val 64 9876543210 12345678901234567890 / 18446744073709551557,
      val 64 9876543210 12345678901234567890 % 18446744073709551557) ∧
    12345678901234567890 < 18446744073709551557 := ⟨c41_big_by_small 32 _ _ _ (by decide) (by decide) (by decide) (by decide), by decide⟩

/-- **C41.** Two words divided by two words (`udivmod.h`): for every dividend and every divisor other than zero, with the
compiler builtins and without, the words returned are the exact quotient and remainder. -/
theorem c41_udivmod (h : Nat) (plain : Bool) (nl nh dl dh : Nat) (hh : 0 < h) (hnl : nl < 2 ^ (2 * h)) (hnh : nh < 2 ^ (2 * h))
    (hdl : dl < 2 ^ (2 * h)) (hdh : dh < 2 ^ (2 * h)) (hd : val (2 * h) dl dh ≠ 0) :
    ∃ ql qh rl rh, udivmod h plain nl nh dl dh = some (ql, qh, rl, rh) ∧
      ql < 2 ^ (2 * h) ∧ qh < 2 ^ (2 * h) ∧ rl < 2 ^ (2 * h) ∧ rh < 2 ^ (2 * h) ∧
      val (2 * h) ql qh = val (2 * h) nl nh / val (2 * h) dl dh ∧
      val (2 * h) rl rh = val (2 * h) nl nh % val (2 * h) dl dh :=
  udivmod_eq h plain nl nh dl dh hh hnl hnh hdl hdh (Nat.pos_of_ne_zero hd)

example : udivmod 32 true 5 7 9 3 = some (2, 0, 18446744073709551603, 0) := by decide +kernel
example : udivmod 32 false (2 ^ 64 - 1) (2 ^ 64 - 1) 10000000000000000000 0 =
    some (15581492618384294730, 1, 3374607431768211455, 0) := by decide +kernel

/-- **C41, violated** by the older function of the same name in `intrinsics.h` (the one that divides timestamps on targets
without `__int128`): with a one-word divisor of `10^19` the quotient of `2*10^19` comes out as 3. -/
theorem c41_old_udivmod_violated : ∃ nl nh dl dh ql qh rl rh, nl < 2 ^ 64 ∧ nh < 2 ^ 64 ∧ dl < 2 ^ 64 ∧ dh < 2 ^ 64 ∧
    val 64 dl dh ≠ 0 ∧ udivmodOld 64 nl nh dl dh = some (ql, qh, rl, rh) ∧
    val 64 ql qh ≠ val 64 nl nh / val 64 dl dh := by
  exact ⟨20000000000000000000 - 2 ^ 64, 1, 10000000000000000000, 0, 3, 0, 0, 0, by decide +kernel⟩

/-! ## C42 carries -/

/-- **C42.** Addition with carry, all three implementations: sum and carry out are exact. -/
theorem c42_addc (w a b : Nat) (cin : Bool) (hw : 0 < w) (ha : a < 2 ^ w) (hb : b < 2 ^ w) :
    (addcBuiltin w a b cin).1 + 2 ^ w * (addcBuiltin w a b cin).2.toNat = a + b + cin.toNat ∧ (addcBuiltin w a b cin).1 < 2 ^ w ∧
    addcPlain w a b cin = addcBuiltin w a b cin ∧ addCarry w cin a b = ((addcBuiltin w a b cin).2, (addcBuiltin w a b cin).1) := by
  have h := carry_word w cin a b ha hb hw
  rw [addcBuiltin_eq w a b cin ha hb, addcPlain_eq w a b cin ha hb hw]
  rw [addCarry_eq w a b cin ha hb hw] at h ⊢
  exact ⟨h.1, h.2, rfl, rfl⟩

example : (addcPlain 64 (2 ^ 64 - 1) 0 true) = (0, true) := by decide +kernel

theorem sub_word (w a b : Nat) (cin : Bool) (hw : 0 < w) (ha : a < 2 ^ w) (hb : b < 2 ^ w) :
    (subcBuiltin w a b cin).1 + b + cin.toNat = a + 2 ^ w * (subcBuiltin w a b cin).2.toNat ∧ (subcBuiltin w a b cin).1 < 2 ^ w := by
  rw [subcBuiltin_eq w a b cin ha hb]
  have hc := bool_le cin
  generalize cin.toNat = c at *
  have hp := pow_pos' w
  generalize 2 ^ w = M at *
  simp only
  refine ⟨?_, Nat.mod_lt _ hp⟩
  by_cases h : a < b + c
  · rw [show a + 2 * M - b - c = (a + M - b - c) + M by omega, Nat.add_mod_right, Nat.mod_eq_of_lt (by omega : a + M - b - c < M)]
    simp [h]; omega
  · rw [show a + 2 * M - b - c = (a - b - c) + M * 2 by omega, Nat.add_mul_mod_self_left,
      Nat.mod_eq_of_lt (by omega : a - b - c < M)]
    simp [h]; omega

/-- **C42.** Subtraction with borrow, all three implementations: difference and borrow out are exact. -/
theorem c42_subc (w a b : Nat) (cin : Bool) (hw : 0 < w) (ha : a < 2 ^ w) (hb : b < 2 ^ w) :
    (subcBuiltin w a b cin).1 + b + cin.toNat = a + 2 ^ w * (subcBuiltin w a b cin).2.toNat ∧ (subcBuiltin w a b cin).1 < 2 ^ w ∧
    subcPlain w a b cin = subcBuiltin w a b cin ∧ subBorrow w cin a b = ((subcBuiltin w a b cin).2, (subcBuiltin w a b cin).1) := by
  have h := sub_word w a b cin hw ha hb
  rw [subcBuiltin_eq w a b cin ha hb] at h ⊢
  rw [subcPlain_eq w a b cin ha hb hw, subBorrow_eq w a b cin ha hb hw]
  exact ⟨h.1, h.2, rfl, rfl⟩

example : subcPlain 64 0 (2 ^ 64 - 1) true = (0, true) := by decide +kernel

/-- **C42, violated** on 32-bit Microsoft targets: the upper half of the difference is computed from the lower half of the
minuend. -/
theorem c42_subc_msvc_violated : ∃ a b, a < 2 ^ 64 ∧ b < 2 ^ 64 ∧ subcMsvc32 a b false ≠ subcBuiltin 64 a b false :=
  ⟨2 ^ 32, 1, by decide +kernel⟩

/-- What the additions of any number of words do, one word after the other. -/
def addWords (w : Nat) : List Nat → List Nat → Bool → List Nat × Bool
  | a :: as, b :: bs, c =>
    let r := addCarry w c a b
    let t := addWords w as bs r.1
    (r.2 :: t.1, t.2)
  | _, _, c => ([], c)

/-- **C42.** Chained through the carry, the one-word additions add numbers of any length exactly. -/
theorem c42_add_words (w : Nat) (hw : 0 < w) (as : List Nat) : ∀ (bs : List Nat) (c : Bool), as.length = bs.length →
    (∀ x ∈ as, x < 2 ^ w) → (∀ x ∈ bs, x < 2 ^ w) →
    valList w (addWords w as bs c).1 + 2 ^ (w * as.length) * (addWords w as bs c).2.toNat =
      valList w as + valList w bs + c.toNat := by
  induction as with
  | nil => intro bs c hl _ _; cases bs with
    | nil => simp [addWords, valList]
    | cons => simp at hl
  | cons a as ih => intro bs c hl h1 h2; cases bs with
    | nil => simp at hl
    | cons b bs =>
      simp only [addWords, valList, List.length_cons]
      have h := (carry_word w c a b (h1 a (by simp)) (h2 b (by simp)) hw).1
      have i := ih bs (addCarry w c a b).1 (by simpa using hl) (fun x hx => h1 x (by simp [hx])) (fun x hx => h2 x (by simp [hx]))
      rw [show w * (as.length + 1) = w + w * as.length by ring, pow_add]
      have i2 := congrArg (2 ^ w * ·) i
      generalize valList w (addWords w as bs (addCarry w c a b).1).1 = X at *
      generalize (addWords w as bs (addCarry w c a b).1).2.toNat = Y at *
      linarith

/-- **C42.** The portable 64 by 64 bit multiplication returns the exact 128-bit product. -/
theorem c42_umul (a b : Nat) (ha : a < 2 ^ 64) (hb : b < 2 ^ 64) :
    val 64 (umul64Emulated a b).1 (umul64Emulated a b).2 = a * b ∧ (umul64Emulated a b).1 < 2 ^ 64 ∧
      umul64HighEmulated a b = a * b / 2 ^ 64 := by
  obtain ⟨h1, h2, h3⟩ := umul64_eq a b ha hb
  refine ⟨h1, h2, ?_⟩
  rw [h3, ← h1, Nat.add_mul_div_left _ _ (by decide), Nat.div_eq_of_lt h2, Nat.zero_add]

example : umul64Emulated (2 ^ 64 - 1) (2 ^ 64 - 1) = (1, 2 ^ 64 - 2) := by decide +kernel

/-! ### Sizes that must not wrap around -/

/-- **C42.** The checked sum is the sum, and the process dies exactly when it does not fit. -/
theorem c42_add_or_die (w a b : Nat) (ha : a < 2 ^ w) (hb : b < 2 ^ w) :
    addOrDie w a b = if a + b < 2 ^ w then some (a + b) else none := by
  unfold addOrDie
  simp only
  by_cases h : a + b < 2 ^ w
  · rw [Nat.mod_eq_of_lt h, if_neg (by omega), if_pos h]
  · rw [if_neg h, Nat.mod_eq_sub_mod (by omega : 2 ^ w ≤ a + b), Nat.mod_eq_of_lt (by omega : a + b - 2 ^ w < 2 ^ w),
      if_pos (by omega)]

/-- **C42.** The checked sum of any number of sizes. -/
theorem c42_add_or_die_chain (w : Nat) (l : List Nat) (hl : ∀ x ∈ l, x < 2 ^ w) :
    addOrDieChain w l = if l.sum < 2 ^ w then some l.sum else none := by
  induction l with
  | nil => simp [addOrDieChain]
  | cons a l ih =>
    have ih' := ih (fun x hx => hl x (by simp [hx]))
    cases l with
    | nil => simp [addOrDieChain, hl a (by simp)]
    | cons b l =>
      rw [addOrDieChain, ih', List.sum_cons (a := a)]
      · generalize (b :: l).sum = s at *
        by_cases h : s < 2 ^ w
        · rw [if_pos h, Option.bind_some, c42_add_or_die w a s (hl a (by simp)) h]
        · rw [if_neg h, if_neg (by omega)]; rfl
      · simp

/-- **C42.** Allocation sizes: the exact product, and death exactly when it does not fit. -/
theorem c42_allocation (w sizeofT size : Nat) (hs : 0 < sizeofT) :
    calAllocation w sizeofT size = if size * sizeofT < 2 ^ w then some (size * sizeofT) else none := by
  unfold calAllocation
  have hp := pow_pos' w
  by_cases h : size * sizeofT < 2 ^ w
  · rw [if_pos h, if_neg, Nat.mod_eq_of_lt h]
    rw [not_lt, Nat.le_div_iff_mul_le hs]; omega
  · rw [if_neg h, if_pos]
    rw [Nat.div_lt_iff_lt_mul hs]; omega

example : calAllocation 64 24 (2 ^ 60) = none ∧ calAllocation 64 24 (2 ^ 59) = some (24 * 2 ^ 59) := by decide +kernel

/-- **C42.** The checked product with the compiler builtin, and on the Microsoft compiler when the second factor is not zero. -/
theorem c42_mul_or_die_partial (w a b : Nat) (hb : 0 < b) :
    mulOrDieBuiltin w a b = (if a * b < 2 ^ w then some (a * b) else none) ∧
    mulOrDieMsvc w a b = some (if a * b < 2 ^ w then some (a * b) else none) := by
  constructor
  · unfold mulOrDieBuiltin
    by_cases h : a * b < 2 ^ w
    · rw [if_neg (by omega), if_pos h]
    · rw [if_pos (by omega), if_neg h]
  · unfold mulOrDieMsvc
    have h := c42_allocation w b a hb
    unfold calAllocation at h
    rw [if_neg (by omega)]
    rw [← h]
    split <;> rfl

/-- **C42, violated:** the Microsoft branch divides by zero when the second factor is zero, and the branch for compilers
without the builtin returns the sum instead of the product. -/
theorem c42_mul_or_die_violated : mulOrDieMsvc 64 1 0 = none ∧ mulOrDieOther 64 3 5 = some 8 ∧
    mulOrDieOther 64 (2 ^ 40) (2 ^ 40) = some (2 ^ 41) := by decide +kernel

/-- **C42.** The checked difference of signed integers: exact, and refused exactly when it does not fit. -/
theorem c42_sub_underflow (w : Nat) (a b : Int) (hw : 0 < w) (ha : -2 ^ (w - 1) ≤ a ∧ a < 2 ^ (w - 1))
    (hb : -2 ^ (w - 1) ≤ b ∧ b < 2 ^ (w - 1)) :
    subUnderflow w a b = if -2 ^ (w - 1) ≤ a - b ∧ a - b < 2 ^ (w - 1) then some (a - b) else none := by
  unfold subUnderflow
  generalize (2 : Int) ^ (w - 1) = M at *
  simp only
  by_cases h0 : 0 < b
  · simp only [h0, if_true]
    by_cases h : a < -M + b ∨ M - 1 < a
    · rw [if_pos h, if_neg (by omega)]
    · rw [if_neg h, if_pos (by omega)]
  · simp only [h0, if_false]
    by_cases h : a < -M ∨ M - 1 + b < a
    · rw [if_pos h, if_neg (by omega)]
    · rw [if_neg h, if_pos (by omega)]

example : subUnderflow 32 (-2147483648) 1 = none ∧ subUnderflow 32 (-1) (-2147483648) = some 2147483647 := by decide +kernel

end Verif.Arith
