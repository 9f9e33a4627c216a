import Verif.IntPrint.Lemmas
/-! Lengths, the generic base writer and exact-size printing. -/
namespace Verif.IntPrint
open Verif

theorem numeral_length_eq {b : Nat} (hb : 2 ≤ b) (L n : Nat) (hL : 0 < L) (h1 : n < b ^ L)
    (h2 : L = 1 ∨ b ^ (L - 1) ≤ n) : (numeral b n).length = L := by
  obtain ⟨k, rfl⟩ : ∃ k, L = k + 1 := ⟨L - 1, by omega⟩
  rw [numeral_eq_padded hb k n h1 (by
    rcases h2 with h | h
    · left; omega
    · right; simpa using h)]
  simp

theorem chainLen10_eq (top n : Nat) (ht : 0 < top) (hn : n < 10 ^ top) :
    chainLen10 top n = (numeral 10 n).length := by
  induction top with
  | zero => omega
  | succ k ih =>
    cases k with
    | zero => simp [chainLen10, numeral_length_eq (b := 10) (by omega) 1 n (by omega) hn (Or.inl rfl)]
    | succ k =>
      rw [chainLen10]
      split
      · rename_i h
        exact (numeral_length_eq (by omega) (k + 2) n (by omega) hn (Or.inr (by simpa using h))).symm
      · exact ih (by omega) (by omega)

theorem or_one (n : Nat) : n ||| 1 = if n % 2 = 0 then n + 1 else n := by
  apply Nat.eq_of_testBit_eq
  intro i
  rw [Nat.testBit_or]
  cases i with
  | zero => split <;> simp [Nat.testBit_zero] <;> omega
  | succ i =>
    have : Nat.testBit 1 (i + 1) = false := by simp [Nat.testBit_succ]
    rw [this, Bool.or_false]
    split
    · rw [Nat.testBit_succ, Nat.testBit_succ]; congr 1; omega
    · rfl

/-- Length of a numeral in base `2^k` from the bit length. -/
theorem pow2_length (k n l : Nat) (hk : 0 < k) (h1 : 2 ^ l ≤ n ||| 1) (h2 : n ||| 1 < 2 ^ (l + 1)) :
    (numeral (2 ^ k) n).length = l / k + 1 := by
  have hb : 2 ≤ 2 ^ k := by
    calc 2 = 2 ^ 1 := rfl
      _ ≤ 2 ^ k := Nat.pow_le_pow_right (by omega) hk
  have hle : n ≤ n ||| 1 := by rw [or_one]; split <;> omega
  apply numeral_length_eq hb _ _ (show 0 < l / k + 1 from Nat.succ_pos _)
  · rw [← pow_mul]
    refine lt_of_lt_of_le (lt_of_le_of_lt hle h2) (Nat.pow_le_pow_right (by omega) ?_)
    have := Nat.div_add_mod l k
    have := Nat.mod_lt l hk
    rw [Nat.mul_add]; omega
  · rcases Nat.eq_zero_or_pos (l / k) with h | h
    · left; omega
    · right
      rw [Nat.add_sub_cancel, ← pow_mul]
      have hkl : k * (l / k) ≤ l := Nat.mul_div_le l k
      have hpos : 0 < k * (l / k) := Nat.mul_pos hk h
      have h3 : 2 ^ (k * (l / k)) ≤ n ||| 1 := le_trans (Nat.pow_le_pow_right (by omega) hkl) h1
      have heven : 2 ^ (k * (l / k)) % 2 = 0 := by
        obtain ⟨j, hj⟩ : ∃ j, k * (l / k) = j + 1 := ⟨k * (l / k) - 1, by omega⟩
        rw [hj, pow_succ]; omega
      rw [or_one] at h3
      split at h3 <;> omega

theorem bitLen_spec (x : Nat) (hx : x ≠ 0) :
    2 ^ (bitLen x - 1) ≤ x ∧ x < 2 ^ (bitLen x - 1 + 1) := by
  simp only [bitLen, hx, if_false, Nat.add_sub_cancel]
  exact ⟨Nat.log2_self_le hx, Nat.lt_log2_self⟩

theorem charsLenLoop_eq {base : Nat} (hb : 2 ≤ base) (n v : Nat) :
    charsLenLoop base n v + 1 = n + (numeral base v).length := by
  fun_induction charsLenLoop base n v with
  | case1 n v h => rw [numeral_length_eq hb 1 v (by omega) (by simpa using h) (Or.inl rfl)]
  | case2 n v h1 h =>
    rw [numeral_length_eq hb 2 v (by omega) h (Or.inr (by simp; omega))]
  | case3 n v h1 h2 h =>
    rw [numeral_length_eq hb 3 v (by omega) h (Or.inr (by simp; omega))]
  | case4 n v h1 h2 h3 h =>
    have h : v < base ^ 4 := by
      rcases h with h | h
      · exact h
      · omega
    rw [numeral_length_eq hb 4 v (by omega) h (Or.inr (by simp; omega))]
  | case5 n v h1 h2 h3 h ih =>
    have h : base ^ 4 ≤ v := by
      by_contra hh
      exact h (Or.inl (by omega))
    rw [ih, numeral_split hb 4 v h]
    simp; omega

/-- The widths of the supported unsigned types. -/
def Width (bits : Nat) : Prop := bits = 8 ∨ bits = 16 ∨ bits = 32 ∨ bits = 64 ∨ bits = 128

theorem charsLen_eq (bits base n : Nat) (hw : Width bits) (hb : 2 ≤ base) (hn : n < 2 ^ bits) :
    charsLen bits base n = (numeral base n).length := by
  unfold charsLen
  split
  · rename_i h; subst h
    apply chainLen10_eq
    · rcases hw with h | h | h | h | h <;> subst h <;> decide
    · refine lt_trans hn ?_
      rcases hw with h | h | h | h | h <;> subst h <;> norm_num [chainTop]
  · split
    · rename_i h10 hp
      have hk : ∃ k, 0 < k ∧ base = 2 ^ k := by
        rcases hp with h | h | h | h | h <;> subst h
        · exact ⟨1, by norm_num⟩
        · exact ⟨2, by norm_num⟩
        · exact ⟨3, by norm_num⟩
        · exact ⟨4, by norm_num⟩
        · exact ⟨5, by norm_num⟩
      obtain ⟨k, hk, rfl⟩ := hk
      -- the bit length
      have hone : n ||| 1 ≠ 0 := by rw [or_one]; split <;> omega
      have hlen : (if bits = 128 then
          if n / 2 ^ 64 % 2 ^ 64 = 0 then bitLen ((n % 2 ^ 64) ||| 1) else 64 + bitLen (n / 2 ^ 64 % 2 ^ 64)
        else bitLen (n ||| 1)) = bitLen (n ||| 1) := by
        by_cases h128 : bits = 128
        · subst h128
          simp only [if_true]
          have hd : n / 2 ^ 64 < 2 ^ 64 := by
            rw [Nat.div_lt_iff_lt_mul (by norm_num)]; rw [← pow_add]; exact hn
          rw [Nat.mod_eq_of_lt hd]
          split
          · rename_i h
            have : n < 2 ^ 64 := by
              by_contra hh
              have := Nat.div_pos (Nat.le_of_not_lt hh) (by norm_num : 0 < 2 ^ 64)
              omega
            rw [Nat.mod_eq_of_lt this]
          · rename_i h
            have e : (n ||| 1) / 2 ^ 64 = n / 2 ^ 64 := by
              rw [or_one]; split <;> omega
            have h1 := bitLen_spec _ h
            have hx : n / 2 ^ 64 = (n ||| 1) / 2 ^ 64 := e.symm
            simp only [bitLen, h, hone, if_false]
            have : Nat.log2 (n ||| 1) = 64 + Nat.log2 (n / 2 ^ 64) := by
              rw [Nat.log2_eq_iff hone]
              simp only [bitLen, h, if_false, Nat.add_sub_cancel] at h1
              rw [hx] at h1 ⊢
              have hdm := Nat.div_add_mod (n ||| 1) (2 ^ 64)
              have hml := Nat.mod_lt (n ||| 1) (by norm_num : 0 < 2 ^ 64)
              generalize (n ||| 1) / 2 ^ 64 = q at *
              generalize (n ||| 1) % 2 ^ 64 = r at *
              generalize n ||| 1 = N at *
              subst hdm
              constructor
              · rw [pow_add]; nlinarith [h1.1]
              · rw [Nat.add_assoc, pow_add]
                have : q + 1 ≤ 2 ^ (q.log2 + 1) := h1.2
                nlinarith [h1.2]
            omega
        · simp [h128]
      simp only [hlen]
      have hs := bitLen_spec _ hone
      have hbl : 0 < bitLen (n ||| 1) := by simp [bitLen, hone]
      have := pow2_length k n (bitLen (n ||| 1) - 1) hk hs.1 hs.2
      rw [this]
      split
      · rename_i h2
        have : k = 1 := by
          have : 2 ^ k = 2 ^ 1 := by rw [h2]; rfl
          exact Nat.pow_right_injective (le_refl 2) this
        subst this
        simp; omega
      · rw [Nat.log2_two_pow]
    · have := charsLenLoop_eq hb 1 n
      omega

theorem countDivs_eq {base : Nat} (hb : 2 ≤ base) (n : Nat) :
    countDivs base n = if n = 0 then 0 else (numeral base n).length := by
  induction n using Nat.strongRecOn with
  | _ n ih =>
    rw [countDivs]
    by_cases h0 : n = 0
    · simp [h0]
    · have : ¬ (n = 0 ∨ base < 2) := by omega
      rw [dif_neg this, if_neg h0, ih (n / base) (Nat.div_lt_self (by omega) (by omega))]
      by_cases h : n < base
      · rw [Nat.div_eq_of_lt h, numeral_small h]; simp
      · have : n / base ≠ 0 := by
          exact Nat.pos_iff_ne_zero.mp (Nat.div_pos (by omega : base ≤ n) (by omega : 0 < base))
        rw [if_neg this, numeral_step hb (by omega : base ≤ n)]
        simp

theorem maxIntSize_eq {base : Nat} (hb : 2 ≤ base) (bits : Nat) (signed : Bool) (h : intMax bits signed ≠ 0) :
    maxIntSize bits signed base = (numeral base (intMax bits signed)).length := by
  rw [maxIntSize, countDivs_eq hb, if_neg h]

/-- Every value up to the maximum has at most as many digits. -/
theorem numeral_length_mono {b : Nat} (hb : 2 ≤ b) {m n : Nat} (h : m ≤ n) :
    (numeral b m).length ≤ (numeral b n).length := by
  have hp := numeral_length_pos b n
  rw [numeral_length_le hb _ _ hp]
  have := (numeral_length_le hb _ n hp).mp (le_refl _)
  omega

theorem intMax_ne (bits : Nat) (signed : Bool) (hw : Width bits) : intMax bits signed ≠ 0 := by
  rcases hw with h | h | h | h | h <;> subst h <;> cases signed <;> decide

theorem pairLoop_eq (base : Nat) (hb : 0 < base) (upper : Bool) (i : Nat) (m : Mem) (q t : Nat) :
    pairLoop (digitsTable base upper) (base * base) i m (q + 2 * i) t =
      some (store m q ((padded base (2 * i) t).map (digitChar upper)), q, t / base ^ (2 * i)) := by
  induction i generalizing m t with
  | zero => simp [pairLoop, padded]
  | succ i ih =>
    have hlt : t % (base * base) < base * base := Nat.mod_lt _ (Nat.mul_pos hb hb)
    have e : q + 2 * (i + 1) - 2 = q + 2 * i := by omega
    simp only [pairLoop, e]
    rw [copyPair_eq base upper _ _ _ hlt]
    simp only [Option.bind_eq_bind, Option.bind_some]
    rw [ih, store_store_before _ _ _ _ _ (by simp), ← List.map_append]
    have e2 : 2 * (i + 1) = 2 * i + 2 := by ring
    rw [e2, padded_add base hb (2 * i) 2 t]
    have : base ^ 2 = base * base := by ring
    rw [this, Nat.div_div_eq_div_mul, pow_add, this, Nat.mul_comm (base ^ (2 * i))]

/-- The generic writer stores the zero-padded digits directly in front of `iter`. -/
theorem genWord_eq (base : Nat) (hb : 2 ≤ base) (upper : Bool) (m : Mem) (p t len : Nat)
    (ht : t < base ^ len) :
    genWord base upper m (p + len) t len =
      some (store m p ((padded base len t).map (digitChar upper))) := by
  simp only [genWord]
  have hpar : len % 2 = 0 ∨ len % 2 = 1 := by omega
  rcases hpar with h | h
  · have e : p + len = p + 2 * (len / 2) := by omega
    have e2 : 2 * (len / 2) = len := by omega
    rw [e, pairLoop_eq base (by omega)]
    simp [h, e2]
  · have e : p + len = p + 1 + 2 * (len / 2) := by omega
    have e2 : len = 1 + 2 * (len / 2) := by omega
    rw [e, pairLoop_eq base (by omega)]
    simp only [Option.bind_eq_bind, Option.bind_some, h, if_true, Nat.add_sub_cancel]
    have hq : t / base ^ (2 * (len / 2)) < base := by
      rw [Nat.div_lt_iff_lt_mul (Nat.pow_pos (by omega))]
      calc t < base ^ len := ht
        _ = base * base ^ (2 * (len / 2)) := by
          conv => lhs; rw [e2]
          rw [pow_add, pow_one]
    have fin : store (store m (p + 1) ((padded base (2 * (len / 2)) t).map (digitChar upper))) p
        [digitChar upper (t / base ^ (2 * (len / 2)))] =
        store m p ((padded base len t).map (digitChar upper)) := by
      rw [store_store_before _ _ _ _ _ (by simp)]
      conv => rhs; rw [e2, padded_add base (by omega) 1 _ t]
      rw [padded_mod base (by omega)]
      simp [padded, Nat.mod_eq_of_lt hq]
    split
    · rename_i h10
      have : digitChar upper (t / base ^ (2 * (len / 2))) = 48 + t / base ^ (2 * (len / 2)) := by
        rw [digitChar, if_pos (by omega)]
      rw [← fin, this]; rfl
    · rename_i h10
      have hsq : t / base ^ (2 * (len / 2)) < base * base := by nlinarith
      rw [digitsTable_get base upper _ 1 hsq (by omega)]
      simp only [Option.bind_some, Nat.mod_eq_of_lt hq]
      rw [← fin]; rfl

/-- Number of digits of a full 64-bit word. -/
theorem maxIntSize64 (k : Nat) (hk : k = 1 ∨ k = 2 ∨ k = 4) : maxIntSize 64 false (2 ^ k) = 64 / k := by
  rw [maxIntSize_eq (by rcases hk with h | h | h <;> subst h <;> decide) _ _ (by decide)]
  apply numeral_length_eq
  · rcases hk with h | h | h <;> subst h <;> decide
  · rcases hk with h | h | h <;> subst h <;> decide
  · rcases hk with h | h | h <;> subst h <;> norm_num [intMax]
  · rcases hk with h | h | h <;> subst h <;> norm_num [intMax]

theorem gen128Pow_eq (k : Nat) (hk : k = 1 ∨ k = 2 ∨ k = 4) (m : Mem) (p t len : Nat)
    (ht : t < (2 ^ k) ^ len) (hlen : t < 2 ^ 128) :
    gen128Pow (2 ^ k) m (p + len) t len =
      some (store m p ((padded (2 ^ k) len t).map (digitChar false))) := by
  have hb : 2 ≤ 2 ^ k := by rcases hk with h | h | h <;> subst h <;> decide
  have hs := maxIntSize64 k hk
  have hpow : (2 ^ k) ^ (64 / k) = 2 ^ 64 := by
    rcases hk with h | h | h <;> subst h <;> norm_num
  simp only [gen128Pow, hs]
  split
  · rename_i hgt
    have e1 : p + len - 64 / k = p + (len - 64 / k) := by omega
    have hhigh : t / 2 ^ 64 < (2 ^ k) ^ (len - 64 / k) := by
      rw [Nat.div_lt_iff_lt_mul (by norm_num), ← hpow, ← pow_add]
      have : len - 64 / k + 64 / k = len := by omega
      rw [this]; exact ht
    rw [e1, genWord_eq _ hb _ _ _ _ _ hhigh]
    simp only [Option.bind_eq_bind, Option.bind_some]
    have e2 : p + len = p + (len - 64 / k) + 64 / k := by omega
    rw [e2, genWord_eq _ hb _ _ _ _ _ (by rw [hpow]; exact Nat.mod_lt _ (by norm_num))]
    rw [store_store_at _ _ _ _ _ (by simp), ← List.map_append]
    conv => rhs; rw [show len = (len - 64 / k) + 64 / k by omega, padded_add _ (by omega)]
    rw [hpow]
  · rename_i hle
    have : t < 2 ^ 64 := by
      rw [← hpow]
      exact lt_of_lt_of_le ht (Nat.pow_le_pow_right (by omega) (by omega))
    rw [Nat.mod_eq_of_lt this, genWord_eq _ hb _ _ _ _ _ ht]

/-! ## Exact-size printing -/

theorem decText_len_le (n L : Nat) (hL : 0 < L) : (decText n).length ≤ L ↔ n < 10 ^ L := by
  simp [decText, numeral_length_le (b := 10) (by omega) L n hL]

theorem decText_len_pos (n : Nat) : 0 < (decText n).length := by
  simp [decText, numeral_length_pos]

theorem jeaHash_eq (k : Nat) (hk : k ≤ 9) (m : Mem) (iter u : Nat) (hu : u < 10 ^ (k + 1)) (hu32 : u < 2 ^ 32) :
    jeaHash k m iter u (decText u).length = some (store m iter (decText u)) := by
  have hpos := decText_len_pos u
  have hle := (decText_len_le u (k + 1) (by omega)).mpr hu
  have key : ∀ j, j ≤ 9 → (decText u).length = j + 1 →
      jeaC j m iter u = some (store m iter (decText u)) := by
    intro j hj hl
    have h1 : u < 10 ^ (j + 1) := (decText_len_le u (j + 1) (by omega)).mp (by omega)
    have h2 : j = 0 ∨ 10 ^ j ≤ u := by
      rcases Nat.eq_zero_or_pos j with h | h
      · left; exact h
      · right
        by_contra hh
        have := (decText_len_le u j h).mpr (by omega)
        omega
    have := jeaF_numeral j m iter u hj h1 hu32 h2
    simp only [jeaF, Printed] at this
    cases hc : jeaC j m iter u with
    | none => simp [hc] at this
    | some x =>
      simp [hc] at this
      rw [this.1]
  unfold jeaHash
  split
  · exact key _ (by omega) (by omega)
  · exact key _ hk (by omega)

theorem subLen32_add (a b : Nat) (h : a + b < 2 ^ 32) : subLen32 (a + b) b = a := by
  unfold subLen32; omega

theorem jeaHighLen64_eq (m : Mem) (iter a : Nat) (ha : a < 2 ^ 35) :
    jeaHighLen64 false m iter a ((decText a).length + 9) = Printed m iter a := by
  norm_num at ha
  have hlen := (decText_len_le a 11 (by omega)).mpr (by norm_num; omega)
  unfold jeaHighLen64
  rw [subLen32_add _ _ (by omega)]
  by_cases h : a = a % 2 ^ 32
  · simp only [← h, ne_eq, not_true_eq_false, if_false, Bool.false_eq_true]
    rw [jeaHash_eq 9 (by omega) _ _ _ (by norm_num; omega) (by omega)]
    rfl
  · have h2 : a / 1000000000 % 2 ^ 32 = a / 1000000000 := Nat.mod_eq_of_lt (by omega)
    have h3 : a % 1000000000 % 2 ^ 32 = a % 1000000000 := Nat.mod_eq_of_lt (by omega)
    simp only [ne_eq, h, not_false_eq_true, if_true, if_false, Bool.false_eq_true, h2, h3]
    rw [jeaLead_eq _ _ _ (by omega), ← printed_then_F8 m iter a (by norm_num; omega)]
    simp only [Printed, Option.bind_some]
    rw [jeaF8_after _ _ _ _ (show a % 1000000000 < 10 ^ 9 by omega)]
    simp [Nat.add_assoc]

theorem decText_len_split (k n : Nat) (h : 10 ^ k ≤ n) :
    (decText n).length = (decText (n / 10 ^ k)).length + k := by
  rw [decText_split k n h]; simp

theorem jeaMainLen64_eq (m : Mem) (iter n : Nat) (hn : n < 2 ^ 64) :
    jeaMainLen64 false m iter n (decText n).length = some (store m iter (decText n)) := by
  norm_num at hn
  unfold jeaMainLen64
  by_cases h0 : n / 2 ^ 32 % 2 ^ 32 = 0
  · have hlt : n < 2 ^ 32 := by omega
    simp only [h0, if_true]
    rw [Nat.mod_eq_of_lt hlt]
    exact jeaHash_eq 9 (by omega) m iter n (by norm_num; omega) hlt
  · have h1 : n % 1000000000 % 2 ^ 32 = n % 1000000000 := Nat.mod_eq_of_lt (by omega)
    simp only [h0, if_false, h1]
    have hl := decText_len_split 9 n (by norm_num; omega)
    norm_num only at hl
    rw [hl, jeaHighLen64_eq _ _ _ (by norm_num; omega)]
    have := printed_then_F8 m iter n (by norm_num; omega)
    simp only [Printed, Option.bind_some] at this ⊢
    rw [this]; rfl

theorem jeaMainLen128_eq (m : Mem) (iter n : Nat) (hn : n < 2 ^ 128) :
    jeaMainLen128 m iter n (decText n).length = some (store m iter (decText n)) := by
  norm_num at hn
  unfold jeaMainLen128
  by_cases h0 : n / 2 ^ 64 % 2 ^ 64 = 0
  · have hlt : n < 2 ^ 64 := by
      have : n / 2 ^ 64 < 2 ^ 64 := by omega
      rw [Nat.mod_eq_of_lt this] at h0
      omega
    simp only [h0, if_true]
    rw [Nat.mod_eq_of_lt hlt]
    exact jeaMainLen64_eq m iter n hlt
  · have hge : 2 ^ 64 ≤ n := by
      by_contra h
      have : n / 2 ^ 64 = 0 := Nat.div_eq_of_lt (by omega)
      rw [this] at h0; simp at h0
    have h1 : n % 10000000000000000000 % 2 ^ 64 = n % 10000000000000000000 := Nat.mod_eq_of_lt (by omega)
    simp only [h0, if_false, h1]
    have hl := decText_len_split 19 n (by norm_num; omega)
    norm_num only at hl
    have high : jeaHighLen128 m iter (n / 10000000000000000000) (decText n).length =
        Printed m iter (n / 10000000000000000000) := by
      rw [hl]
      generalize ha : n / 10000000000000000000 = a
      have ha40 : a < 40000000000000000000 := by omega
      have hla := (decText_len_le a 20 (by omega)).mpr (by norm_num; omega)
      unfold jeaHighLen128
      by_cases h : a = a % 2 ^ 64
      · simp only [← h, ne_eq, not_true_eq_false, if_false]
        rw [subLen32_add _ _ (by omega)]
        rw [jeaMainLen64_eq m iter a (by rw [h]; exact Nat.mod_lt _ (by norm_num))]
        rfl
      · have ha' : 2 ^ 64 ≤ a := by
          by_contra h'
          exact h (Nat.mod_eq_of_lt (by omega)).symm
        have hv : a / 10000000000000000000 < 10 := by omega
        have h2 : a / 10000000000000000000 % 2 ^ 32 = a / 10000000000000000000 := Nat.mod_eq_of_lt (by omega)
        have h3 : a % 10000000000000000000 % 2 ^ 64 = a % 10000000000000000000 := Nat.mod_eq_of_lt (by omega)
        simp only [ne_eq, h, not_false_eq_true, if_true, h2, h3]
        rw [← printed_then_Rec m iter a (by norm_num; omega)]
        simp only [jeaC, Printed, decText_small _ hv, Option.bind_some, jeaMainLen64Rec]
        have := jeaMain64Rec_after m iter (a % 10000000000000000000) [48 + a / 10000000000000000000]
          (by norm_num; omega)
        simp only [List.length_singleton] at this ⊢
        rw [this]; rfl
    rw [high]
    have := printed_then_Rec m iter n (by norm_num; omega)
    simp only [Printed, Option.bind_some] at this ⊢
    simp only [jeaMainLen64Rec, this]; rfl

theorem jeaMainLen_eq (bits : Nat) (hb : Width bits) (m : Mem) (iter n : Nat) (hn : n < 2 ^ bits) :
    jeaMainLen bits m iter n (decText n).length = some (store m iter (decText n)) := by
  unfold jeaMainLen
  rcases hb with h | h | h | h | h <;> subst h <;> simp only [Nat.reduceEqDiff, if_true, if_false, jeaMainLen32]
  · exact jeaHash_eq 9 (by omega) m iter n (by norm_num at *; omega) (by norm_num at *; omega)
  · exact jeaHash_eq 9 (by omega) m iter n (by norm_num at *; omega) (by norm_num at *; omega)
  · exact jeaHash_eq 9 (by omega) m iter n (by norm_num at *; omega) (by norm_num at *; omega)
  · exact jeaMainLen64_eq m iter n hn
  · exact jeaMainLen128_eq m iter n hn

/-- Exact-size printing in `ryu_mode` (used by floating point printing), 64 bits. -/
theorem jeaMainLen64_ryu (m : Mem) (iter n : Nat) (hn : n < 10 ^ 17) :
    jeaMainLen64 true m iter n (decText n).length = some (store m iter (decText n)) := by
  norm_num at hn
  unfold jeaMainLen64
  by_cases h0 : n / 2 ^ 32 % 2 ^ 32 = 0
  · have hlt : n < 2 ^ 32 := by omega
    simp only [h0, if_true]
    rw [Nat.mod_eq_of_lt hlt]
    exact jeaHash_eq 9 (by omega) m iter n (by norm_num; omega) hlt
  · have h1 : n % 1000000000 % 2 ^ 32 = n % 1000000000 := Nat.mod_eq_of_lt (by omega)
    have h2 : n / 1000000000 % 2 ^ 32 = n / 1000000000 := Nat.mod_eq_of_lt (by omega)
    simp only [h0, if_false, h1]
    have hl := decText_len_split 9 n (by norm_num; omega)
    norm_num only at hl
    have hla := (decText_len_le (n / 1000000000) 20 (by omega)).mpr (by norm_num; omega)
    have : jeaHighLen64 true m iter (n / 1000000000) (decText n).length =
        Printed m iter (n / 1000000000) := by
      unfold jeaHighLen64
      rw [hl, subLen32_add _ _ (by omega)]
      simp only [if_true, h2]
      rw [jeaHash_eq 7 (by omega) _ _ _ (by norm_num; omega) (by omega)]
      rfl
    rw [this]
    have := printed_then_F8 m iter n (by norm_num; omega)
    simp only [Printed, Option.bind_some] at this ⊢
    rw [this]; rfl

end Verif.IntPrint
