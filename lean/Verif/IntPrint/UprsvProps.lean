import Verif.IntPrint.UprsvLemmas
import Verif.Num.Lemmas
import Verif.IntPrint.Spec
/-!
# C89: the second integer printer

Full claim: for every width and value, `uprsv_main<10>` and `uprsv_main<16>` write the canonical numeral and return
the position after it.  It is false for both (`c89_decimal_violated`, `c89_hex_violated`): the decimal blocks
after the first lack the rounding correction, and the hexadecimal branch of three and four digits takes the wrong
byte.  The printer is switched off, so the library's output is not affected (C01 to C03 are about the one in
use).  `c89_decimal_partial` gives the values for which the decimal printer is right for every width, and
`c89_hex_partial` the hexadecimal ones.
-/
namespace Verif.IntPrint
open Verif

theorem numText (b : Nat) (hb : 2 ≤ b) (upper : Bool) (n : Nat) :
    IsNumeralText b upper (baseText b upper n) n := ⟨_, numeral_isNumeral hb n, rfl⟩

theorem uDec32_out (m : Mem) (iter n : Nat) (hn : n < 2 ^ 32) (hg : 10 ^ 8 ≤ n → Good8 (n % 10 ^ 8)) :
    UOut 10 false m iter n (uDec32 m iter n) := by
  unfold uDec32
  by_cases h : n < 10 ^ 8
  · simp only [h, if_true]
    have := uFirst8_out m iter n h
    cases e : uFirst8 m iter n with
    | none => rw [e] at this; obtain ⟨_, _, _, h⟩ := this; simp at h
    | some s => rw [e] at this; exact this
  · simp only [h, if_false]
    exact UOut.next8 (by omega) (hg (by omega))
      (uFirst8_out m iter (n / 10 ^ 8) (by norm_num at hn ⊢; omega)) _ (by omega)

theorem uDec64_shape (m : Mem) (iter n B D : Nat) (hB : 10 ^ 8 = B) (hD : 2 ^ 32 = D) :
    uDec64 m iter n =
      if n < B then uFirst8 m iter (n % D)
      else if n / B < B then
        (uFirst8 m iter (n / B % D)).bind fun s => uNext8 s.1 s.2 (n - n / B * B)
      else
        ((uFirst8 m iter (n / B / B % D)).bind fun s => uNext8 s.1 s.2 (n / B % B)).bind fun s =>
          uNext8 s.1 s.2 (n - n / B * B) := by
  unfold uDec64
  rw [hB, hD]
  clear hB hD
  by_cases h : n < B
  · simp only [h, if_true]
    cases uFirst8 m iter (n % D) <;> rfl
  · simp only [h, if_false]
    by_cases h2 : n / B < B
    · simp only [h2, if_true]
      cases uFirst8 m iter (n / B % D) <;> rfl
    · simp only [h2, if_false]
      cases uFirst8 m iter (n / B / B % D) <;> rfl

theorem uDec64_out (m : Mem) (iter n : Nat) (hn : n < 2 ^ 64) (hg : 10 ^ 8 ≤ n → Good8 (n % 10 ^ 8))
    (hg2 : 10 ^ 16 ≤ n → Good8 (n / 10 ^ 8 % 10 ^ 8)) :
    UOut 10 false m iter n (uDec64 m iter n) := by
  rw [uDec64_shape m iter n (10 ^ 8) (2 ^ 32) rfl rfl]
  have ea : n - n / 10 ^ 8 * 10 ^ 8 = n % 10 ^ 8 := by omega
  split
  · rename_i h
    rw [Nat.mod_eq_of_lt (show n < 2 ^ 32 by norm_num at h ⊢; omega)]
    exact uFirst8_out m iter n h
  · rename_i h
    have h8 : 10 ^ 8 ≤ n := Nat.le_of_not_lt h
    split
    · rename_i h2
      rw [Nat.mod_eq_of_lt (show n / 10 ^ 8 < 2 ^ 32 by norm_num at h2 ⊢; omega)]
      exact UOut.next8 h8 (hg h8) (uFirst8_out m iter _ h2) _ ea
    · rename_i h2
      have e0 : n / 10 ^ 8 / 10 ^ 8 < 10 ^ 8 := by norm_num at hn ⊢; omega
      rw [Nat.mod_eq_of_lt (show n / 10 ^ 8 / 10 ^ 8 < 2 ^ 32 by norm_num at e0 ⊢; omega)]
      have h8' : 10 ^ 8 ≤ n / 10 ^ 8 := Nat.le_of_not_lt h2
      have h16 : 10 ^ 16 ≤ n := by norm_num at h8' ⊢; omega
      exact UOut.next8 h8 (hg h8) (UOut.next8 h8' (hg2 h16) (uFirst8_out m iter _ e0) _ rfl) _ ea

theorem uDec128_out (m : Mem) (iter n : Nat) (hn : n < 2 ^ 128)
    (hg : ∀ k, 10 ^ (k + 8) ≤ n → Good8 (n / 10 ^ k % 10 ^ 8)) :
    UOut 10 false m iter n (uDec128 m iter n) := by
  unfold uDec128
  split
  · rename_i h
    have hlt : n < 2 ^ 64 := by norm_num at h ⊢; omega
    rw [Nat.mod_eq_of_lt hlt]
    exact uDec64_out m iter n hlt (fun h => by simpa using hg 0 h) (fun h => hg 8 h)
  · rename_i h
    have hge : 2 ^ 64 ≤ n := by norm_num at h ⊢; omega
    have g0 := hg 0 (by norm_num at hge ⊢; omega)
    have g8 := hg 8 (by norm_num at hge ⊢; omega)
    simp only [pow_zero, Nat.div_one] at g0
    have d26 : n / 10 ^ 18 / 10 ^ 8 = n / 10 ^ 26 := by rw [Nat.div_div_eq_div_mul, ← pow_add]
    have d36 : n / 10 ^ 18 / 10 ^ 18 = n / 10 ^ 36 := by rw [Nat.div_div_eq_div_mul, ← pow_add]
    split
    · rename_i h36
      have hq : n / 10 ^ 18 < 10 ^ 18 := by norm_num at h36 ⊢; omega
      have hq64 : n / 10 ^ 18 < 2 ^ 64 := by norm_num at hq ⊢; omega
      rw [Nat.mod_eq_of_lt hq64]
      exact UOut.next18 (by norm_num at hge ⊢; omega) g8 g0
        (uDec64_out m iter _ hq64 (fun h => hg 18 (by norm_num at h ⊢; omega))
          (fun h => by rw [d26]; exact hg 26 (by norm_num at h ⊢; omega))) _ rfl
    · rename_i h36
      have hq32 : n / 10 ^ 36 < 2 ^ 32 := by norm_num at hn ⊢; omega
      have hq8 : n / 10 ^ 36 < 10 ^ 8 := by norm_num at hn ⊢; omega
      rw [Nat.mod_eq_of_lt hq32]
      have hm1 : n % 10 ^ 36 / 10 ^ 18 = n / 10 ^ 18 % 10 ^ 18 := by norm_num; omega
      have hm2 : n % 10 ^ 36 % 10 ^ 18 = n % 10 ^ 18 := by norm_num
      rw [hm1, hm2]
      have a := uDec32_out m iter (n / 10 ^ 36) hq32 (fun h => by omega)
      rw [← d36] at a
      have b := UOut.next18 (by norm_num at h36 ⊢; omega)
        (by rw [d26]; exact hg 26 (by norm_num at h36 ⊢; omega)) (hg 18 (by norm_num at h36 ⊢; omega)) a _ rfl
      have c := UOut.next18 (by norm_num at hge ⊢; omega) g8 g0 b _ rfl
      rw [d36] at c
      simpa [Option.bind_assoc] using c

/-- **C89** (partial: values all of whose lower groups of eight digits that the printer emits separately are zero
or at least 226500): the decimal printer writes the canonical numeral and returns the position after it; after a
numeral of one digit, and only then, one more character is overwritten. -/
theorem c89_decimal_partial (bits : Nat) (hw : bits = 8 ∨ bits = 16 ∨ bits = 32 ∨ bits = 64 ∨ bits = 128)
    (n : Nat) (hn : n < 2 ^ bits)
    (hg : ∀ k, 10 ^ (k + 8) ≤ n → n / 10 ^ k % 10 ^ 8 = 0 ∨ 226500 ≤ n / 10 ^ k % 10 ^ 8) (m : Mem) (p : Nat) :
    ∃ txt rest, IsNumeralText 10 false txt n ∧ rest.length ≤ 1 ∧ (rest ≠ [] → txt.length = 1) ∧
      uDec bits m p n = some (store m p (txt ++ rest), p + txt.length) := by
  have : UOut 10 false m p n (uDec bits m p n) := by
    have g0 : 10 ^ 8 ≤ n → Good8 (n % 10 ^ 8) := fun h => by simpa [Good8] using hg 0 h
    rcases hw with rfl | rfl | rfl | rfl | rfl
    · exact uDec32_out m p n (by norm_num at hn ⊢; omega) g0
    · exact uDec32_out m p n (by norm_num at hn ⊢; omega) g0
    · exact uDec32_out m p n hn g0
    · exact uDec64_out m p n hn g0 (fun h => hg 8 h)
    · exact uDec128_out m p n hn hg
  obtain ⟨rest, h1, h2, h3⟩ := this
  exact ⟨_, rest, numText 10 (by omega) false n, h1, fun h => by simp [baseText, numeral_small (h2 h)], h3⟩

/-- **C89**, every value below 10^8 is printed correctly at every width that can hold it. -/
theorem c89_decimal_small (bits : Nat) (hw : bits = 8 ∨ bits = 16 ∨ bits = 32 ∨ bits = 64 ∨ bits = 128)
    (n : Nat) (hn : n < 2 ^ bits) (h8 : n < 10 ^ 8) (m : Mem) (p : Nat) :
    ∃ txt rest, IsNumeralText 10 false txt n ∧ rest.length ≤ 1 ∧ (rest ≠ [] → txt.length = 1) ∧
      uDec bits m p n = some (store m p (txt ++ rest), p + txt.length) :=
  c89_decimal_partial bits hw n hn (fun k h => by
    have : 10 ^ 8 ≤ 10 ^ (k + 8) := Nat.pow_le_pow_right (by omega) (by omega)
    omega) m p

example : ∃ txt rest, IsNumeralText 10 false txt 4294967295 ∧ rest.length ≤ 1 ∧ (rest ≠ [] → txt.length = 1) ∧
    uDec 32 (fun _ => 0) 7 4294967295 = some (store (fun _ => 0) 7 (txt ++ rest), 7 + txt.length) :=
  c89_decimal_partial 32 (by simp) _ (by norm_num) (fun k h => by
    have : k ≤ 1 := by
      by_contra hk
      have : 10 ^ 10 ≤ 10 ^ (k + 8) := Nat.pow_le_pow_right (by omega) (by omega)
      omega
    have : k = 0 ∨ k = 1 := by omega
    rcases this with rfl | rfl <;> decide +kernel) _ _

/-- The decimal printer is wrong as soon as a later group of eight digits is small: the numeral of 100000001 is
`100000001`, and at 32, 64 and 128 bits nine characters are written, `100000000`. -/
theorem c89_decimal_violated :
    IsNumeralText 10 false (ascii "100000001") 100000001 ∧
      ∀ bits ∈ [32, 64, 128], (uDec bits (fun _ => 0) 0 100000001).map (fun r => (load r.1 0 9, r.2)) =
        some (ascii "100000000", 9) := by
  constructor
  · exact ⟨[1, 0, 0, 0, 0, 0, 0, 0, 1], ⟨by decide, by decide, by decide, by decide⟩, by decide +kernel⟩
  · decide +kernel

theorem uPair_zero (off iter : Nat) (m : Mem) (t t' : Nat) (h : 100 * (t % 2 ^ 32) = t') (h0 : t' / 2 ^ 32 = 0) :
    uPair off iter (m, t) = some (store m (iter + off) [48, 48], t') := by
  simp only [uPair, h, h0]
  rw [copyPair_eq 10 false m _ 0 (by omega)]
  rfl

/-- How bad it is: the group `1` is written as eight zeros, whatever precedes it and whatever the memory held. -/
theorem c89_group_violated (m : Mem) (p : Nat) :
    uNext8 m p 1 = some (store m p (ascii "00000000"), p + 8) := by
  simp only [uNext8, show magic48 * 1 % 2 ^ 64 / 2 ^ 16 / 2 ^ 32 = 0 by decide]
  rw [copyPair_eq 10 false m p 0 (by omega), show magic48 * 1 % 2 ^ 64 / 2 ^ 16 = 4294 by decide]
  simp only [Option.bind_eq_bind, Option.bind_some]
  rw [uPair_zero 2 p _ 4294 429400 (by decide) (by decide)]
  simp only [Option.bind_some]
  rw [uPair_zero 4 p _ 429400 42940000 (by decide) (by decide)]
  simp only [Option.bind_some]
  rw [uPair_zero 6 p _ 42940000 4294000000 (by decide) (by decide)]
  simp only [Option.bind_some]
  rw [store_store_at _ _ _ _ _ (by simp), store_store_at _ _ _ _ _ (by simp), store_store_at _ _ _ _ _ (by simp)]
  rfl

/-! ## Hexadecimal -/

theorem padded16 (n : Nat) : padded 16 8 n = padded 16 2 (n / 2 ^ 24) ++ padded 16 2 (n / 2 ^ 16 % 2 ^ 8) ++
    padded 16 2 (n / 2 ^ 8 % 2 ^ 8) ++ padded 16 2 (n % 2 ^ 8) := by
  rw [padded_add 16 (by omega) 6 2 n, padded_add 16 (by omega) 4 2, padded_add 16 (by omega) 2 2]
  norm_num [Nat.div_div_eq_div_mul]

theorem uHexNext_eq (upper : Bool) (m : Mem) (iter n : Nat) (hn : n < 2 ^ 32) :
    uHexNext upper m iter n = some (store m iter ((padded 16 8 n).map (digitChar upper)), iter + 8) := by
  unfold uHexNext
  simp only
  rw [copyPair_eq 16 upper m iter _ (by omega)]
  simp only [Option.bind_eq_bind, Option.bind_some]
  rw [copyPair_eq 16 upper _ _ _ (by omega)]
  simp only [Option.bind_some]
  rw [copyPair_eq 16 upper _ _ _ (by omega)]
  simp only [Option.bind_some]
  rw [copyPair_eq 16 upper _ _ _ (by omega)]
  rw [store_store_at _ _ _ _ _ (by simp), store_store_at _ _ _ _ _ (by simp), store_store_at _ _ _ _ _ (by simp),
    padded16]
  simp

theorem uHexFirst_out (upper : Bool) (m : Mem) (iter n : Nat) (hn : n < 2 ^ 32)
    (hg : n < 0x100 ∨ 0x10000 ≤ n) : UOut 16 upper m iter n (uHexFirst upper m iter n) := by
  unfold uHexFirst
  simp only
  split
  · rw [if_pos (by omega)]
    exact uLead_out 16 upper (by omega) m iter n (by omega)
  · split
    · refine UOut.append (by omega) 4 (by omega) (by omega)
        (uLead_out 16 upper (by omega) m iter (n / 16 ^ 4) (by omega))
        (fun m q => (copyPair (digitsTable 16 upper) m q (n / 2 ^ 8 % 2 ^ 8)).bind fun m =>
          (copyPair (digitsTable 16 upper) m (q + 2) (n % 2 ^ 8)).bind fun m => some (m, q + 4)) ?_
      intro m q
      rw [copyPair_eq 16 upper _ _ _ (by omega)]
      simp only [Option.bind_some]
      rw [copyPair_eq 16 upper _ _ _ (by omega)]
      rw [store_store_at _ _ _ _ _ (by simp), padded_mod 16 (by omega), padded_add 16 (by omega) 2 2 n,
        ← padded_mod 16 (by omega) 2 (n / 16 ^ 2)]
      simp
    · refine UOut.append (by omega) 6 (by omega) (by omega)
        (uLead_out 16 upper (by omega) m iter (n / 16 ^ 6) (by omega))
        (fun m q => (copyPair (digitsTable 16 upper) m q (n / 2 ^ 16 % 2 ^ 8)).bind fun m =>
          (copyPair (digitsTable 16 upper) m (q + 2) (n / 2 ^ 8 % 2 ^ 8)).bind fun m =>
          (copyPair (digitsTable 16 upper) m (q + 4) (n % 2 ^ 8)).bind fun m => some (m, q + 6)) ?_
      intro m q
      rw [copyPair_eq 16 upper _ _ _ (by omega)]
      simp only [Option.bind_some]
      rw [copyPair_eq 16 upper _ _ _ (by omega)]
      simp only [Option.bind_some]
      rw [copyPair_eq 16 upper _ _ _ (by omega)]
      rw [store_store_at _ _ _ _ _ (by simp), store_store_at _ _ _ _ _ (by simp), padded_mod 16 (by omega),
        padded_add 16 (by omega) 4 2 n, padded_add 16 (by omega) 2 2 (n / 16 ^ 2),
        ← padded_mod 16 (by omega) 2 (n / 16 ^ 2 / 16 ^ 2)]
      norm_num [Nat.div_div_eq_div_mul]

theorem uHex64_out (bits : Nat) (hw : bits = 8 ∨ bits = 16 ∨ bits = 32 ∨ bits = 64) (upper : Bool)
    (m : Mem) (p n : Nat) (hn : n < 2 ^ bits)
    (hg : (if n < 2 ^ 32 then n else n / 2 ^ 32) < 0x100 ∨ 0x10000 ≤ (if n < 2 ^ 32 then n else n / 2 ^ 32)) :
    UOut 16 upper m p n (uHex64 bits upper m p n) := by
  unfold uHex64
  rcases hw with rfl | rfl | rfl | rfl
  · have : n < 2 ^ 32 := by norm_num at hn ⊢; omega
    simp only [this, if_true] at hg
    exact uHexFirst_out upper m p n this hg
  · have : n < 2 ^ 32 := by norm_num at hn ⊢; omega
    simp only [this, if_true] at hg
    exact uHexFirst_out upper m p n this hg
  · simp only [hn, if_true] at hg
    exact uHexFirst_out upper m p n hn hg
  · simp only [show ¬ (64 ≤ 32) by omega, if_false]
    by_cases h : n < 2 ^ 32
    · have e0 : n / 2 ^ 32 = 0 := Nat.div_eq_of_lt h
      simp only [h, if_true] at hg
      simp only [e0, ne_eq, not_true_eq_false, if_false, Nat.mod_eq_of_lt h]
      have := uHexFirst_out upper m p n h hg
      cases e : uHexFirst upper m p n with
      | none => rw [e] at this; obtain ⟨_, _, _, h⟩ := this; simp at h
      | some s => rw [e] at this; exact this
    · have e0 : n / 2 ^ 32 ≠ 0 := by norm_num at h ⊢; omega
      simp only [h, if_false] at hg
      simp only [e0, ne_eq, not_false_eq_true, if_true]
      have hq : n / 2 ^ 32 < 2 ^ 32 := by norm_num at hn ⊢; omega
      have a := uHexFirst_out upper m p (n / 2 ^ 32) hq hg
      exact UOut.append (by omega) 8 (by omega) (by norm_num at h ⊢; omega) a
        (fun m q => uHexNext upper m q (n % 2 ^ 32))
        (fun m q => uHexNext_eq upper m q _ (Nat.mod_lt _ (by norm_num)))

theorem uHexNext16_eq (upper : Bool) (m : Mem) (iter n : Nat) (hn : n < 2 ^ 64) :
    uHexNext16 upper m iter n = some (store m iter ((padded 16 16 n).map (digitChar upper)), iter + 16) := by
  have hq : n / 2 ^ 32 < 2 ^ 32 := by norm_num at hn ⊢; omega
  unfold uHexNext16
  rw [uHexNext_eq upper m iter _ hq]
  simp only [Option.bind_eq_bind, Option.bind_some]
  rw [uHexNext_eq upper _ _ _ (Nat.mod_lt _ (by norm_num)), store_store_at _ _ _ _ _ (by simp), ← List.map_append,
    padded_add 16 (by omega) 8 8 n, show (16 : Nat) ^ 8 = 2 ^ 32 by norm_num]

/-- **C89** (partial: values whose leading 32-bit word is not between 0x100 and 0xffff): the hexadecimal printer
writes the canonical numeral in the requested case. -/
theorem c89_hex_partial (bits : Nat) (hw : bits = 8 ∨ bits = 16 ∨ bits = 32 ∨ bits = 64 ∨ bits = 128)
    (upper : Bool) (n : Nat) (hn : n < 2 ^ bits)
    (hg : ∀ k w, w = n / 2 ^ (32 * k) → 0 < w → w < 2 ^ 32 → w < 0x100 ∨ 0x10000 ≤ w) (m : Mem) (p : Nat) :
    ∃ txt rest, IsNumeralText 16 upper txt n ∧ rest.length ≤ 1 ∧ (rest ≠ [] → txt.length = 1) ∧
      uHex bits upper m p n = some (store m p (txt ++ rest), p + txt.length) := by
  have lead : ∀ j x, x = n / 2 ^ (64 * j) → x < 2 ^ 64 → 
      (if x < 2 ^ 32 then x else x / 2 ^ 32) < 0x100 ∨ 0x10000 ≤ (if x < 2 ^ 32 then x else x / 2 ^ 32) := by
    intro j x hx hlt
    split
    · rename_i h
      rcases Nat.eq_zero_or_pos x with h0 | h0
      · omega
      · exact hg (2 * j) x (by rw [hx]; congr 2; omega) h0 h
    · rename_i h
      refine hg (2 * j + 1) (x / 2 ^ 32) ?_ (by norm_num at h ⊢; omega) (by norm_num at hlt ⊢; omega)
      rw [hx, Nat.div_div_eq_div_mul, ← pow_add]; congr 2; omega
  have : UOut 16 upper m p n (uHex bits upper m p n) := by
    unfold uHex
    by_cases hb : bits ≤ 64
    · have hlt : n < 2 ^ 64 := lt_of_lt_of_le hn (Nat.pow_le_pow_right (by omega) hb)
      rw [if_pos hb]
      exact uHex64_out bits (by omega) upper m p n hn (lead 0 n (by simp) hlt)
    · have hb : bits = 128 := by omega
      subst hb
      rw [if_neg (by omega)]
      unfold uHex128
      by_cases h : n < 2 ^ 64
      · have e0 : n / 2 ^ 64 = 0 := Nat.div_eq_of_lt h
        have a := uHex64_out 64 (by simp) upper m p n h (lead 0 n (by simp) h)
        simp only [e0, ne_eq, not_true_eq_false, if_false, Nat.mod_eq_of_lt h]
        cases e : uHex64 64 upper m p n with
        | none => rw [e] at a; obtain ⟨_, _, _, h⟩ := a; simp at h
        | some s => rw [e] at a; exact a
      · have e0 : n / 2 ^ 64 ≠ 0 := by norm_num at h ⊢; omega
        have hq : n / 2 ^ 64 < 2 ^ 64 := by norm_num at hn ⊢; omega
        simp only [e0, ne_eq, not_false_eq_true, if_true]
        have a := uHex64_out 64 (by simp) upper m p (n / 2 ^ 64) hq (lead 1 _ (by simp) hq)
        exact UOut.append (by omega) 16 (by omega) (by norm_num at h ⊢; omega) a
          (fun m q => uHexNext16 upper m q (n % 2 ^ 64))
          (fun m q => uHexNext16_eq upper m q _ (Nat.mod_lt _ (by norm_num)))
  obtain ⟨rest, h1, h2, h3⟩ := this
  exact ⟨_, rest, numText 16 (by omega) upper n, h1, fun h => by simp [baseText, numeral_small (h2 h)], h3⟩

example : ∃ txt rest, IsNumeralText 16 true txt 0xdeadbeef01234567 ∧ rest.length ≤ 1 ∧
    (rest ≠ [] → txt.length = 1) ∧ uHex 64 true (fun _ => 0) 7 0xdeadbeef01234567 =
      some (store (fun _ => 0) 7 (txt ++ rest), 7 + txt.length) :=
  c89_hex_partial 64 (by simp) true _ (by norm_num) (fun k w h h0 hlt => by
    have : k = 0 ∨ k = 1 ∨ 2 ≤ k := by omega
    rcases this with rfl | rfl | hk
    · norm_num at h; omega
    · norm_num at h; omega
    · have : 2 ^ 64 ≤ 2 ^ (32 * k) := Nat.pow_le_pow_right (by omega) (by omega)
      rw [Nat.div_eq_of_lt (by omega)] at h
      omega) _ _

/-- The hexadecimal printer is wrong for three and four digits: `123` (hexadecimal) is written `100`, and `1234`
is written `1209`. -/
theorem c89_hex_violated :
    IsNumeralText 16 false (ascii "123") 0x123 ∧
      (∀ bits ∈ [16, 32, 64, 128], (uHex bits false (fun _ => 0) 0 0x123).map (fun r => (load r.1 0 3, r.2)) =
        some (ascii "100", 3)) ∧
      (uHex 32 false (fun _ => 0) 0 0x1234).map (fun r => (load r.1 0 4, r.2)) = some (ascii "1209", 4) := by
  refine ⟨⟨[1, 2, 3], ⟨by decide, by decide, by decide, by decide⟩, by decide +kernel⟩, ?_, ?_⟩
  · decide +kernel
  · decide +kernel

end Verif.IntPrint
