import Verif.Gb.Lemmas
/-!
# GB 18030: the tables, entry by entry

The tables are evaluated by the kernel. The folds are halved so that the evaluation is shallow.
-/
namespace Verif.Gb
open Verif

/-- More than any number of a code. -/
def big : Nat := 0xFFFFFFFF

/-- A fold over the numbers from `u` on. -/
def seqF (f : Nat → Nat → Nat) : Nat → Nat → Nat → Nat
  | 0, _, k => k
  | n + 1, u, k => seqF f n (u + 1) (f u k)

/-- The same, stopping at `big`. -/
def bin (f : Nat → Nat → Nat) : Nat → Nat → Nat → Nat → Nat
  | 0, u, len, k => cond (Nat.beq len 0) k (f u k)
  | d + 1, u, len, k =>
    cond (Nat.ble len (2 ^ d)) (bin f d u len k)
      (cond (Nat.beq (bin f d u (2 ^ d) k) big) big (bin f d (u + 2 ^ d) (len - 2 ^ d) (bin f d u (2 ^ d) k)))

theorem seqF_add (f : Nat → Nat → Nat) : ∀ (a b u k : Nat), seqF f (a + b) u k = seqF f b (u + a) (seqF f a u k)
  | 0, b, u, k => by simp [seqF]
  | a + 1, b, u, k => by
    rw [show a + 1 + b = (a + b) + 1 by omega, seqF, seqF_add f a b (u + 1) (f u k), seqF, show u + 1 + a = u + (a + 1) by omega]

theorem seqF_big (f : Nat → Nat → Nat) (hf : ∀ u, f u big = big) : ∀ n u, seqF f n u big = big
  | 0, _ => rfl
  | n + 1, u => by rw [seqF, hf, seqF_big f hf n]

theorem bin_eq (f : Nat → Nat → Nat) (hf : ∀ u, f u big = big) : ∀ (d u len k : Nat), len ≤ 2 ^ d → bin f d u len k = seqF f len u k
  | 0, u, len, k, h => by
    have : len = 0 ∨ len = 1 := by omega
    rcases this with rfl | rfl <;> rfl
  | d + 1, u, len, k, h => by
    rw [bin]
    cases h1 : Nat.ble len (2 ^ d)
    · have h1' : ¬ len ≤ 2 ^ d := fun h2 => by rw [Nat.ble_eq_true_of_le h2] at h1; cases h1
      have e := seqF_add f (2 ^ d) (len - 2 ^ d) u k
      rw [show 2 ^ d + (len - 2 ^ d) = len by omega] at e
      rw [e, ← bin_eq f hf d u (2 ^ d) k (le_refl _)]
      simp only [cond_false]
      rw [← bin_eq f hf d (u + 2 ^ d) (len - 2 ^ d) _ (by rw [pow_succ] at h; omega)]
      cases h2 : Nat.beq (bin f d u (2 ^ d) k) big
      · rfl
      · rw [Nat.eq_of_beq_eq_true h2, bin_eq f hf d (u + 2 ^ d) (len - 2 ^ d) big (by rw [pow_succ] at h; omega), seqF_big f hf]
        rfl
    · exact bin_eq f hf d u len k (Nat.le_of_ble_eq_true h1)

/-- Every entry from `off` on passes. -/
def every (p : Nat → Bool) (u k : Nat) : Nat := cond (Nat.beq k big) big (cond (p u) (Nat.add k 0) big)

theorem seqF_every (p : Nat → Bool) : ∀ n u, seqF (every p) n u 0 = 0 → ∀ i < n, p (u + i) = true
  | 0, _, _, i, h => by omega
  | n + 1, u, h, i, hi => by
    rw [seqF] at h
    have e : every p u 0 = cond (p u) 0 big := rfl
    rw [e] at h
    cases hp : p u <;> rw [hp] at h <;> simp only [cond_true, cond_false] at h
    · rw [seqF_big _ (fun _ => rfl)] at h; cases h
    · rcases i with _ | i
      · exact hp
      · rw [show u + (i + 1) = u + 1 + i by omega]
        exact seqF_every p n (u + 1) h i (by omega)

theorem bin_every (p : Nat → Bool) (n u : Nat) (hn : n ≤ 2 ^ 15) (h : bin (every p) 15 u n 0 = 0) : ∀ i < n, p (u + i) = true := by
  rw [bin_eq _ (fun _ => rfl) _ _ _ _ hn] at h
  exact seqF_every p n u h

/-- In one of the ranges. -/
def inR (u : Nat) : List (Nat × Nat) → Bool
  | [] => false
  | (a, b) :: l => cond (Nat.ble a u) (cond (Nat.ble u b) true (inR u l)) (inR u l)

theorem inR_iff (u : Nat) : ∀ l, inR u l = true ↔ ∃ r ∈ l, r.1 ≤ u ∧ u ≤ r.2
  | [] => by simp [inR]
  | (a, b) :: l => by
    have ih := inR_iff u l
    rw [inR]
    cases h1 : Nat.ble a u <;> cases h2 : Nat.ble u b <;> simp only [cond_true, cond_false, List.mem_cons, exists_eq_or_imp, ih, true_iff] <;>
      simp only [Nat.ble_eq, ← Bool.not_eq_true] at h1 h2 <;> simp [h1, h2]

/-- `Lost`, evaluated faster. -/
def lostB (u : Nat) : Bool := cond (Nat.ble u 0x451) (inR u (lostRanges.take 41)) (cond (Nat.ble 0xE78D u) (inR u (lostRanges.drop 41)) false)

theorem lostB_iff (u : Nat) : lostB u = true ↔ Lost u := by
  have h1 : ∀ r ∈ lostRanges.take 41, r.2 ≤ 0x451 := by decide +kernel
  have h2 : ∀ r ∈ lostRanges.drop 41, 0xE78D ≤ r.1 := by decide +kernel
  have h3 : Lost u ↔ (∃ r ∈ lostRanges.take 41, r.1 ≤ u ∧ u ≤ r.2) ∨ (∃ r ∈ lostRanges.drop 41, r.1 ≤ u ∧ u ≤ r.2) := by
    unfold Lost
    conv_lhs => rw [← List.take_append_drop 41 lostRanges]
    simp only [List.mem_append, or_and_right, exists_or]
  rw [h3, ← inR_iff, ← inR_iff, lostB]
  cases c1 : Nat.ble u 0x451 <;> cases c2 : Nat.ble 0xE78D u <;> simp only [cond_true, cond_false] <;>
      simp only [Nat.ble_eq, ← Bool.not_eq_true] at c1 c2
  · have := mt (inR_iff u (lostRanges.take 41)).mp (by rintro ⟨r, hr, a, b⟩; have := h1 r hr; omega)
    have := mt (inR_iff u (lostRanges.drop 41)).mp (by rintro ⟨r, hr, a, b⟩; have := h2 r hr; omega)
    simp [*]
  · have := mt (inR_iff u (lostRanges.take 41)).mp (by rintro ⟨r, hr, a, b⟩; have := h1 r hr; omega)
    simp [*]
  · have := mt (inR_iff u (lostRanges.drop 41)).mp (by rintro ⟨r, hr, a, b⟩; have := h2 r hr; omega)
    simp [*]
  · omega

/-- The entry for a character with a code from the table is right, where `k` four-byte codes precede: the new number of them, or `big`. -/
def check (off sub ks ke u k : Nat) : Nat :=
  cond (Nat.beq k big) big
    (cond (Nat.ble u (off + 32780))
      (cond (Nat.ble (entry uniTb 32 (u - off)) 65535)
        (cond (Nat.ble 0x81 (entry uniTb 32 (u - off) % 256) && Nat.ble (entry uniTb 32 (u - off) % 256) 0xFE &&
            Nat.ble 0x40 (entry uniTb 32 (u - off) / 256) && Nat.ble (entry uniTb 32 (u - off) / 256) 0xFE && !Nat.beq (entry uniTb 32 (u - off) / 256) 0x7F &&
            ((Nat.beq (entry uni2Tb 20 ((entry uniTb 32 (u - off) % 256 - 0x81) * 190 +
              (cond (Nat.ble 0x80 (entry uniTb 32 (u - off) / 256)) (entry uniTb 32 (u - off) / 256 - 1) (entry uniTb 32 (u - off) / 256) - 0x40))) u).xor (lostB u)))
          (Nat.add k 0) big)
        (cond (Nat.beq u 0xE7C7)
          (cond (Nat.beq (entry uniTb 32 (u - off)) 0x37F43581 && lostB u) (Nat.add k 0) big)
          (cond (Nat.ble ks k && Nat.ble (k + 1) ke &&
              Nat.beq (entry uniTb 32 (u - off)) ((0x81 + k / 12600) + 256 * (0x30 + k / 1260 % 10) + 65536 * (0x81 + k / 10 % 126) + 16777216 * (0x30 + k % 10)) &&
              ((Nat.beq (cond (Nat.beq sub 0) 0xFFFD (cond (Nat.ble 5974 (k - sub)) 0xFFFD (entry uni4Tb 16 (k - sub)))) u).xor (lostB u)))
            (k + 1) big)))
      big)

theorem t1 : bin (check 128 0 0 820) 15 0x80 (0x452 - 0x80) 0 = 820 := by decide +kernel
theorem t2 : bin (check 7230 7922 7922 9219) 15 0x2010 (0x2643 - 0x2010) 7922 = 9219 := by decide +kernel
theorem t3 : bin (check 9340 10032 11329 12973) 15 0x2E81 (0x361B - 0x2E81) 11329 = 12973 := by decide +kernel
theorem t4 : bin (check 10105 10797 13738 14698) 15 0x3918 (0x3CE1 - 0x3918) 13738 = 14698 := by decide +kernel
theorem t5 : bin (check 10990 11682 15583 15847) 15 0x4056 (0x4160 - 0x4056) 15583 = 15847 := by decide +kernel
theorem t6 : bin (check 11461 12153 16318 16729) 15 0x4337 (0x44D7 - 0x4337) 16318 = 16729 := by decide +kernel
theorem t7 : bin (check 11834 12526 17102 17418) 15 0x464C (0x478E - 0x464C) 17102 = 17418 := by decide +kernel
theorem t8 : bin (check 12275 12967 17859 17961) 15 0x4947 (0x49B8 - 0x4947) 17859 = 17961 := by decide +kernel
theorem t9 : bin (check 12978 13670 18664 19043) 15 0x4C77 (0x9FA6 - 0x4C77) 18664 = 19043 := by decide +kernel
theorem t10 : bin (check 27404 28096 33469 33550) 15 0xE000 (0xE865 - 0xE000) 33469 = 33550 := by decide +kernel
theorem t11 : bin (check 31699 32391 37845 38078) 15 0xF92C (0xFA2A - 0xF92C) 37845 = 38078 := by decide +kernel
theorem t12 : bin (check 32729 33421 39108 39394) 15 0xFE30 (0xFFE6 - 0xFE30) 39108 = 39394 := by decide +kernel

/-- The entries for surrogates are those of U+FFFD. -/
theorem surrogate_entry (u : Nat) (h1 : 0xD800 ≤ u) (h2 : u < 0xE000) : entry uniTb 32 (u - 27404) = 0x37A43184 := by
  have h := bin_every (fun i => Nat.beq (entry uniTb 32 i) 0x37A43184) 2048 27892 (by norm_num) (by decide +kernel) (u - 0xD800) (by omega)
  rw [show u - 27404 = 27892 + (u - 0xD800) by omega]
  exact Nat.eq_of_beq_eq_true h

/-- `Utf.Scalar`, evaluated. -/
def scalarB (x : Nat) : Bool := cond (Nat.ble x 0xD7FF) true (cond (Nat.ble 0xE000 x) (Nat.ble x 0x10FFFF) false)

theorem scalarB_sound (x : Nat) (h : scalarB x = true) : Utf.Scalar x := by
  simp only [Utf.Scalar]
  rw [scalarB] at h
  cases c1 : Nat.ble x 0xD7FF <;> rw [c1] at h
  · cases c2 : Nat.ble 0xE000 x <;> rw [c2] at h
    · cases h
    · have := Nat.le_of_ble_eq_true h
      have := Nat.le_of_ble_eq_true c2
      omega
  · have := Nat.le_of_ble_eq_true c1
    omega

/-- The tables contain characters only. -/
theorem uni2_scalar (i : Nat) (h : i < 23940) : Utf.Scalar (entry uni2Tb 20 i) := by
  have h := bin_every (fun i => scalarB (entry uni2Tb 20 i))
    23940 0 (by norm_num) (by decide +kernel) i h
  rw [Nat.zero_add] at h
  exact scalarB_sound _ h

theorem uni4_scalar (i : Nat) (h : i < 5974) : Utf.Scalar (entry uni4Tb 16 i) := by
  have h := bin_every (fun i => scalarB (entry uni4Tb 16 i))
    5974 0 (by norm_num) (by decide +kernel) i h
  rw [Nat.zero_add] at h
  exact scalarB_sound _ h

/-- What `check` establishes. -/
def Right (off sub ks ke u k k' : Nat) : Prop :=
  (∃ a b, lookupUni (u - off) = some [a, b] ∧ IsTwo [a, b] ∧ k' = k ∧
    (lookup2 ((a - 0x81) * 190 + ((if 0x7F < b then b - 1 else b) - 0x40)) = some u ↔ ¬ Lost u)) ∨
  (u = 0xE7C7 ∧ k' = k ∧ Lost u) ∨
  (u ≠ 0xE7C7 ∧ lookupUni (u - off) = some (four k) ∧ k' = k + 1 ∧ ks ≤ k ∧ k < ke ∧ ((if sub = 0 then 0xFFFD else lookup4 (k - sub)) = u ↔ ¬ Lost u))

theorem xor_lost {p : Bool} {P : Prop} (u : Nat) (hp : p = true ↔ P) (h : (p.xor (lostB u)) = true) : P ↔ ¬ Lost u := by
  have h2 := lostB_iff u
  cases hl : lostB u <;> cases hp' : p <;> simp_all

theorem digits (k e : Nat) (hk : k < 1587600) (h : e = (0x81 + k / 12600) + 256 * (0x30 + k / 1260 % 10) + 65536 * (0x81 + k / 10 % 126) + 16777216 * (0x30 + k % 10)) :
    [e % 256, e / 2 ^ 8 % 256, e / 2 ^ 16 % 256, e / 2 ^ 24] = four k := by
  simp only [four, List.cons.injEq, and_true]
  have h1 : k / 12600 < 126 := by omega
  have h2 : k / 1260 % 10 < 10 := by omega
  have h3 : k / 10 % 126 < 126 := by omega
  have h4 : k % 10 < 10 := by omega
  generalize k / 12600 = x1 at *
  generalize k / 1260 % 10 = x2 at *
  generalize k / 10 % 126 = x3 at *
  generalize k % 10 = x4 at *
  omega

theorem cond_big {b : Bool} {x : Nat} (h : cond b x big ≠ big) : b = true ∧ cond b x big = x := by
  cases b
  · exact absurd rfl h
  · exact ⟨rfl, rfl⟩

theorem check_right (off sub ks ke u k : Nat) (hke : ke ≤ 39394) (h : check off sub ks ke u k ≠ big) : Right off sub ks ke u k (check off sub ks ke u k) := by
  rw [check] at h ⊢
  cases c1 : Nat.beq k big <;> rw [c1] at h <;> simp only [cond_true, cond_false, ne_eq, not_true_eq_false] at h ⊢
  obtain ⟨c2, e2⟩ := cond_big h
  rw [e2] at h ⊢
  have hi : u - off < 32781 := by have := Nat.le_of_ble_eq_true c2; omega
  have hlook : lookupUni (u - off) = if entry uniTb 32 (u - off) % 2 ^ 16 = entry uniTb 32 (u - off) then some [entry uniTb 32 (u - off) % 256, entry uniTb 32 (u - off) >>> 8]
      else some [entry uniTb 32 (u - off) % 256, (entry uniTb 32 (u - off) >>> 8) % 256, (entry uniTb 32 (u - off) >>> 16) % 256, entry uniTb 32 (u - off) >>> 24] := by
    rw [lookupUni, if_pos hi]
  clear c2 e2
  generalize entry uniTb 32 (u - off) = e at *
  cases c3 : Nat.ble e 65535 <;> rw [c3] at h <;> simp only [cond_true, cond_false] at h ⊢
  · have he : ¬ e ≤ 65535 := fun h2 => by rw [Nat.ble_eq_true_of_le h2] at c3; cases c3
    rw [if_neg (by omega)] at hlook
    cases c4 : Nat.beq u 0xE7C7 <;> rw [c4] at h <;> simp only [cond_true, cond_false] at h ⊢
    · right; right
      obtain ⟨c5, e5⟩ := cond_big h
      rw [e5]
      simp only [Bool.and_eq_true] at c5
      obtain ⟨⟨⟨d1, d2⟩, d3⟩, d4⟩ := c5
      have d1 := Nat.le_of_ble_eq_true d1
      have d2 := Nat.le_of_ble_eq_true d2
      refine ⟨fun h2 => by (rw [h2] at c4; cases c4), ?_, rfl, d1, by omega, ?_⟩
      · rw [hlook, ← digits k e (by omega) (Nat.eq_of_beq_eq_true d3)]
        simp only [Nat.shiftRight_eq_div_pow]
      · refine xor_lost u ?_ d4
        rw [Nat.beq_eq]
        have hc : (cond (Nat.beq sub 0) 0xFFFD (cond (Nat.ble 5974 (k - sub)) 0xFFFD (entry uni4Tb 16 (k - sub)))) =
            if sub = 0 then 0xFFFD else lookup4 (k - sub) := by
          rw [lookup4, Bool.cond_eq_ite, Bool.cond_eq_ite]
          simp only [Nat.beq_eq, Nat.ble_eq]
        rw [hc]
    · right; left
      obtain ⟨c5, e5⟩ := cond_big h
      rw [e5]
      rw [Bool.and_eq_true] at c5
      exact ⟨Nat.eq_of_beq_eq_true c4, rfl, (lostB_iff u).mp c5.2⟩
  · left
    have he : e ≤ 65535 := Nat.le_of_ble_eq_true c3
    rw [if_pos (by omega)] at hlook
    obtain ⟨c5, e5⟩ := cond_big h
    rw [e5]
    simp only [Bool.and_eq_true] at c5
    obtain ⟨⟨⟨⟨⟨d1, d2⟩, d3⟩, d4⟩, d5⟩, d6⟩ := c5
    have d1 := Nat.le_of_ble_eq_true d1
    have d2 := Nat.le_of_ble_eq_true d2
    have d3 := Nat.le_of_ble_eq_true d3
    have d4 := Nat.le_of_ble_eq_true d4
    have d5 : e / 256 ≠ 0x7F := fun h2 => by rw [h2] at d5; cases d5
    refine ⟨e % 256, e / 256, ?_, ⟨_, _, rfl, d1, d2, d3, d4, d5⟩, rfl, ?_⟩
    · rw [hlook, Nat.shiftRight_eq_div_pow]
    · refine xor_lost u ?_ d6
      have hc : (cond (Nat.ble 0x80 (e / 256)) (e / 256 - 1) (e / 256)) = if 0x7F < e / 256 then e / 256 - 1 else e / 256 := by
        rw [Bool.cond_eq_ite]
        simp only [Nat.ble_eq]
        rfl
      rw [hc, Nat.beq_eq]
      have hx : (e % 256 - 0x81) * 190 + ((if 0x7F < e / 256 then e / 256 - 1 else e / 256) - 0x40) < 23940 := by split_ifs <;> omega
      generalize (e % 256 - 0x81) * 190 + ((if 0x7F < e / 256 then e / 256 - 1 else e / 256) - 0x40) = x at hx ⊢
      rw [lookup2, if_pos hx, Option.some_inj]

theorem check_big (off sub ks ke u : Nat) : check off sub ks ke u big = big := rfl

/-- Running through a range of characters. -/
theorem seq_right (off sub ks ke : Nat) (hke : ke ≤ 39394) : ∀ (n u k : Nat), seqF (check off sub ks ke) n u k ≠ big → ∀ i < n,
    Right off sub ks ke (u + i) (seqF (check off sub ks ke) i u k) (seqF (check off sub ks ke) (i + 1) u k) := by
  intro n u k h i hi
  have e1 := seqF_add (check off sub ks ke) i 1 u k
  have e2 := seqF_add (check off sub ks ke) (i + 1) (n - (i + 1)) u k
  rw [show i + 1 + (n - (i + 1)) = n by omega] at e2
  have h1 : seqF (check off sub ks ke) (i + 1) u k ≠ big := by
    intro h2
    rw [h2, seqF_big _ (check_big off sub ks ke)] at e2
    exact h e2
  rw [e1] at h1 ⊢
  exact check_right off sub ks ke _ _ hke h1

/-- Has a four-byte code (U+E7C7 has by mistake that of another character). -/
def isFour (v : Nat) : Bool := (encode v).map List.length == some 4 && v != 0xE7C7

/-- The code of `c`, when `k` characters before have four-byte codes. -/
def Code (c k : Nat) : Prop :=
  (∃ a b, encode c = some [a, b] ∧ IsTwo [a, b] ∧ (lookup2 ((a - 0x81) * 190 + ((if 0x7F < b then b - 1 else b) - 0x40)) = some c ↔ ¬ Lost c)) ∨
  (encode c = some (four k) ∧ k < 39420 ∧ (byIndex (1687218 + k) = c ↔ ¬ Lost c))

theorem before_succ (p : Nat → Bool) (c : Nat) : before p (c + 1) = before p c + if 0x80 ≤ c ∧ ¬ (0xD800 ≤ c ∧ c < 0xE000) ∧ p c = true then 1 else 0 := by
  rw [before, List.range_succ, List.filter_append, List.length_append, before]
  congr 1
  by_cases h : 0x80 ≤ c ∧ ¬ (0xD800 ≤ c ∧ c < 0xE000) ∧ p c = true
  · rw [if_pos h, List.filter_cons_of_pos]
    · rfl
    · simp only [Bool.and_eq_true, decide_eq_true_eq, Bool.not_eq_true']
      exact ⟨⟨h.1, by simpa using h.2.1⟩, h.2.2⟩
  · rw [if_neg h, List.filter_cons_of_neg]
    · rfl
    · intro h2
      simp only [Bool.and_eq_true, decide_eq_true_eq, Bool.not_eq_true'] at h2
      exact h ⟨h2.1.1, by simpa using h2.1.2, h2.2⟩

/-- What is established about a range: the number of four-byte codes before each character, and the codes. -/
def Seg (a b : Nat) : Prop := ∀ c, a ≤ c → c < b → Utf.Scalar c → c ≠ 0xE7C7 → Code c (before isFour c)

theorem computed_apart : ∀ t ∈ computed, ∀ s ∈ computed, t = s ∨ t.2.1 ≤ s.1 ∨ s.2.1 ≤ t.1 := by decide +kernel
theorem apart : ∀ t ∈ computed, ∀ s ∈ gaps, t.2.1 ≤ s.1 ∨ s.2.1 ≤ t.1 := by decide +kernel
theorem gaps_apart : ∀ t ∈ gaps, ∀ s ∈ gaps, t = s ∨ t.2.1 ≤ s.1 ∨ s.2.1 ≤ t.1 := by decide +kernel
theorem computed_kept : ∀ t ∈ computed, ∀ r ∈ lostRanges, t.2.1 ≤ r.1 ∨ r.2 < t.1 := by decide +kernel

theorem encode_computed (e0 e1 k u : Nat) (hm : (e0, e1, k) ∈ computed) (h1 : e0 ≤ u) (h2 : u < e1) (h0 : 0x80 ≤ u) (hu : u < 0x110000) :
    encode u = some (four (u - e0 + k)) := by
  rcases encode_cases u h0 hu with ⟨a, b, c, m, g1, g2, e⟩ | ⟨a, b, c, d, m, g1, g2, e⟩
  · rcases computed_apart _ hm _ m with h | h | h
    · cases h; exact e
    · simp only at h; omega
    · simp only at h; omega
  · rcases apart _ hm _ m with h | h <;> (simp only at h; omega)

theorem encode_gap (lo hi off sub u : Nat) (hm : (lo, hi, off, sub) ∈ gaps) (h1 : lo ≤ u) (h2 : u < hi) (h0 : 0x80 ≤ u) (hu : u < 0x110000) :
    encode u = lookupUni (u - off) := by
  rcases encode_cases u h0 hu with ⟨a, b, c, m, g1, g2, e⟩ | ⟨a, b, c, d, m, g1, g2, e⟩
  · rcases apart _ m _ hm with h | h <;> (simp only at h; omega)
  · rcases gaps_apart _ hm _ m with h | h | h
    · cases h; exact e
    · simp only at h; omega
    · simp only at h; omega

theorem isFour_four (u k : Nat) (h : encode u = some (four k)) (hne : u ≠ 0xE7C7) : isFour u = true := by
  rw [isFour, h]; simp [four, hne]

theorem seg_computed (e0 e1 k : Nat) (hm : (e0, e1, k) ∈ computed) (h0 : 0x80 ≤ e0) (h2 : e1 ≤ 0x10000) (hs : e1 ≤ 0xD800 ∨ 0xE000 ≤ e0) (hb : before isFour e0 = k)
    (hk : k + (e1 - e0) ≤ 39420) (hne : e1 ≤ 0xE7C7 ∨ 0xE7C7 < e0) (hback : ∀ c, e0 ≤ c → c < e1 → byIndex (1687218 + (k + (c - e0))) = c) :
    before isFour (e0 + (e1 - e0)) = k + (e1 - e0) ∧ Seg e0 e1 := by
  have main : ∀ i, i ≤ e1 - e0 → before isFour (e0 + i) = k + i := by
    intro i
    induction i with
    | zero => intro _; exact hb
    | succ i ih =>
      intro hi
      rw [show e0 + (i + 1) = e0 + i + 1 by omega, before_succ, ih (by omega), if_pos]
      · omega
      · exact ⟨by omega, by omega, isFour_four _ _ (encode_computed e0 e1 k _ hm (by omega) (by omega) (by omega) (by omega)) (by omega)⟩
  refine ⟨main _ (le_refl _), fun c c1 c2 c3 c4 => Or.inr ?_⟩
  have hbc : before isFour c = k + (c - e0) := by
    have := main (c - e0) (by omega)
    rwa [show e0 + (c - e0) = c by omega] at this
  rw [hbc]
  refine ⟨?_, by omega, ?_⟩
  · rw [encode_computed e0 e1 k c hm c1 c2 (by omega) (by omega), Nat.add_comm]
  · rw [hback c c1 c2]
    simp only [true_iff]
    rintro ⟨r, hr, r1, r2⟩
    rcases computed_kept _ hm r hr with h | h <;> (simp only at h; omega)

theorem seg_gap (lo0 hi off sub lo ks ke : Nat) (hm : (lo0, hi, off, sub) ∈ gaps) (hlo : lo0 ≤ lo) (h0 : 0x80 ≤ lo) (h2 : hi ≤ 0x10000) (hh : lo ≤ hi) (hs : hi ≤ 0xD800 ∨ 0xE000 ≤ lo)
    (hb : before isFour lo = ks) (hke : ke ≤ 39394) (hl : hi - lo ≤ 2 ^ 15) (hscan : bin (check off sub ks ke) 15 lo (hi - lo) ks = ke)
    (hback : ∀ k, ks ≤ k → k < ke → byIndex (1687218 + k) = if sub = 0 then 0xFFFD else lookup4 (k - sub)) :
    before isFour hi = ke ∧ Seg lo hi := by
  rw [bin_eq _ (check_big off sub ks ke) _ _ _ _ hl] at hscan
  have hr := seq_right off sub ks ke hke (hi - lo) lo ks (by rw [hscan]; unfold big; omega)
  have main : ∀ i, i ≤ hi - lo → before isFour (lo + i) = seqF (check off sub ks ke) i lo ks := by
    intro i
    induction i with
    | zero => intro _; exact hb
    | succ i ih =>
      intro hi'
      have henc := encode_gap lo0 hi off sub (lo + i) hm (by omega) (by omega) (by omega) (by omega)
      rw [show lo + (i + 1) = lo + i + 1 by omega, before_succ, ih (by omega)]
      rcases hr i (by omega) with ⟨a, b, e1, e2, e3, e4⟩ | ⟨e1, e2, e3⟩ | ⟨e0, e1, e2, e3, e4, e5⟩
      · rw [e3, if_neg, Nat.add_zero]
        rintro ⟨_, _, h⟩
        rw [isFour, henc, e1] at h
        simp at h
      · rw [e2, if_neg, Nat.add_zero]
        rintro ⟨_, _, h⟩
        rw [isFour, e1] at h
        simp at h
      · rw [e2, if_pos]
        exact ⟨by omega, by omega, isFour_four _ _ (henc.trans e1) e0⟩
  have hend := main (hi - lo) (le_refl _)
  rw [hscan, show lo + (hi - lo) = hi by omega] at hend
  refine ⟨hend, fun c c1 c2 c3 c4 => ?_⟩
  have hbc := main (c - lo) (by omega)
  rw [show lo + (c - lo) = c by omega] at hbc
  have henc := encode_gap lo0 hi off sub c hm (by omega) (by omega) (by omega) (by omega)
  have hc := hr (c - lo) (by omega)
  rw [show lo + (c - lo) = c by omega] at hc
  rcases hc with ⟨a, b, e1, e2, e3, e4⟩ | ⟨e1, e2, e3⟩ | ⟨e0, e1, e2, e3, e4, e5⟩
  · exact Or.inl ⟨a, b, henc.trans e1, e2, e4⟩
  · exact absurd e1 c4
  · right
    rw [hbc]
    refine ⟨henc.trans e1, by omega, ?_⟩
    rw [hback _ e3 e4]
    exact e5

/-- Every character of the basic plane. -/
theorem bmp_all : Seg 0x80 0x10000 := by
  have b0 : before isFour 0x80 = 0 := by
    rw [before, List.length_eq_zero_iff, List.filter_eq_nil_iff]
    intro v hv
    rw [List.mem_range] at hv
    simp only [Bool.and_eq_true, decide_eq_true_eq, not_and]
    intro h; omega
  obtain ⟨g0, q0⟩ := seg_gap 128 1106 128 0 128 0 820 (by decide) (by norm_num) (by norm_num) (by norm_num) (by norm_num) (by norm_num) b0 (by norm_num) (by norm_num) t1
    (by intro k k1 k2; rw [byIndex_eq k (by omega)]; repeat rw [if_neg (by omega)]
        rw [if_pos rfl])
  obtain ⟨h0, r0⟩ := seg_computed 1106 8208 820 (by decide) (by norm_num) (by norm_num) (by norm_num) g0 (by norm_num) (by norm_num)
    (by intro c c1 c2; rw [byIndex_eq _ (by omega)]; repeat rw [if_neg (by omega)]
        rw [if_pos (by omega)]; omega)
  obtain ⟨g1, q1⟩ := seg_gap 8208 9795 7230 7922 8208 7922 9219 (by decide) (by norm_num) (by norm_num) (by norm_num) (by norm_num) (by norm_num) h0 (by norm_num) (by norm_num) t2
    (by intro k k1 k2; rw [byIndex_eq k (by omega)]; repeat rw [if_neg (by omega)]
        rw [if_pos (by omega), if_neg (by norm_num)])
  obtain ⟨h1, r1⟩ := seg_computed 9795 11905 9219 (by decide) (by norm_num) (by norm_num) (by norm_num) g1 (by norm_num) (by norm_num)
    (by intro c c1 c2; rw [byIndex_eq _ (by omega)]; repeat rw [if_neg (by omega)]
        rw [if_pos (by omega)]; omega)
  obtain ⟨g2, q2⟩ := seg_gap 11905 13851 9340 10032 11905 11329 12973 (by decide) (by norm_num) (by norm_num) (by norm_num) (by norm_num) (by norm_num) h1 (by norm_num) (by norm_num) t3
    (by intro k k1 k2; rw [byIndex_eq k (by omega)]; repeat rw [if_neg (by omega)]
        rw [if_pos (by omega), if_neg (by norm_num)])
  obtain ⟨h2, r2⟩ := seg_computed 13851 14616 12973 (by decide) (by norm_num) (by norm_num) (by norm_num) g2 (by norm_num) (by norm_num)
    (by intro c c1 c2; rw [byIndex_eq _ (by omega)]; repeat rw [if_neg (by omega)]
        rw [if_pos (by omega)]; omega)
  obtain ⟨g3, q3⟩ := seg_gap 14616 15585 10105 10797 14616 13738 14698 (by decide) (by norm_num) (by norm_num) (by norm_num) (by norm_num) (by norm_num) h2 (by norm_num) (by norm_num) t4
    (by intro k k1 k2; rw [byIndex_eq k (by omega)]; repeat rw [if_neg (by omega)]
        rw [if_pos (by omega), if_neg (by norm_num)])
  obtain ⟨h3, r3⟩ := seg_computed 15585 16470 14698 (by decide) (by norm_num) (by norm_num) (by norm_num) g3 (by norm_num) (by norm_num)
    (by intro c c1 c2; rw [byIndex_eq _ (by omega)]; repeat rw [if_neg (by omega)]
        rw [if_pos (by omega)]; omega)
  obtain ⟨g4, q4⟩ := seg_gap 16470 16736 10990 11682 16470 15583 15847 (by decide) (by norm_num) (by norm_num) (by norm_num) (by norm_num) (by norm_num) h3 (by norm_num) (by norm_num) t5
    (by intro k k1 k2; rw [byIndex_eq k (by omega)]; repeat rw [if_neg (by omega)]
        rw [if_pos (by omega), if_neg (by norm_num)])
  obtain ⟨h4, r4⟩ := seg_computed 16736 17207 15847 (by decide) (by norm_num) (by norm_num) (by norm_num) g4 (by norm_num) (by norm_num)
    (by intro c c1 c2; rw [byIndex_eq _ (by omega)]; repeat rw [if_neg (by omega)]
        rw [if_pos (by omega)]; omega)
  obtain ⟨g5, q5⟩ := seg_gap 17207 17623 11461 12153 17207 16318 16729 (by decide) (by norm_num) (by norm_num) (by norm_num) (by norm_num) (by norm_num) h4 (by norm_num) (by norm_num) t6
    (by intro k k1 k2; rw [byIndex_eq k (by omega)]; repeat rw [if_neg (by omega)]
        rw [if_pos (by omega), if_neg (by norm_num)])
  obtain ⟨h5, r5⟩ := seg_computed 17623 17996 16729 (by decide) (by norm_num) (by norm_num) (by norm_num) g5 (by norm_num) (by norm_num)
    (by intro c c1 c2; rw [byIndex_eq _ (by omega)]; repeat rw [if_neg (by omega)]
        rw [if_pos (by omega)]; omega)
  obtain ⟨g6, q6⟩ := seg_gap 17996 18318 11834 12526 17996 17102 17418 (by decide) (by norm_num) (by norm_num) (by norm_num) (by norm_num) (by norm_num) h5 (by norm_num) (by norm_num) t7
    (by intro k k1 k2; rw [byIndex_eq k (by omega)]; repeat rw [if_neg (by omega)]
        rw [if_pos (by omega), if_neg (by norm_num)])
  obtain ⟨h6, r6⟩ := seg_computed 18318 18759 17418 (by decide) (by norm_num) (by norm_num) (by norm_num) g6 (by norm_num) (by norm_num)
    (by intro c c1 c2; rw [byIndex_eq _ (by omega)]; repeat rw [if_neg (by omega)]
        rw [if_pos (by omega)]; omega)
  obtain ⟨g7, q7⟩ := seg_gap 18759 18872 12275 12967 18759 17859 17961 (by decide) (by norm_num) (by norm_num) (by norm_num) (by norm_num) (by norm_num) h6 (by norm_num) (by norm_num) t8
    (by intro k k1 k2; rw [byIndex_eq k (by omega)]; repeat rw [if_neg (by omega)]
        rw [if_pos (by omega), if_neg (by norm_num)])
  obtain ⟨h7, r7⟩ := seg_computed 18872 19575 17961 (by decide) (by norm_num) (by norm_num) (by norm_num) g7 (by norm_num) (by norm_num)
    (by intro c c1 c2; rw [byIndex_eq _ (by omega)]; repeat rw [if_neg (by omega)]
        rw [if_pos (by omega)]; omega)
  obtain ⟨g8, q8⟩ := seg_gap 19575 40870 12978 13670 19575 18664 19043 (by decide) (by norm_num) (by norm_num) (by norm_num) (by norm_num) (by norm_num) h7 (by norm_num) (by norm_num) t9
    (by intro k k1 k2; rw [byIndex_eq k (by omega)]; repeat rw [if_neg (by omega)]
        rw [if_pos (by omega), if_neg (by norm_num)])
  obtain ⟨h8, r8⟩ := seg_computed 40870 55296 19043 (by decide) (by norm_num) (by norm_num) (by norm_num) g8 (by norm_num) (by norm_num)
    (by intro c c1 c2; rw [byIndex_eq _ (by omega)]; repeat rw [if_neg (by omega)]
        rw [if_pos (by omega)]; omega)
  have bs : ∀ i, i ≤ 2048 → before isFour (0xD800 + i) = 33469 := by
    intro i
    induction i with
    | zero => intro _; exact h8
    | succ i ih =>
      intro hi
      rw [show 0xD800 + (i + 1) = 0xD800 + i + 1 by omega, before_succ, ih (by omega), if_neg]
      rintro ⟨_, h, _⟩
      exact h ⟨by omega, by omega⟩
  obtain ⟨g9, q9⟩ := seg_gap 55296 59493 27404 28096 57344 33469 33550 (by decide) (by norm_num) (by norm_num) (by norm_num) (by norm_num) (by norm_num) (bs 2048 (le_refl _)) (by norm_num) (by norm_num) t10
    (by intro k k1 k2; rw [byIndex_eq k (by omega)]; repeat rw [if_neg (by omega)]
        rw [if_pos (by omega), if_neg (by norm_num)])
  obtain ⟨h9, r9⟩ := seg_computed 59493 63788 33550 (by decide) (by norm_num) (by norm_num) (by norm_num) g9 (by norm_num) (by norm_num)
    (by intro c c1 c2; rw [byIndex_eq _ (by omega)]; repeat rw [if_neg (by omega)]
        rw [if_pos (by omega)]; omega)
  obtain ⟨g10, q10⟩ := seg_gap 63788 64042 31699 32391 63788 37845 38078 (by decide) (by norm_num) (by norm_num) (by norm_num) (by norm_num) (by norm_num) h9 (by norm_num) (by norm_num) t11
    (by intro k k1 k2; rw [byIndex_eq k (by omega)]; repeat rw [if_neg (by omega)]
        rw [if_pos (by omega), if_neg (by norm_num)])
  obtain ⟨h10, r10⟩ := seg_computed 64042 65072 38078 (by decide) (by norm_num) (by norm_num) (by norm_num) g10 (by norm_num) (by norm_num)
    (by intro c c1 c2; rw [byIndex_eq _ (by omega)]; repeat rw [if_neg (by omega)]
        rw [if_pos (by omega)]; omega)
  obtain ⟨g11, q11⟩ := seg_gap 65072 65510 32729 33421 65072 39108 39394 (by decide) (by norm_num) (by norm_num) (by norm_num) (by norm_num) (by norm_num) h10 (by norm_num) (by norm_num) t12
    (by intro k k1 k2; rw [byIndex_eq k (by omega)]; repeat rw [if_neg (by omega)]
        rw [if_pos (by omega), if_neg (by norm_num)])
  obtain ⟨h11, r11⟩ := seg_computed 65510 65536 39394 (by decide) (by norm_num) (by norm_num) (by norm_num) g11 (by norm_num) (by norm_num)
    (by intro c c1 c2; rw [byIndex_eq _ (by omega)]; repeat rw [if_neg (by omega)]
        rw [if_pos (by omega)]; omega)
  intro c c1 c2 c3 c4
  have hns : ¬ (0xD800 ≤ c ∧ c < 0xE000) := c3.2
  by_cases xq0 : c < 1106
  · exact q0 c (by omega) xq0 c3 c4
  by_cases xr0 : c < 8208
  · exact r0 c (by omega) xr0 c3 c4
  by_cases xq1 : c < 9795
  · exact q1 c (by omega) xq1 c3 c4
  by_cases xr1 : c < 11905
  · exact r1 c (by omega) xr1 c3 c4
  by_cases xq2 : c < 13851
  · exact q2 c (by omega) xq2 c3 c4
  by_cases xr2 : c < 14616
  · exact r2 c (by omega) xr2 c3 c4
  by_cases xq3 : c < 15585
  · exact q3 c (by omega) xq3 c3 c4
  by_cases xr3 : c < 16470
  · exact r3 c (by omega) xr3 c3 c4
  by_cases xq4 : c < 16736
  · exact q4 c (by omega) xq4 c3 c4
  by_cases xr4 : c < 17207
  · exact r4 c (by omega) xr4 c3 c4
  by_cases xq5 : c < 17623
  · exact q5 c (by omega) xq5 c3 c4
  by_cases xr5 : c < 17996
  · exact r5 c (by omega) xr5 c3 c4
  by_cases xq6 : c < 18318
  · exact q6 c (by omega) xq6 c3 c4
  by_cases xr6 : c < 18759
  · exact r6 c (by omega) xr6 c3 c4
  by_cases xq7 : c < 18872
  · exact q7 c (by omega) xq7 c3 c4
  by_cases xr7 : c < 19575
  · exact r7 c (by omega) xr7 c3 c4
  by_cases xq8 : c < 40870
  · exact q8 c (by omega) xq8 c3 c4
  by_cases xr8 : c < 55296
  · exact r8 c (by omega) xr8 c3 c4
  by_cases xq9 : c < 59493
  · exact q9 c (by omega) xq9 c3 c4
  by_cases xr9 : c < 63788
  · exact r9 c (by omega) xr9 c3 c4
  by_cases xq10 : c < 64042
  · exact q10 c (by omega) xq10 c3 c4
  by_cases xr10 : c < 65072
  · exact r10 c (by omega) xr10 c3 c4
  by_cases xq11 : c < 65510
  · exact q11 c (by omega) xq11 c3 c4
  by_cases xr11 : c < 65536
  · exact r11 c (by omega) xr11 c3 c4
  omega

end Verif.Gb
