import Verif.IntPrint.Model
import Verif.Num.Lemmas
/-! Helper lemmas for integer printing. -/
namespace Verif.IntPrint
open Verif

theorem charLit_eq (upper : Bool) (v : Nat) : charLit upper v = digitChar upper v := rfl

/-- Indexing a flattened list of blocks of equal length. -/
theorem flatMap_getElem? {α β} (k : Nat) (hk : 0 < k) (f : α → List β) (hf : ∀ x, (f x).length = k)
    (l : List α) (a b : Nat) (hb : b < k) :
    (l.flatMap f)[a * k + b]? = (l[a]?).bind (fun x => (f x)[b]?) := by
  induction l generalizing a with
  | nil => simp
  | cons x xs ih =>
    cases a with
    | zero =>
      simp only [List.flatMap_cons, Nat.zero_mul, Nat.zero_add]
      rw [List.getElem?_append_left (by rw [hf]; exact hb)]
      simp
    | succ a =>
      simp only [List.flatMap_cons]
      have e : (a + 1) * k + b = a * k + b + k := by ring
      rw [e, List.getElem?_append_right (by rw [hf]; omega), hf]
      have : a * k + b + k - k = a * k + b := by omega
      rw [this, ih]
      simp

theorem flatMap_const_length {α β} (k : Nat) (f : α → List β) (hf : ∀ x, (f x).length = k) (l : List α) :
    (l.flatMap f).length = l.length * k := by
  induction l with
  | nil => simp
  | cons x xs ih => simp [List.flatMap_cons, hf, ih]; ring

theorem digitsTable_get (base : Nat) (upper : Bool) (u c : Nat) (hu : u < base * base) (hc : c < 2) :
    (digitsTable base upper)[2 * u + c]? =
      some (if c = 0 then digitChar upper (u / base) else digitChar upper (u % base)) := by
  have hb : 0 < base := by
    rcases Nat.eq_zero_or_pos base with h | h
    · subst h; simp at hu
    · exact h
  have e : 2 * u + c = (u / base) * (base * 2) + (u % base * 2 + c) := by
    have := Nat.div_add_mod u base
    have : 2 * u = 2 * (base * (u / base) + u % base) := by rw [this]
    rw [this]; ring
  have hm : u % base < base := Nat.mod_lt _ hb
  have hd : u / base < base := Nat.div_lt_of_lt_mul hu
  unfold digitsTable
  have hlen2 : ∀ i, ((List.range base).flatMap fun j => [charLit upper i, charLit upper j]).length = base * 2 := by
    intro i
    rw [flatMap_const_length 2 _ (by intro x; rfl)]; simp
  rw [e, flatMap_getElem? (base * 2) (by omega) _ hlen2 _ _ _ (by omega)]
  rw [List.getElem?_range hd]
  simp only [Option.bind_some]
  rw [flatMap_getElem? 2 (by omega) _ (by intro x; rfl) _ _ _ hc, List.getElem?_range hm]
  simp only [Option.bind_some]
  have : c = 0 ∨ c = 1 := by omega
  rcases this with h | h <;> subst h <;> simp [charLit_eq]

theorem copyPair_eq (base : Nat) (upper : Bool) (m : Mem) (iter u : Nat) (hu : u < base * base) :
    copyPair (digitsTable base upper) m iter u =
      some (store m iter ((padded base 2 u).map (digitChar upper))) := by
  have h0 := digitsTable_get base upper u 0 hu (by omega)
  have h1 := digitsTable_get base upper u 1 hu (by omega)
  have hd : u / base < base := Nat.div_lt_of_lt_mul hu
  simp at h0 h1
  simp [copyPair, h0, h1, padded, Nat.mod_eq_of_lt hd]

theorem jeaW_eq (m : Mem) (iter u : Nat) (hu : u < 100) :
    jeaW m iter u = some (store m iter ((padded 10 2 u).map (digitChar false))) :=
  copyPair_eq 10 false m iter u (by omega)

/-- The invariant of the fixed point word: `t/2^32` is `r/10^k` and the fraction encodes `r % 10^k`. -/
def WordInv (r k t : Nat) : Prop := r * 2 ^ 32 ≤ t * 10 ^ k ∧ t * 10 ^ k < (r + 1) * 2 ^ 32

theorem WordInv.div {r k t : Nat} (h : WordInv r k t) : t / 2 ^ 32 = r / 10 ^ k := by
  obtain ⟨h1, h2⟩ := h
  have hp : 0 < 10 ^ k := Nat.pow_pos (by omega)
  generalize 10 ^ k = P at *
  have hr := Nat.div_add_mod r P
  have hm := Nat.mod_lt r hp
  generalize r / P = q at *
  generalize r % P = s at *
  subst hr
  apply Nat.div_eq_of_lt_le
  · have : q * 2 ^ 32 * P ≤ t * P := by
      calc q * 2 ^ 32 * P ≤ (P * q + s) * 2 ^ 32 := by nlinarith
        _ ≤ _ := h1
    exact Nat.le_of_mul_le_mul_right this hp
  · have : t * P < (q + 1) * 2 ^ 32 * P := by
      calc t * P < (P * q + s + 1) * 2 ^ 32 := h2
        _ ≤ (P * q + P) * 2 ^ 32 := by
          apply Nat.mul_le_mul_right; omega
        _ = _ := by ring
    exact Nat.lt_of_mul_lt_mul_right this

/-- Remainder step: the low 32 bits encode `r % 10^k`. -/
theorem WordInv.low {r k t : Nat} (h : WordInv r k t) : WordInv (r % 10 ^ k) k (t % 2 ^ 32) := by
  have hd := h.div
  obtain ⟨h1, h2⟩ := h
  have ht := Nat.div_add_mod t (2 ^ 32)
  have hr := Nat.div_add_mod r (10 ^ k)
  rw [hd] at ht
  unfold WordInv
  generalize t % 2 ^ 32 = tl at *
  generalize r % 10 ^ k = s at *
  generalize r / 10 ^ k = q at *
  generalize 10 ^ k = P at *
  subst ht
  subst hr
  constructor <;> nlinarith

theorem WordInv.step {r k t : Nat} (h : WordInv r (k + 2) t) :
    WordInv (r % 10 ^ (k + 2)) k (100 * (t % 2 ^ 32)) := by
  have := h.low
  unfold WordInv at *
  have e : 100 * (t % 2 ^ 32) * 10 ^ k = (t % 2 ^ 32) * 10 ^ (k + 2) := by ring
  rw [e]; exact this

theorem WordInv.last {r t : Nat} (h : WordInv r 1 t) : 10 * (t % 2 ^ 32) / 2 ^ 32 = r % 10 := by
  have := h.low
  unfold WordInv at this
  simp only [pow_one] at this
  omega

set_option maxRecDepth 2000 in
/-- The multiplication constants are accurate enough: first word. -/
theorem jeaWord_inv (n u : Nat) (hn : 1 ≤ n) (hn8 : n ≤ 8) (hu : u < 10 ^ (n + 2)) (hu32 : u < 2 ^ 32)
    (h5 : n = 5 → 100000 ≤ u) : WordInv u n (jeaWord n u) := by
  unfold WordInv
  have : n = 1 ∨ n = 2 ∨ n = 3 ∨ n = 4 ∨ n = 5 ∨ n = 6 ∨ n = 7 ∨ n = 8 := by omega
  rcases this with h | h | h | h | h | h | h | h <;> subst h <;>
    simp only [jeaWord] <;> norm_num at hu hu32 ⊢
  · rw [Nat.mod_eq_of_lt (show 429496730 * u < _ by omega)]; omega
  · rw [Nat.mod_eq_of_lt (show 42949673 * u < _ by omega)]; omega
  · rw [Nat.mod_eq_of_lt (show 4294968 * u < _ by omega)]; omega
  · rw [Nat.mod_eq_of_lt (show 429497 * u < _ by omega)]; omega
  · have := h5 rfl
    rw [Nat.mod_eq_of_lt (show 2814749768 * u < _ by omega), Nat.mod_eq_of_lt (by omega)]; omega
  · rw [Nat.mod_eq_of_lt (show 2251799815 * u < _ by omega), Nat.mod_eq_of_lt (by omega)]; omega
  · rw [Nat.mod_eq_of_lt (show 3602879703 * u < _ by omega), Nat.mod_eq_of_lt (by omega)]; omega
  · rw [Nat.mod_eq_of_lt (show 2882303762 * u < _ by omega), Nat.mod_eq_of_lt (by omega)]; omega

theorem jeaA_eq (n : Nat) (m : Mem) (iter u : Nat) (hn : 1 ≤ n) (hn8 : n ≤ 8) (hu : u < 10 ^ (n + 2))
    (hu32 : u < 2 ^ 32) (h5 : n = 5 → 100000 ≤ u) :
    jeaA n m iter u =
      some (store m iter ((padded 10 2 (u / 10 ^ n)).map (digitChar false)), jeaWord n u) := by
  have hi := jeaWord_inv n u hn hn8 hu hu32 h5
  have hd := hi.div
  have h100 : u / 10 ^ n < 100 := by
    rw [Nat.div_lt_iff_lt_mul (Nat.pow_pos (by omega))]
    calc u < 10 ^ (n + 2) := hu
      _ = _ := by ring
  simp only [jeaA, hd]
  rw [jeaW_eq _ _ _ h100]
  rfl

/-- State in the middle of a run: the first `len` digits of `u` (those of `u / 10^k`) are stored, and the word
encodes the remaining `k` digits. -/
def Mid (m : Mem) (iter u len k : Nat) (s : Mem × Nat) : Prop :=
  s.1 = store m iter ((padded 10 len (u / 10 ^ k)).map (digitChar false)) ∧
    ∃ r, WordInv r k s.2 ∧ r % 10 ^ k = u % 10 ^ k

theorem jeaA_mid (n : Nat) (m : Mem) (iter u : Nat) (hn : 1 ≤ n) (hn8 : n ≤ 8) (hu : u < 10 ^ (n + 2))
    (hu32 : u < 2 ^ 32) (h5 : n = 5 → 100000 ≤ u) :
    ∃ s, jeaA n m iter u = some s ∧ Mid m iter u 2 n s :=
  ⟨_, jeaA_eq n m iter u hn hn8 hu hu32 h5, rfl, u, jeaWord_inv n u hn hn8 hu hu32 h5, rfl⟩

theorem jeaD_mid {m : Mem} {iter u len k : Nat} {s : Mem × Nat} (h : Mid m iter u len (k + 2) s) :
    ∃ s', jeaD len iter s = some s' ∧ Mid m iter u (len + 2) k s' := by
  obtain ⟨hm, r, hi, hr⟩ := h
  have hs := hi.step
  have hd := hs.div
  have hP : 0 < 10 ^ k := Nat.pow_pos (by omega)
  have e10 : 10 ^ (k + 2) = 10 ^ k * 100 := by ring
  have e1 : r % 10 ^ (k + 2) / 10 ^ k = u / 10 ^ k % 100 := by
    rw [hr, e10, Nat.mod_mul_right_div_self]
  have h100 : u / 10 ^ k % 100 < 100 := Nat.mod_lt _ (by omega)
  refine ⟨(store s.1 (iter + len) ((padded 10 2 (u / 10 ^ k % 100)).map (digitChar false)),
    100 * (s.2 % 2 ^ 32)), ?_, ?_, r % 10 ^ (k + 2), hs, ?_⟩
  · simp only [jeaD, hd, e1]
    rw [jeaW_eq _ _ _ h100]
    rfl
  · simp only
    rw [hm]
    rw [store_store_at _ _ _ _ _ (by simp), ← List.map_append]
    congr 2
    rw [padded_add 10 (by omega) len 2 (u / 10 ^ k)]
    rw [Nat.div_div_eq_div_mul, e10]; norm_num
  · rw [hr, e10, Nat.mod_mul_right_mod]

theorem jeaS_mid {m : Mem} {iter u len : Nat} {s : Mem × Nat} (h : Mid m iter u len 1 s) :
    jeaS len iter s = some (store m iter ((padded 10 (len + 1) u).map (digitChar false))) := by
  obtain ⟨hm, r, hi, hr⟩ := h
  simp only [jeaS, hi.last]
  simp only [pow_one] at hr hm
  rw [hm, store_store_at _ _ _ _ _ (by simp)]
  have : u % 10 < 10 := Nat.mod_lt _ (by omega)
  simp [padded, digitChar, hr, this]

theorem mid_zero {m : Mem} {iter u len : Nat} {s : Mem × Nat} (h : Mid m iter u len 0 s) :
    s.1 = store m iter ((padded 10 len u).map (digitChar false)) := by
  simpa using h.1

/-- `jeaiii_c<n>` writes exactly the `n+1` zero-padded digits.  For `n = 6` the multiplication constant is not
accurate for small values; it is only used for values of seven digits. -/
theorem jeaC_eq (n : Nat) (m : Mem) (iter u : Nat) (hn : n ≤ 9) (hu : u < 10 ^ (n + 1))
    (hu32 : u < 2 ^ 32) (h6 : n = 6 → 100000 ≤ u) :
    jeaC n m iter u = some (store m iter ((padded 10 (n + 1) u).map (digitChar false))) := by
  have cases10 : n = 0 ∨ n = 1 ∨ n = 2 ∨ n = 3 ∨ n = 4 ∨ n = 5 ∨ n = 6 ∨ n = 7 ∨ n = 8 ∨ n = 9 := by omega
  rcases cases10 with h | h | h | h | h | h | h | h | h | h <;> subst h
  · have h10 : u < 10 := by simpa using hu
    simp [jeaC, padded, digitChar, Nat.mod_eq_of_lt h10, h10]
  · exact jeaW_eq _ _ _ (by simpa using hu)
  all_goals
    obtain ⟨s, hs, hmid⟩ := jeaA_mid _ m iter u (by omega) (by omega) hu hu32 (by omega)
    simp only [jeaC, hs, Option.bind_eq_bind, Option.bind_some]
  · exact jeaS_mid hmid
  all_goals
    obtain ⟨s2, hs2, hmid2⟩ := jeaD_mid hmid
    simp only [Nat.reduceAdd] at hs2 hmid2
    simp only [hs2, Option.bind_some]
  · simp [mid_zero hmid2]
  · exact jeaS_mid hmid2
  all_goals
    obtain ⟨s3, hs3, hmid3⟩ := jeaD_mid hmid2
    simp only [Nat.reduceAdd] at hs3 hmid3
    simp only [hs3, Option.bind_some]
  · simp [mid_zero hmid3]
  · exact jeaS_mid hmid3
  all_goals
    obtain ⟨s4, hs4, hmid4⟩ := jeaD_mid hmid3
    simp only [Nat.reduceAdd] at hs4 hmid4
    simp only [hs4, Option.bind_some]
  · simp [mid_zero hmid4]
  · exact jeaS_mid hmid4
  obtain ⟨s5, hs5, hmid5⟩ := jeaD_mid hmid4
  simp only [Nat.reduceAdd] at hs5 hmid5
  simp [hs5, mid_zero hmid5]

/-- `text` of the decimal digits. -/
def decDigits (ds : List Nat) : List Nat := ds.map (digitChar false)

theorem jeaF_eq (n : Nat) (m : Mem) (iter u : Nat) (hn : n ≤ 9) (hu : u < 10 ^ (n + 1))
    (hu32 : u < 2 ^ 32) (h6 : n = 6 → 100000 ≤ u) :
    jeaF n m iter u = some (store m iter ((padded 10 (n + 1) u).map (digitChar false)), iter + (n + 1)) := by
  simp [jeaF, jeaC_eq n m iter u hn hu hu32 h6]

/-- Result of a complete numeral print. -/
def Printed (m : Mem) (iter n : Nat) : Option (Mem × Nat) :=
  some (store m iter (decText n), iter + (decText n).length)

theorem jeaF_numeral (n : Nat) (m : Mem) (iter u : Nat) (hn : n ≤ 9) (hu : u < 10 ^ (n + 1))
    (hu32 : u < 2 ^ 32) (hlow : n = 0 ∨ 10 ^ n ≤ u) : jeaF n m iter u = Printed m iter u := by
  rw [jeaF_eq n m iter u hn hu hu32 (by
    intro h; subst h; rcases hlow with h | h
    · omega
    · norm_num at h; omega)]
  have := numeral_eq_padded (b := 10) (by omega) n u hu hlow
  simp [Printed, decText, this]

theorem jeaTree_eq (left right : Nat) (m : Mem) (iter u : Nat) (hlr : left ≤ right) (hr : right ≤ 9)
    (hu : u < 10 ^ (right + 1)) (hu32 : u < 2 ^ 32) (hlow : left = 0 ∨ 10 ^ left ≤ u) :
    jeaTree left right m iter u = Printed m iter u := by
  fun_induction jeaTree left right m iter u with
  | case1 l r h =>
    have : l = r := by omega
    subst this
    exact jeaF_numeral _ _ _ _ (by omega) hu hu32 hlow
  | case2 l _ hlt => exact jeaF_numeral _ _ _ _ (by omega) hlt hu32 hlow
  | case3 l _ hlt => exact jeaF_numeral _ _ _ _ (by omega) hu hu32 (Or.inr (by omega))
  | case4 => exact jeaF_numeral _ _ _ _ (by omega) (by assumption) hu32 hlow
  | case5 l _ _ hlt ih => exact ih (by omega) (by omega) hu (Or.inr (by omega))
  | case6 r h1 h2 h3 hlt ih => exact ih (by omega) (by omega) (by norm_num; omega) (Or.inl rfl)
  | case7 r h1 h2 h3 hlt ih => exact ih (by omega) hr hu (Or.inr (by norm_num; omega))
  | case8 l r h1 h2 h3 h4 mid hlt ih =>
    exact ih (by omega) (by omega) hlt hlow
  | case9 l r h1 h2 h3 h4 mid hlt ih =>
    exact ih (by omega) hr hu (Or.inr (by omega))

/-- Appending the padded low digits of `n` to the numeral of the high part gives the numeral of `n`. -/
theorem decText_split (k n : Nat) (h : 10 ^ k ≤ n) :
    decText n = decText (n / 10 ^ k) ++ (padded 10 k (n % 10 ^ k)).map (digitChar false) := by
  simp [decText, numeral_split (b := 10) (by omega) k n h]

theorem decText_small (n : Nat) (h : n < 10) : decText n = [48 + n] := by
  simp [decText, numeral_small h, digitChar, h]

theorem decText_two (n : Nat) (h1 : 10 ≤ n) (h2 : n < 100) :
    decText n = (padded 10 2 n).map (digitChar false) := by
  simp [decText, numeral_eq_padded (b := 10) (by omega) 1 n (by simpa using h2) (Or.inr (by simpa using h1))]

theorem jeaMain32_eq (m : Mem) (iter n : Nat) (hn : n < 2 ^ 32) :
    jeaMain32 false m iter n = Printed m iter n :=
  jeaTree_eq 0 9 m iter n (by omega) (by omega) (by norm_num at *; omega) hn (Or.inl rfl)

theorem jeaMain32_ryu (m : Mem) (iter n : Nat) (hn : n < 10 ^ 9) :
    jeaMain32 true m iter n = Printed m iter n :=
  jeaTree_eq 0 8 m iter n (by omega) (by omega) hn (by norm_num at *; omega) (Or.inl rfl)

theorem jeaF8_after (m : Mem) (iter u : Nat) (pre : List Nat) (hu : u < 10 ^ 9) :
    jeaF 8 (store m iter pre) (iter + pre.length) u =
      some (store m iter (pre ++ (padded 10 9 u).map (digitChar false)), iter + (pre.length + 9)) := by
  rw [jeaF_eq 8 _ _ _ (by omega) hu (by norm_num at *; omega) (by omega), store_store_append]
  simp [Nat.add_assoc]

theorem padded_19 (n : Nat) : padded 10 19 n =
    padded 10 1 (n / 1000000000 / 1000000000) ++ padded 10 9 (n / 1000000000 % 1000000000)
      ++ padded 10 9 (n % 1000000000) := by
  have e1 := padded_add 10 (by omega) 10 9 n
  have e2 := padded_add 10 (by omega) 1 9 (n / 10 ^ 9)
  norm_num only at e1 e2
  rw [e1, e2]

theorem jeaMain64Rec_eq (m : Mem) (iter n : Nat) (hn : n < 10 ^ 19) :
    jeaMain64Rec m iter n =
      some (store m iter ((padded 10 19 n).map (digitChar false)), iter + 19) := by
  norm_num at hn
  have h1 : n % 1000000000 % 2 ^ 32 = n % 1000000000 := Nat.mod_eq_of_lt (by omega)
  have h2 : n / 1000000000 / 1000000000 % 2 ^ 32 = n / 1000000000 / 1000000000 := Nat.mod_eq_of_lt (by omega)
  have h3 : n / 1000000000 % 1000000000 % 2 ^ 32 = n / 1000000000 % 1000000000 := Nat.mod_eq_of_lt (by omega)
  rw [padded_19]
  simp only [jeaMain64Rec, h1, h2, h3]
  have hv : n / 1000000000 / 1000000000 < 10 := by omega
  have hx : n / 1000000000 % 1000000000 < 10 ^ 9 := by omega
  have hy : n % 1000000000 < 10 ^ 9 := by omega
  generalize n / 1000000000 / 1000000000 = v at *
  generalize n / 1000000000 % 1000000000 = x at *
  generalize n % 1000000000 = y at *
  rw [jeaC_eq 0 _ _ _ (by omega) (by omega) (by omega) (by omega)]
  simp only [Option.bind_eq_bind, Option.bind_some]
  have := jeaF8_after m iter x ((padded 10 1 v).map (digitChar false)) hx
  simp only [List.length_map, padded_length] at this
  rw [Nat.zero_add, this]
  simp only [Option.bind_some, ← List.map_append]
  have := jeaF8_after m iter y ((padded 10 1 v ++ padded 10 9 x).map (digitChar false)) hy
  simp only [List.length_map, padded_length, List.length_append] at this
  rw [this, ← List.map_append]

theorem printed_then_F8 (m : Mem) (iter n : Nat) (h : 10 ^ 9 ≤ n) :
    (Printed m iter (n / 1000000000)).bind (fun s => jeaF 8 s.1 s.2 (n % 1000000000)) = Printed m iter n := by
  simp only [Printed, Option.bind_some]
  rw [jeaF8_after _ _ _ _ (show n % 1000000000 < 10 ^ 9 by omega)]
  have := decText_split 9 n h
  norm_num only at this
  rw [this]
  simp

theorem jeaLead_eq (m : Mem) (iter v : Nat) (hv : v < 100) : jeaLead m iter v = Printed m iter v := by
  unfold jeaLead
  by_cases h : v < 10
  · simp [h, jeaC, Printed, decText_small _ h]
  · rw [if_neg h, jeaW_eq _ _ _ hv]
    simp [Printed, decText_two _ (by omega : 10 ≤ v) (by omega)]

theorem jeaHigh64_eq (m : Mem) (iter a : Nat) (ha : a < 2 ^ 35) :
    jeaHigh64 false m iter a = Printed m iter a := by
  norm_num at ha
  unfold jeaHigh64
  by_cases h : a = a % 2 ^ 32
  · simp only [← h, ne_eq, not_true_eq_false, if_false, Bool.false_eq_true]
    exact jeaMain32_eq m iter a (by omega)
  · have h2 : a / 1000000000 % 2 ^ 32 = a / 1000000000 := Nat.mod_eq_of_lt (by omega)
    have h3 : a % 1000000000 % 2 ^ 32 = a % 1000000000 := Nat.mod_eq_of_lt (by omega)
    simp only [ne_eq, h, not_false_eq_true, if_true, if_false, Bool.false_eq_true, h2, h3]
    rw [jeaLead_eq _ _ _ (by omega)]
    exact printed_then_F8 m iter a (by norm_num; omega)

theorem jeaMain64_eq (m : Mem) (iter n : Nat) (hn : n < 2 ^ 64) :
    jeaMain64 false m iter n = Printed m iter n := by
  norm_num at hn
  unfold jeaMain64
  by_cases h0 : n / 2 ^ 32 % 2 ^ 32 = 0
  · have hlt : n < 2 ^ 32 := by omega
    simp only [h0, if_true]
    rw [Nat.mod_eq_of_lt hlt]
    exact jeaMain32_eq m iter n hlt
  · have h1 : n % 1000000000 % 2 ^ 32 = n % 1000000000 := Nat.mod_eq_of_lt (by omega)
    simp only [h0, if_false, h1]
    rw [jeaHigh64_eq _ _ _ (by norm_num; omega)]
    exact printed_then_F8 m iter n (by norm_num; omega)

theorem jeaMain64_ryu (m : Mem) (iter n : Nat) (hn : n < 10 ^ 17) :
    jeaMain64 true m iter n = Printed m iter n := by
  norm_num at hn
  unfold jeaMain64
  by_cases h0 : n / 2 ^ 32 % 2 ^ 32 = 0
  · have hlt : n < 2 ^ 32 := by omega
    simp only [h0, if_true]
    rw [Nat.mod_eq_of_lt hlt]
    exact jeaMain32_eq m iter n hlt
  · have h1 : n % 1000000000 % 2 ^ 32 = n % 1000000000 := Nat.mod_eq_of_lt (by omega)
    have h2 : n / 1000000000 % 2 ^ 32 = n / 1000000000 := Nat.mod_eq_of_lt (by omega)
    simp only [h0, if_false, h1, jeaHigh64, h2, if_true]
    rw [jeaTree_eq 0 7 m iter _ (by omega) (by omega) (by norm_num; omega) (by omega) (Or.inl rfl)]
    exact printed_then_F8 m iter n (by norm_num; omega)

theorem jeaMain64Rec_after (m : Mem) (iter u : Nat) (pre : List Nat) (hu : u < 10 ^ 19) :
    jeaMain64Rec (store m iter pre) (iter + pre.length) u =
      some (store m iter (pre ++ (padded 10 19 u).map (digitChar false)), iter + (pre.length + 19)) := by
  rw [jeaMain64Rec_eq _ _ _ hu, store_store_append]
  simp [Nat.add_assoc]

theorem printed_then_Rec (m : Mem) (iter n : Nat) (h : 10 ^ 19 ≤ n) :
    (Printed m iter (n / 10000000000000000000)).bind
      (fun s => jeaMain64Rec s.1 s.2 (n % 10000000000000000000)) = Printed m iter n := by
  simp only [Printed, Option.bind_some]
  rw [jeaMain64Rec_after _ _ _ _ (show n % 10000000000000000000 < 10 ^ 19 by omega)]
  have := decText_split 19 n h
  norm_num only at this
  rw [this]
  simp

theorem jeaHigh128_eq (m : Mem) (iter a : Nat) (ha : a < 4 * 10 ^ 19) :
    jeaHigh128 false m iter a = Printed m iter a := by
  norm_num at ha
  unfold jeaHigh128
  by_cases h : a = a % 2 ^ 64
  · simp only [← h, ne_eq, not_true_eq_false, if_false, Bool.false_eq_true]
    exact jeaMain64_eq m iter a (by rw [h]; exact Nat.mod_lt _ (by norm_num))
  · have ha' : 2 ^ 64 ≤ a := by
      by_contra h'
      exact h (Nat.mod_eq_of_lt (by omega)).symm
    have hv : a / 10000000000000000000 < 10 := by omega
    have h2 : a / 10000000000000000000 % 2 ^ 32 = a / 10000000000000000000 := Nat.mod_eq_of_lt (by omega)
    have h3 : a % 10000000000000000000 % 2 ^ 64 = a % 10000000000000000000 := Nat.mod_eq_of_lt (by omega)
    simp only [ne_eq, h, not_false_eq_true, if_true, if_false, Bool.false_eq_true, h2, h3]
    rw [← printed_then_Rec m iter a (by norm_num; omega)]
    simp [jeaC, Printed, decText_small _ hv]

theorem jeaMain128_eq (m : Mem) (iter n : Nat) (hn : n < 2 ^ 128) :
    jeaMain128 false m iter n = Printed m iter n := by
  norm_num at hn
  unfold jeaMain128
  by_cases h0 : n / 2 ^ 64 % 2 ^ 64 = 0
  · have hlt : n < 2 ^ 64 := by
      have : n / 2 ^ 64 < 2 ^ 64 := by omega
      rw [Nat.mod_eq_of_lt this] at h0
      omega
    simp only [h0, if_true]
    rw [Nat.mod_eq_of_lt hlt]
    exact jeaMain64_eq m iter n hlt
  · have hge : 2 ^ 64 ≤ n := by
      by_contra h
      have : n / 2 ^ 64 = 0 := Nat.div_eq_of_lt (by omega)
      rw [this] at h0; simp at h0
    have h1 : n % 10000000000000000000 % 2 ^ 64 = n % 10000000000000000000 := Nat.mod_eq_of_lt (by omega)
    simp only [h0, if_false, h1]
    rw [jeaHigh128_eq _ _ _ (by norm_num; omega)]
    exact printed_then_Rec m iter n (by norm_num; omega)

theorem jeaMain_eq (bits : Nat) (hb : bits = 8 ∨ bits = 16 ∨ bits = 32 ∨ bits = 64 ∨ bits = 128)
    (m : Mem) (iter n : Nat) (hn : n < 2 ^ bits) : jeaMain bits false m iter n = Printed m iter n := by
  unfold jeaMain
  rcases hb with h | h | h | h | h <;> subst h <;> simp only [Nat.reduceEqDiff, if_true, if_false]
  · exact jeaMain32_eq m iter n (by norm_num at *; omega)
  · exact jeaMain32_eq m iter n (by norm_num at *; omega)
  · exact jeaMain32_eq m iter n hn
  · exact jeaMain64_eq m iter n hn
  · exact jeaMain128_eq m iter n hn

end Verif.IntPrint
