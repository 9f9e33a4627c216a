import Verif.Num.Spec
import Mathlib.Tactic.Ring
import Mathlib.Data.List.Induction
import Mathlib.Tactic.Linarith
import Mathlib.Algebra.Order.Ring.Nat
/-! Helper lemmas about numerals. -/
namespace Verif

theorem head?_append_ne {α} (l r : List α) (h : l ≠ []) : (l ++ r).head? = l.head? := by
  cases l with
  | nil => exact absurd rfl h
  | cons x xs => rfl

theorem numeral_small {b n : Nat} (h : n < b) : numeral b n = [n] := by
  rw [numeral]; simp [h]

theorem numeral_step {b n : Nat} (hb : 2 ≤ b) (h : b ≤ n) : numeral b n = numeral b (n / b) ++ [n % b] := by
  rw [numeral]; rw [dif_neg]; omega

@[simp] theorem padded_length (b k n : Nat) : (padded b k n).length = k := by
  induction k generalizing n with
  | zero => rfl
  | succ k ih => simp [padded, ih]

@[simp] theorem digitsValue_nil (b : Nat) : digitsValue b [] = 0 := rfl

theorem digitsValue_append_singleton (b : Nat) (ds : List Nat) (d : Nat) :
    digitsValue b (ds ++ [d]) = digitsValue b ds * b + d := by
  simp [digitsValue, List.foldl_append]

theorem digitsValue_append (b : Nat) (ds es : List Nat) :
    digitsValue b (ds ++ es) = digitsValue b ds * b ^ es.length + digitsValue b es := by
  induction es using List.reverseRecOn with
  | nil => simp
  | append_singleton es e ih =>
    rw [← List.append_assoc, digitsValue_append_singleton, digitsValue_append_singleton, ih]
    simp [pow_succ]; ring

theorem padded_value (b k n : Nat) (hn : n < b ^ k) : digitsValue b (padded b k n) = n := by
  induction k generalizing n with
  | zero => simp at hn; simp [padded, hn]
  | succ k ih =>
    have : n / b < b ^ k := by
      rw [Nat.div_lt_iff_lt_mul]
      · simpa [pow_succ] using hn
      · rcases Nat.eq_zero_or_pos b with h | h
        · subst h; simp at hn
        · exact h
    simp [padded, digitsValue_append_singleton, ih _ this, Nat.div_add_mod']

theorem padded_lt (b k n : Nat) (hb : 0 < b) : ∀ d ∈ padded b k n, d < b := by
  induction k generalizing n with
  | zero => simp [padded]
  | succ k ih =>
    intro d hd
    simp only [padded, List.mem_append, List.mem_singleton] at hd
    rcases hd with h | h
    · exact ih _ d h
    · subst h; exact Nat.mod_lt _ hb

/-- Splitting zero-padded digit runs. -/
theorem padded_add (b : Nat) (hb : 0 < b) (j k n : Nat) :
    padded b (j + k) n = padded b j (n / b ^ k) ++ padded b k (n % b ^ k) := by
  induction k generalizing n with
  | zero => simp [padded, Nat.mod_one]
  | succ k ih =>
    have e : j + (k + 1) = (j + k) + 1 := by omega
    rw [e, padded, ih, padded]
    have h1 : n / b / b ^ k = n / b ^ (k + 1) := by
      rw [Nat.div_div_eq_div_mul, pow_succ, Nat.mul_comm]
    have h2 : n % b ^ (k + 1) / b = n / b % b ^ k := by
      rw [pow_succ, Nat.mul_comm, Nat.mod_mul_right_div_self]
    have h3 : n % b ^ (k + 1) % b = n % b := by
      rw [pow_succ]
      exact Nat.mod_mul_left_mod n (b ^ k) b
    rw [h1, h2, h3, List.append_assoc]

theorem padded_mod (b : Nat) (hb : 0 < b) (k n : Nat) : padded b k (n % b ^ k) = padded b k n := by
  have := padded_add b hb 0 k n
  simpa [padded] using this.symm

/-- A number with exactly `k` digits: numeral = padded. -/
theorem numeral_eq_padded {b : Nat} (hb : 2 ≤ b) (k n : Nat) (h1 : n < b ^ (k + 1))
    (h2 : k = 0 ∨ b ^ k ≤ n) : numeral b n = padded b (k + 1) n := by
  induction k generalizing n with
  | zero =>
    have : n < b := by simpa using h1
    rw [numeral_small this]
    simp [padded, Nat.mod_eq_of_lt this]
  | succ k ih =>
    have hk : b ^ (k + 1) ≤ n := by
      rcases h2 with h | h
      · omega
      · exact h
    have hbn : b ≤ n := le_trans (by
      calc b = b ^ 1 := (pow_one b).symm
        _ ≤ b ^ (k + 1) := Nat.pow_le_pow_right (by omega) (by omega)) hk
    rw [numeral_step hb hbn, padded, ih (n / b)]
    · rw [Nat.div_lt_iff_lt_mul (by omega)]; rw [pow_succ] at h1; exact h1
    · right; rw [Nat.le_div_iff_mul_le (by omega)]; rw [← pow_succ]; exact hk

/-- Numeral of a number split at digit `k`. -/
theorem numeral_split {b : Nat} (hb : 2 ≤ b) (k n : Nat) (h : b ^ k ≤ n) :
    numeral b n = numeral b (n / b ^ k) ++ padded b k (n % b ^ k) := by
  induction k generalizing n with
  | zero => simp [padded]
  | succ k ih =>
    have hbn : b ≤ n := le_trans (by
      calc b = b ^ 1 := (pow_one b).symm
        _ ≤ b ^ (k + 1) := Nat.pow_le_pow_right (by omega) (by omega)) h
    have h1 : n / b / b ^ k = n / b ^ (k + 1) := by
      rw [Nat.div_div_eq_div_mul, pow_succ, Nat.mul_comm]
    have h2 : n % b ^ (k + 1) / b = n / b % b ^ k := by
      rw [pow_succ, Nat.mul_comm, Nat.mod_mul_right_div_self]
    have h3 : n % b ^ (k + 1) % b = n % b := by
      rw [pow_succ]
      exact Nat.mod_mul_left_mod n (b ^ k) b
    rw [numeral_step hb hbn, ih (n / b), padded, h1, h2, h3, List.append_assoc]
    rw [Nat.le_div_iff_mul_le (by omega), ← pow_succ]; exact h

theorem numeral_ne_nil (b n : Nat) : numeral b n ≠ [] := by
  rw [numeral]; split <;> simp

theorem numeral_pos_head {b : Nat} (hb : 2 ≤ b) (n : Nat) (hn : 0 < n) :
    (numeral b n).head? ≠ some 0 := by
  induction n using Nat.strongRecOn with
  | _ n ih =>
    by_cases h : n < b
    · rw [numeral_small h]; simp; omega
    · have h' : b ≤ n := by omega
      rw [numeral_step hb h']
      have hd : 0 < n / b := Nat.div_pos h' (by omega)
      have := ih (n / b) (Nat.div_lt_self hn (by omega)) hd
      rw [head?_append_ne _ _ (numeral_ne_nil _ _)]
      exact this

/-- The computed numeral satisfies the specification. -/
theorem numeral_isNumeral {b : Nat} (hb : 2 ≤ b) (n : Nat) : IsNumeral b (numeral b n) n := by
  induction n using Nat.strongRecOn with
  | _ n ih =>
    by_cases h : n < b
    · rw [numeral_small h]
      exact ⟨by simpa using h, by simp [digitsValue], by simp, by simp⟩
    · have h' : b ≤ n := by omega
      have hn : 0 < n := by omega
      have i := ih (n / b) (Nat.div_lt_self hn (by omega))
      refine ⟨?_, ?_, ?_, ?_⟩
      · rw [numeral_step hb h']
        intro d hd
        simp only [List.mem_append, List.mem_singleton] at hd
        rcases hd with hd | hd
        · exact i.digits_lt d hd
        · subst hd; exact Nat.mod_lt _ (by omega)
      · rw [numeral_step hb h', digitsValue_append_singleton, i.value]; exact Nat.div_add_mod' n b
      · exact numeral_ne_nil _ _
      · intro hh; exact absurd hh (numeral_pos_head hb n hn)

theorem digitsValue_pos_of_head {b : Nat} (hb : 2 ≤ b) (d : Nat) (ds : List Nat) (hd : 0 < d) :
    0 < digitsValue b (d :: ds) := by
  have : digitsValue b (d :: ds) = digitsValue b ([d] ++ ds) := rfl
  rw [this, digitsValue_append]
  have h1 : digitsValue b [d] = d := by simp [digitsValue]
  rw [h1]
  have : 0 < b ^ ds.length := Nat.pow_pos (by omega)
  have := Nat.mul_pos hd this
  omega

/-- The specification determines the digits. -/
theorem isNumeral_unique {b : Nat} (hb : 2 ≤ b) {ds : List Nat} {n : Nat} (h : IsNumeral b ds n) :
    ds = numeral b n := by
  induction ds using List.reverseRecOn generalizing n with
  | nil => exact absurd rfl h.nonempty
  | append_singleton ds d ih =>
    have hd : d < b := h.digits_lt d (by simp)
    have hv : digitsValue b ds * b + d = n := by rw [← digitsValue_append_singleton]; exact h.value
    by_cases hds : ds = []
    · subst hds
      have : d = n := by simpa using hv
      subst this
      rw [numeral_small hd]; rfl
    · have hhead : ds.head? ≠ some 0 := by
        intro hh
        have hh2 : (ds ++ [d]).head? = some 0 := by
          rw [head?_append_ne _ _ hds]; exact hh
        have := h.no_leading_zero hh2
        have : (ds ++ [d]).length = 1 := by rw [this]; rfl
        have : ds.length = 0 := by simpa using this
        exact hds (List.length_eq_zero_iff.mp this)
      have hpos : 0 < digitsValue b ds := by
        cases ds with
        | nil => exact absurd rfl hds
        | cons x xs =>
          apply digitsValue_pos_of_head hb
          have : x ≠ 0 := by simpa using hhead
          omega
      have hq : n / b = digitsValue b ds := by
        rw [← hv, Nat.mul_comm, Nat.mul_add_div (by omega), Nat.div_eq_of_lt hd]; omega
      have hr : n % b = d := by
        rw [← hv, Nat.mul_comm, Nat.mul_add_mod, Nat.mod_eq_of_lt hd]
      have hbn : b ≤ n := by rw [← hv]; nlinarith
      rw [numeral_step hb hbn, hr, hq]
      congr 1
      apply ih
      refine ⟨fun x hx => h.digits_lt x (by simp [hx]), rfl, hds, fun hh => absurd hh hhead⟩

theorem isNumeralText_iff {b : Nat} (hb : 2 ≤ b) (upper : Bool) (txt : List Nat) (n : Nat) :
    IsNumeralText b upper txt n ↔ txt = (numeral b n).map (digitChar upper) := by
  constructor
  · rintro ⟨ds, h, rfl⟩; rw [isNumeral_unique hb h]
  · rintro rfl; exact ⟨_, numeral_isNumeral hb n, rfl⟩

/-- Length of a numeral. -/
theorem numeral_length_le {b : Nat} (hb : 2 ≤ b) (k n : Nat) (hk : 0 < k) :
    (numeral b n).length ≤ k ↔ n < b ^ k := by
  induction k generalizing n with
  | zero => omega
  | succ k ih =>
    by_cases h : n < b
    · rw [numeral_small h]
      have : b ^ 1 ≤ b ^ (k + 1) := Nat.pow_le_pow_right (by omega) (by omega)
      simp at this
      simp; omega
    · rw [numeral_step hb (by omega)]
      simp only [List.length_append, List.length_singleton, Nat.add_le_add_iff_right]
      rcases Nat.eq_zero_or_pos k with h0 | h0
      · subst h0
        have := numeral_ne_nil b (n / b)
        have := List.length_pos_iff.mpr this
        rw [Nat.zero_add, pow_one]
        omega
      · rw [ih _ h0, Nat.div_lt_iff_lt_mul (by omega), pow_succ]

theorem numeral_length_pos (b n : Nat) : 0 < (numeral b n).length :=
  List.length_pos_iff.mpr (numeral_ne_nil b n)

end Verif
