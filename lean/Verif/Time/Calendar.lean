import Verif.Time.Model
import Mathlib.Tactic.Ring
import Mathlib.Tactic.IntervalCases
import Mathlib.Tactic.Linarith
/-! The day number of a date, and the proof that it counts days. -/
namespace Verif.Time

/-- Days before the month in a year. -/
def cum (leap : Bool) (m : Nat) : Int :=
  match m with
  | 1 => 0
  | 2 => 31
  | 3 => 59 + leap.toNat
  | 4 => 90 + leap.toNat
  | 5 => 120 + leap.toNat
  | 6 => 151 + leap.toNat
  | 7 => 181 + leap.toNat
  | 8 => 212 + leap.toNat
  | 9 => 243 + leap.toNat
  | 10 => 273 + leap.toNat
  | 11 => 304 + leap.toNat
  | 12 => 334 + leap.toNat
  | _ => 0

/-- Days before the first of January of a year, from year 0. -/
def yearStart (y : Int) : Int := 365 * y + (y + 3) / 4 - (y + 99) / 100 + (y + 399) / 400

/-- The day number, from the first of January of year 0. -/
def dayNum (x : Date) : Int := yearStart x.y + cum (isLeap x.y) x.m + x.d - 1

theorem isLeap_iff (y : Int) : isLeap y = true ↔ (y % 4 = 0 ∧ y % 100 ≠ 0) ∨ y % 400 = 0 := by
  simp [isLeap]

theorem yearStart_succ (y : Int) : yearStart (y + 1) = yearStart y + 365 + (isLeap y).toNat := by
  unfold yearStart
  by_cases h : isLeap y = true
  · have := (isLeap_iff y).mp h
    rw [h, Bool.toNat_true]
    omega
  · have h2 := mt (isLeap_iff y).mpr h
    rw [Bool.not_eq_true] at h
    rw [h, Bool.toNat_false]
    omega

theorem cum_succ (y : Int) (m : Nat) (h1 : 1 ≤ m) (h2 : m < 12) :
    cum (isLeap y) (m + 1) = cum (isLeap y) m + monthLen y m := by
  unfold monthLen
  generalize isLeap y = b
  cases b <;> interval_cases m <;> simp [cum]

theorem monthLen_bounds (y : Int) (m : Nat) : 28 ≤ monthLen y m ∧ monthLen y m ≤ 31 := by
  unfold monthLen; split_ifs <;> omega

theorem cum_twelve (b : Bool) : cum b 12 = 334 + b.toNat := rfl

theorem dayNum_next (x : Date) (hx : x.Valid) : x.next.Valid ∧ dayNum x.next = dayNum x + 1 := by
  obtain ⟨h1, h2, h3, h4⟩ := hx
  unfold Date.next
  split_ifs with c1 c2
  · refine ⟨⟨h1, h2, by simp only; omega, by exact c1⟩, ?_⟩
    simp only [dayNum]
    push_cast
    omega
  · refine ⟨⟨by simp, by simp only; omega, le_refl _, ?_⟩, ?_⟩
    · have := (monthLen_bounds x.y (x.m + 1)).1
      simp only; omega
    · simp only [dayNum]
      rw [cum_succ x.y x.m h1 c2]
      push_cast
      omega
  · have hm : x.m = 12 := by omega
    refine ⟨⟨le_refl _, by norm_num, le_refl _, ?_⟩, ?_⟩
    · have := (monthLen_bounds (x.y + 1) 1).1
      simp only; omega
    · simp only [dayNum]
      rw [yearStart_succ, hm, cum_twelve]
      have hl : monthLen x.y 12 = 31 := by simp [monthLen]
      rw [hm, hl] at c1 h4
      have : cum (isLeap (x.y + 1)) 1 = 0 := rfl
      rw [this]
      omega

theorem dayNum_prev (x : Date) (hx : x.Valid) : x.prev.Valid ∧ dayNum x.prev = dayNum x - 1 := by
  obtain ⟨h1, h2, h3, h4⟩ := hx
  unfold Date.prev
  split_ifs with c1 c2
  · refine ⟨⟨h1, h2, by simp only; omega, by simp only; omega⟩, ?_⟩
    simp only [dayNum]
    omega
  · have hb := monthLen_bounds x.y (x.m - 1)
    refine ⟨⟨by simp only; omega, by simp only; omega, by simp only; omega, le_refl _⟩, ?_⟩
    simp only [dayNum]
    have := cum_succ x.y (x.m - 1) (by omega) (by omega)
    rw [show x.m - 1 + 1 = x.m by omega] at this
    omega
  · have hm : x.m = 1 := by omega
    have hd : x.d = 1 := by omega
    refine ⟨⟨by simp, by simp, by simp, by simp [monthLen]⟩, ?_⟩
    simp only [dayNum]
    have := yearStart_succ (x.y - 1)
    rw [show x.y - 1 + 1 = x.y by omega] at this
    rw [hm, hd, cum_twelve]
    have h0 : cum (isLeap x.y) 1 = 0 := rfl
    rw [h0]
    push_cast
    omega

theorem epoch_valid : epoch.Valid := by unfold Date.Valid epoch; decide

theorem dayNum_epoch : dayNum epoch = 719528 := by decide

theorem dateOf_spec (k : Int) : (dateOf k).Valid ∧ dayNum (dateOf k) = k + 719528 := by
  cases k with
  | ofNat n =>
    show (steps Date.next n epoch).Valid ∧ dayNum (steps Date.next n epoch) = (n : Int) + 719528
    induction n with
    | zero => exact ⟨epoch_valid, by rw [steps, dayNum_epoch]; rfl⟩
    | succ n ih =>
      obtain ⟨a, b⟩ := dayNum_next _ ih.1
      exact ⟨a, by rw [steps, b, ih.2]; push_cast; ring⟩
  | negSucc n =>
    show (steps Date.prev (n + 1) epoch).Valid ∧ dayNum (steps Date.prev (n + 1) epoch) = Int.negSucc n + 719528
    have key : ∀ n : Nat, (steps Date.prev n epoch).Valid ∧ dayNum (steps Date.prev n epoch) = -(n : Int) + 719528 := by
      intro n
      induction n with
      | zero => exact ⟨epoch_valid, by rw [steps, dayNum_epoch]; rfl⟩
      | succ n ih =>
        obtain ⟨a, b⟩ := dayNum_prev _ ih.1
        exact ⟨a, by rw [steps, b, ih.2]; push_cast; ring⟩
    obtain ⟨a, b⟩ := key (n + 1)
    exact ⟨a, by rw [b, Int.negSucc_eq]; push_cast; ring⟩

theorem cum_bound (y : Int) (m d : Nat) (h1 : 1 ≤ m) (h2 : m ≤ 12) (h3 : 1 ≤ d) (h4 : d ≤ monthLen y m) :
    0 ≤ cum (isLeap y) m + d - 1 ∧ cum (isLeap y) m + d - 1 < 365 + (isLeap y).toNat := by
  unfold monthLen at h4
  generalize isLeap y = b at *
  cases b <;> interval_cases m <;> simp [cum] at h4 ⊢ <;> omega

theorem yearStart_mono {y y' : Int} (h : y < y') : yearStart y + 365 + (isLeap y).toNat ≤ yearStart y' := by
  rw [← yearStart_succ]
  have : y + 1 ≤ y' := h
  unfold yearStart
  omega

/-- A day number determines a date. -/
theorem dayNum_inj (x x' : Date) (hx : x.Valid) (hx' : x'.Valid) (h : dayNum x = dayNum x') : x = x' := by
  obtain ⟨a1, a2, a3, a4⟩ := hx
  obtain ⟨b1, b2, b3, b4⟩ := hx'
  have c1 := cum_bound x.y x.m x.d a1 a2 a3 a4
  have c2 := cum_bound x'.y x'.m x'.d b1 b2 b3 b4
  unfold dayNum at h
  have hy : x.y = x'.y := by
    rcases lt_trichotomy x.y x'.y with hlt | heq | hgt
    · have := yearStart_mono hlt; omega
    · exact heq
    · have := yearStart_mono hgt; omega
  obtain ⟨y, m, d⟩ := x
  obtain ⟨y', m', d'⟩ := x'
  simp only at *
  subst hy
  have h' : cum (isLeap y) m + d = cum (isLeap y) m' + d' := by omega
  have hmono : ∀ m m' : Nat, 1 ≤ m → m < m' → m' ≤ 12 → cum (isLeap y) m + monthLen y m ≤ cum (isLeap y) m' := by
    intro m m' hm hlt hle
    obtain ⟨k, rfl⟩ : ∃ k, m' = m + 1 + k := ⟨m' - m - 1, by omega⟩
    induction k with
    | zero => rw [Nat.add_zero, cum_succ y m hm (by omega)]
    | succ k ih =>
      have := ih (by omega) (by omega)
      rw [show m + 1 + (k + 1) = (m + 1 + k) + 1 by omega, cum_succ y (m + 1 + k) (by omega) (by omega)]
      have : (0 : Int) ≤ (monthLen y (m + 1 + k) : Int) := by positivity
      omega
  have hm : m = m' := by
    rcases lt_trichotomy m m' with hlt | heq | hgt
    · have := hmono m m' a1 hlt b2; omega
    · exact heq
    · have := hmono m' m b1 hgt a2; omega
  subst hm
  have : d = d' := by omega
  subst this
  rfl

theorem dateOf_eq (k : Int) (x : Date) (hx : x.Valid) (h : dayNum x = k + 719528) : x = dateOf k :=
  dayNum_inj x _ hx (dateOf_spec k).1 (by rw [h, (dateOf_spec k).2])

end Verif.Time
