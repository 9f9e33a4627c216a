import Verif.Time.Lemmas2
import Verif.Time.Lemmas3
import Verif.Time.TextScan
/-!
# Properties C29-C33 and C55-C57: dates, timestamps and their text
-/
namespace Verif.Time
open Verif Verif.IntPrint Verif.IntScan

/-! ## C29: the civil date of a timestamp -/

/-- C29: for every second count from which `leapoch` can be subtracted without overflow (otherwise the library terminates),
`utc` gives the date found by counting days from 1970-01-01, and the time of that day. -/
theorem c29_utc (sec : Int) (sub : Nat) (h : -2 ^ 63 + 951868800 ≤ sec ∧ sec < 2 ^ 63) :
    utc ⟨sec, sub⟩ = some (Iso.mk (dateOf (sec / 86400)).y (dateOf (sec / 86400)).m (dateOf (sec / 86400)).d
      (sec % 86400 / 3600).toNat (sec % 86400 / 60 % 60).toNat (sec % 60).toNat sub 0) := by
  obtain ⟨x, h1, h2, h3⟩ := toIso_eq sec sub 0 (by norm_num at *; omega)
  rw [← dateOf_eq _ x h1 h2]
  exact h3

/-- C29: the date exists in the calendar, the time fields are in range and make up the second. -/
theorem c29_fields (sec : Int) (sub : Nat) (t : Iso) (h : utc ⟨sec, sub⟩ = some t)
    (hr : -2 ^ 63 + 951868800 ≤ sec ∧ sec < 2 ^ 63) :
    Date.Valid ⟨t.year, t.month, t.day⟩ ∧ t.hours < 24 ∧ t.minutes < 60 ∧ t.seconds < 60 ∧ t.sub = sub ∧
      dateOf (sec / 86400) = ⟨t.year, t.month, t.day⟩ ∧ (t.hours : Int) * 3600 + t.minutes * 60 + t.seconds = sec % 86400 := by
  rw [c29_utc sec sub hr] at h
  have := Option.some.inj h
  subst this
  refine ⟨(dateOf_spec _).1, ?_, ?_, ?_, rfl, rfl, ?_⟩ <;> simp only <;> omega

/-- C29: outside that range the call does not return. -/
theorem c29_terminates (sec : Int) (sub : Nat) (h : sec < -2 ^ 63 + 951868800) : utc ⟨sec, sub⟩ = none := by
  unfold utc toIso
  simp only
  have hle : leapoch = 951868800 := by norm_num [leapoch, y2k]
  have : i64 (sec - leapoch) = none := by unfold i64; rw [hle, if_neg (by norm_num at *; omega)]
  rw [this]
  rfl

/-- Hypotheses met; the last second before 1970 is 1969-12-31T23:59:59. -/
example : utc ⟨-1, 5⟩ = some ⟨1969, 12, 31, 23, 59, 59, 5, 0⟩ := by decide +kernel
example : dateOf (-1) = ⟨1969, 12, 31⟩ ∧ dateOf 11016 = ⟨2000, 2, 29⟩ :=
  ⟨(dateOf_eq _ _ (by unfold Date.Valid; decide +kernel) (by decide +kernel)).symm,
   (dateOf_eq _ _ (by unfold Date.Valid; decide +kernel) (by decide +kernel)).symm⟩

/-! ## C30: dates and timestamps, there and back -/

/-- C30, what `to_timestamp` computes from a valid date and time: the right second, plus a day in the months that are not
`GoodMonth`, plus 2^32 seconds if the time zone exceeds the time since the beginning of the month. -/
theorem c30_to_timestamp_error (t : Iso) (hv : Date.Valid ⟨t.year, t.month, t.day⟩) (hh : t.hours < 24) (hm : t.minutes < 60)
    (hs : t.seconds < 60) (hy : -291000000000 ≤ t.year ∧ t.year ≤ 291000000000)
    (htz : -2 ^ 31 ≤ t.timezone ∧ t.timezone < 2 ^ 31) (k : Int) (hk : dateOf k = ⟨t.year, t.month, t.day⟩) :
    toTimestamp t = some { sec := k * 86400 + t.hours * 3600 + t.minutes * 60 + t.seconds - t.timezone +
        (if GoodMonth t.year t.month then 0 else 86400) +
        (if ((t.day : Int) - 1) * 86400 + t.hours * 3600 + t.minutes * 60 + t.seconds < t.timezone then 2 ^ 32 else 0), sub := t.sub } := by
  rw [toTimestamp_eq t hv hh hm hs hy htz]
  have := (dateOf_spec k).2
  rw [hk] at this
  rw [this]
  simp

/-- Every valid date is the date of some day. -/
theorem c30_dates_reached (x : Date) (hx : x.Valid) : ∃ k, dateOf k = x :=
  ⟨dayNum x - 719528, (dateOf_eq _ x hx (by ring)).symm⟩

/-- C30 (partial: February of leap years from year 0 on and most months before year 0 are excluded, see
`c30_february_violated`, `c30_negative_year_violated`; years beyond 291e9 not covered): timestamp to date and back. -/
theorem c30_round_trip_partial (t : TS) (h : -9180000000000000000 ≤ t.sec ∧ t.sec ≤ 9180000000000000000)
    (hg : GoodMonth (dateOf (t.sec / 86400)).y (dateOf (t.sec / 86400)).m) : (utc t).bind toTimestamp = some t := by
  obtain ⟨sec, sub⟩ := t
  simp only at h hg ⊢
  rw [c29_utc sec sub (by norm_num; omega), Option.bind_some]
  have hd := dateOf_spec (sec / 86400)
  have hyr : -291000000000 ≤ (dateOf (sec / 86400)).y ∧ (dateOf (sec / 86400)).y ≤ 291000000000 := by
    have hc := cum_bound _ _ _ hd.1.1 hd.1.2.1 hd.1.2.2.1 hd.1.2.2.2
    have h2 := hd.2
    have hlb : (isLeap (dateOf (sec / 86400)).y).toNat ≤ 1 := by cases isLeap (dateOf (sec / 86400)).y <;> simp
    unfold dayNum yearStart at h2
    generalize (dateOf (sec / 86400)).y = y at *
    generalize (cum (isLeap y) (dateOf (sec / 86400)).m : Int) = cc at *
    generalize ((dateOf (sec / 86400)).d : Int) = dd at *
    omega
  rw [c30_to_timestamp_error _ hd.1 (by simp only; omega) (by simp only; omega) (by simp only; omega) hyr (by norm_num)
    (sec / 86400) rfl]
  simp only [hg, if_true]
  have h1 := hd.1.2.2.1
  rw [if_neg (by omega)]
  congr 2
  omega

/-- C30 (partial in the same way): date to timestamp and back. -/
theorem c30_date_round_trip_partial (t : Iso) (hv : Date.Valid ⟨t.year, t.month, t.day⟩) (hh : t.hours < 24) (hm : t.minutes < 60)
    (hs : t.seconds < 60) (hy : -291000000000 ≤ t.year ∧ t.year ≤ 291000000000) (htz : t.timezone = 0)
    (hg : GoodMonth t.year t.month) : (toTimestamp t).bind utc = some t := by
  obtain ⟨k, hk⟩ := c30_dates_reached _ hv
  rw [c30_to_timestamp_error t hv hh hm hs hy (by rw [htz]; norm_num) k hk]
  have h1 := hv.2.2.1
  simp only at h1
  simp only [hg, if_true, htz, Option.bind_some]
  rw [if_neg (by omega)]
  have hkb : -106400000000000 ≤ k ∧ k ≤ 106400000000000 := by
    have hd := dateOf_spec k
    rw [hk] at hd
    have hc := cum_bound _ _ _ hd.1.1 hd.1.2.1 hd.1.2.2.1 hd.1.2.2.2
    have h2 := hd.2
    have hlb : (isLeap t.year).toNat ≤ 1 := by cases isLeap t.year <;> simp
    unfold dayNum yearStart at h2
    simp only at h2 hc
    generalize (cum (isLeap t.year) t.month : Int) = cc at *
    omega
  rw [c29_utc _ _ (by norm_num; omega)]
  have hdiv : (k * 86400 + (t.hours : Int) * 3600 + t.minutes * 60 + t.seconds - 0 + 0 + 0) / 86400 = k := by omega
  rw [hdiv, hk]
  obtain ⟨y, m, d, hh', mm', ss', sub, tz⟩ := t
  simp only at *
  subst htz
  congr 2 <;> omega

/-- C30 violated: 2000-02-29 is converted to 2000-03-01. -/
theorem c30_february_violated : utc ⟨951782400, 0⟩ = some ⟨2000, 2, 29, 0, 0, 0, 0, 0⟩ ∧
    toTimestamp ⟨2000, 2, 29, 0, 0, 0, 0, 0⟩ = some ⟨951868800, 0⟩ := by decide +kernel

/-- C30 violated: in year -1 every month but January is a day late. -/
theorem c30_negative_year_violated : utc ⟨-62195990400, 0⟩ = some ⟨-1, 2, 2, 0, 0, 0, 0, 0⟩ ∧
    toTimestamp ⟨-1, 2, 2, 0, 0, 0, 0, 0⟩ = some ⟨-62195904000, 0⟩ := by decide +kernel

/-- C30: local time. The date printed in a zone `tz` seconds east of Greenwich is that of the second `sec + tz`. -/
theorem c30_local (west : Int) (hw : -2 ^ 31 < west ∧ west < 2 ^ 31) (sec : Int) (sub : Nat)
    (h : -9180000000000000000 ≤ sec ∧ sec ≤ 9180000000000000000) :
    localIso west ⟨sec, sub⟩ = (utc ⟨sec - west, sub⟩).map fun t => { t with timezone := -west } := by
  unfold localIso
  norm_num at hw
  have e1 : s32 (west % 2 ^ 32).toNat = west := by unfold s32; norm_num; split_ifs <;> omega
  have e2 : s32 ((2 ^ 32 - (west % 2 ^ 32).toNat) % 2 ^ 32) = -west := by
    unfold s32; norm_num; split_ifs <;> omega
  simp only [e1, e2]
  have hi : i64 (sec - west) = some (sec - west) := by unfold i64; rw [if_pos (by norm_num; omega)]
  rw [hi]
  simp only [Option.bind_eq_bind, Option.bind_some]
  obtain ⟨x, h1, h2, h3⟩ := toIso_eq (sec - west) sub (-west) (by norm_num at *; omega)
  obtain ⟨x', h1', h2', h3'⟩ := toIso_eq (sec - west) sub 0 (by norm_num at *; omega)
  have : x = x' := by rw [dateOf_eq _ x h1 h2, dateOf_eq _ x' h1' h2']
  subst this
  unfold utc
  simp only
  rw [h3, h3']
  rfl

/-- C30 violated: local time to timestamp. 2024-01-01T05:00:00+08:00 (1704056400) becomes a second 136 years later: the time zone
is subtracted in 32-bit unsigned arithmetic. -/
theorem c30_local_violated : localIso (-28800) ⟨1704056400, 0⟩ = some ⟨2024, 1, 1, 5, 0, 0, 0, 28800⟩ ∧
    toTimestamp ⟨2024, 1, 1, 5, 0, 0, 0, 28800⟩ = some ⟨1704056400 + 2 ^ 32, 0⟩ := by decide +kernel

/-- Hypotheses met: a date in March of a leap year, with time. -/
example : GoodMonth 2024 3 ∧ Date.Valid ⟨2024, 3, 31⟩ ∧ (utc ⟨1711929599, 3⟩).bind toTimestamp = some ⟨1711929599, 3⟩ := by
  refine ⟨by decide +kernel, by unfold Date.Valid; decide +kernel, by decide +kernel⟩

/-! ## C31: the day of the week -/

/-- C31 (partial: dates before March of year 0 are excluded, see `c31_weekday_violated`): `c_weekday` is the day of the week,
Sunday = 0. -/
theorem c31_c_weekday_partial (k : Int) (hy : 0 ≤ (dateOf k).y ∧ (dateOf k).y < 2 ^ 63) (h0 : (dateOf k).y = 0 → 3 ≤ (dateOf k).m) :
    ∃ w, cWeekday (dateOf k).y (dateOf k).m (dateOf k).d = some w ∧ (w : Int) = weekdayOf k := by
  have hd := dateOf_spec k
  obtain ⟨s, h1, h2⟩ := weekday_core (dateOf k) hd.1 hy h0 0 (by norm_num)
  refine ⟨s % 7, by unfold cWeekday; simp only; rw [h1]; rfl, ?_⟩
  rw [hd.2] at h2
  unfold weekdayOf
  push_cast
  rw [h2]
  congr 1
  push_cast
  ring

/-- C31 (partial in the same way): `weekday`, Monday = 1 and Sunday = 7. -/
theorem c31_weekday_partial (k : Int) (hy : 0 ≤ (dateOf k).y ∧ (dateOf k).y < 2 ^ 63) (h0 : (dateOf k).y = 0 → 3 ≤ (dateOf k).m) :
    ∃ w, weekday (dateOf k).y (dateOf k).m (dateOf k).d = some w ∧ 1 ≤ w ∧ w ≤ 7 ∧ (w : Int) % 7 = weekdayOf k := by
  have hd := dateOf_spec k
  obtain ⟨s, h1, h2⟩ := weekday_core (dateOf k) hd.1 hy h0 6 (by norm_num)
  refine ⟨s % 7 + 1, by unfold weekday; simp only; rw [h1]; rfl, by omega, by omega, ?_⟩
  rw [hd.2] at h2
  unfold weekdayOf
  push_cast at h2 ⊢
  omega

/-- C31 violated: 0000-01-01 was a Saturday, the library says Sunday. -/
theorem c31_weekday_violated : dateOf (-719528) = ⟨0, 1, 1⟩ ∧ weekdayOf (-719528) = 6 ∧ cWeekday 0 1 1 = some 0 := by
  refine ⟨(dateOf_eq _ _ (by unfold Date.Valid; decide +kernel) (by decide +kernel)).symm, by decide +kernel, by decide +kernel⟩

/-- Hypotheses met: 2000-02-29 was a Tuesday. -/
example : dateOf 11016 = ⟨2000, 2, 29⟩ ∧ cWeekday 2000 2 29 = some 2 ∧ weekday 2000 2 27 = some 7 :=
  ⟨(dateOf_eq _ _ (by unfold Date.Valid; decide +kernel) (by decide +kernel)).symm, by decide +kernel, by decide +kernel⟩

/-! ## C32: timestamp arithmetic -/

/-- C32 (partial: two fractions of the same sign whose sum reaches 2^64 · 10^-19 s are excluded, see `c32_add_violated`): the sum is
exact whenever it is representable. -/
theorem c32_add_partial (a b c : TS) (ha : a.Ok) (hb : b.Ok) (hc : c.Ok) (h : c.val = a.val + b.val)
    (hs : (a.sec < 0 ↔ b.sec < 0) → a.sub + b.sub < 2 ^ 64) : add a b = c :=
  add_eq a b c ha hb hc h hs

/-- C32 violated: 1.95 s + 1.95 s is 3.0553255926290448384 s. -/
theorem c32_add_violated : add ⟨1, 9500000000000000000⟩ ⟨1, 9500000000000000000⟩ = ⟨3, 553255926290448384⟩ ∧
    TS.val ⟨3, 9000000000000000000⟩ = TS.val ⟨1, 9500000000000000000⟩ + TS.val ⟨1, 9500000000000000000⟩ := by decide +kernel

/-- C32: the negation is exact whenever it is representable. -/
theorem c32_neg (a c : TS) (ha : a.Ok) (hc : c.Ok) (h : c.val = -a.val) : neg a = c := by
  have h3 := ha.2.2
  have h4 := hc.2.2
  have hcond : (a.sec ≠ 0 ∨ a.sub = 0) ∧ a.sec ≠ -2 ^ 63 := by
    have h1 := hc.1
    have h2 := hc.2.1
    unfold TS.val at h
    rw [S_eq] at *
    norm_num at *
    split_ifs at h <;> omega
  obtain ⟨h1, h2, _⟩ := neg_val a ha hcond.1 hcond.2
  exact val_inj _ _ h1.2.2 h4 (by rw [h2, h])

/-- C32 (partial: the subtrahend must have a representable negation, see `c32_sub_violated`; and the sum of fractions as above):
differences. -/
theorem c32_sub_partial (a b c : TS) (ha : a.Ok) (hb : b.Ok) (hc : c.Ok) (h : c.val = a.val - b.val)
    (hb0 : b.sec ≠ 0 ∨ b.sub = 0) (hb1 : b.sec ≠ -2 ^ 63) (hs : (a.sec < 0 ↔ 0 < b.sec) → a.sub + b.sub < 2 ^ 64) :
    sub a b = c := by
  obtain ⟨h1, h2, h3⟩ := neg_val b hb hb0 hb1
  unfold sub
  refine add_eq a (neg b) c ha h1 hc (by rw [h2, h]; ring) ?_
  rw [h3]
  simp only
  intro hiff
  apply hs
  rw [hiff]
  omega

/-- C32 violated: 2 s - 0.5 s is 2.5 s. -/
theorem c32_sub_violated : sub ⟨2, 0⟩ ⟨0, 5000000000000000000⟩ = ⟨2, 5000000000000000000⟩ := by decide +kernel

example : add ⟨-3, 2500000000000000000⟩ ⟨1, 5000000000000000000⟩ = ⟨-1, 7500000000000000000⟩ := by decide +kernel
example : TS.Ok ⟨-3, 2500000000000000000⟩ ∧ TS.val ⟨-1, 7500000000000000000⟩ =
    TS.val ⟨-3, 2500000000000000000⟩ + TS.val ⟨1, 5000000000000000000⟩ := by
  refine ⟨by unfold TS.Ok; decide +kernel, by decide +kernel⟩

/-! ## C55: comparison of timestamps -/

/-- C55: `<=>` orders timestamps by their value. -/
theorem c55_compare (a b : TS) (ha : a.Ok) (hb : b.Ok) : cmpTS a b = compare a.val b.val := cmp_eq a b ha hb

/-- C55: `==` holds exactly for equal values. -/
theorem c55_equal (a b : TS) (ha : a.Ok) (hb : b.Ok) : eqTS a b = true ↔ a.val = b.val := by
  constructor
  · intro h
    simp [eqTS] at h
    unfold TS.val
    rw [h.1, h.2]
  · intro h
    rw [val_inj a b ha.2.2 hb.2.2 h]
    simp [eqTS]

example : cmpTS ⟨-2, 5⟩ ⟨-2, 3⟩ = .lt ∧ cmpTS ⟨2, 5⟩ ⟨2, 3⟩ = .gt := by decide +kernel

/-! ## C56: division of timestamps -/

/-- `c` is the quotient of `v` by `d` rounded to the nearest unit, ties to even. -/
def Nearest (v : Int) (d : Nat) (c : Int) : Prop :=
  2 * (c * d - v).natAbs ≤ d ∧ (2 * (c * d - v).natAbs = d → c % 2 = 0)

/-- From magnitudes to signed values. -/
theorem div_signed (a c : TS) (hc : c.Ok) (q : Nat) (hq : c.val.natAbs = q) (hneg : a.sec < 0 ↔ c.sec < 0) (d' : Nat)
    (h : divUint a d' = some { sec := s64 (if a.sec < 0 then neg64 (q / S % 2 ^ 64) else q / S % 2 ^ 64), sub := q % S }) :
    divUint a d' = some c := by
  rw [h]
  obtain ⟨c1, c2⟩ := c
  obtain ⟨h1, h2, h3⟩ := hc
  simp only at h1 h2 h3 hneg
  unfold TS.val at hq
  simp only at hq
  rw [S_eq] at *
  norm_num at h1 h2
  congr 1
  by_cases hn : c1 < 0
  · have ha := hneg.mpr hn
    simp only [hn, ha, if_true] at hq ⊢
    have e : q / 10000000000000000000 % 2 ^ 64 = (-c1).toNat := by norm_num; omega
    have e2 : q % 10000000000000000000 = c2 := by omega
    rw [e, e2, s64_neg _ (by norm_num; omega)]
    congr 1; omega
  · have ha := mt hneg.mp hn
    simp only [hn, ha, if_false] at hq ⊢
    have e : q / 10000000000000000000 % 2 ^ 64 = c1.toNat := by norm_num; omega
    have e2 : q % 10000000000000000000 = c2 := by omega
    rw [e, e2, s64_pos _ (by norm_num; omega)]
    congr 1; omega

/-- C56 (partial: odd divisors, see `c56_odd_violated`, and negative dividends excluded): the quotient is the nearest
representable timestamp, ties to even. Every such quotient is representable. -/
theorem c56_div_partial (a : TS) (ha : a.Ok) (h0 : 0 ≤ a.sec) (d : Nat) (hd : 0 < d) (hd2 : d < 2 ^ 64) (heven : d % 2 = 0) :
    ∃ c, divUint a d = some c ∧ c.Ok ∧ Nearest a.val d c.val := by
  obtain ⟨q, _, h2, h3⟩ := div_eq a ha d hd hd2
  obtain ⟨⟨h4, h5⟩, h6⟩ := h2 heven
  have hval : a.val = a.val.natAbs := by
    have : 0 ≤ a.val := by unfold TS.val; rw [S_eq, if_neg (by omega)]; push_cast; omega
    omega
  have hbound : a.val.natAbs < 2 ^ 63 * S := by
    obtain ⟨h7, h8, h9⟩ := ha
    unfold TS.val; rw [S_eq] at *; norm_num at *; rw [if_neg (by omega)]; omega
  have hqb : q < 2 ^ 63 * S := by
    have : 2 * (2 * q) ≤ 2 * (d * q) := by
      have := Nat.mul_le_mul_right q (by omega : 2 ≤ d); omega
    -- q ≤ d*q/2 ≤ (N + d/2)/2
    by_contra hcon
    have h10 : 2 ^ 63 * S ≤ q := by omega
    have : d * (2 ^ 63 * S) ≤ d * q := Nat.mul_le_mul_left d h10
    have hdd : d * (2 ^ 63 * S) = (d - 2) * (2 ^ 63 * S) + 2 * (2 ^ 63 * S) := by
      rw [← Nat.add_mul]; congr 1; omega
    have hle : (d - 2) * 1 ≤ (d - 2) * (2 ^ 63 * S) := Nat.mul_le_mul_left _ (by rw [S_eq]; norm_num)
    clear h3 h6 hval ha
    have hz : 1 ≤ 2 ^ 63 * S := by rw [S_eq]; norm_num
    generalize 2 ^ 63 * S = Z at *
    generalize d * q = dq at *
    generalize d * Z = dz at *
    generalize (d - 2) * Z = dw at *
    omega
  refine ⟨⟨(q / S : Nat), q % S⟩, ?_, ?_, ?_⟩
  · rw [h3]
    have : ¬ a.sec < 0 := by omega
    simp only [this, if_false]
    have hlt : q / S < 2 ^ 63 := by
      rw [Nat.div_lt_iff_lt_mul (by rw [S_eq]; norm_num)]; exact hqb
    rw [Nat.mod_eq_of_lt (by norm_num at *; omega), s64_pos _ hlt]
  · have hlt : q / S < 2 ^ 63 := by
      rw [Nat.div_lt_iff_lt_mul (by rw [S_eq]; norm_num)]; exact hqb
    refine ⟨?_, ?_, Nat.mod_lt _ (by rw [S_eq]; norm_num)⟩
    · generalize q / S = w at *; simp only; norm_num
    · generalize q / S = w at *; simp only; norm_num at hlt ⊢; omega
  · have hcv : TS.val ⟨(q / S : Nat), q % S⟩ = q := by
      unfold TS.val
      simp only
      rw [if_neg (not_lt.mpr (Int.natCast_nonneg _))]
      have := Nat.div_add_mod q S
      push_cast
      rw [mul_comm]
      exact_mod_cast this
    rw [hcv, hval]
    unfold Nearest
    have hc : (q : Int) * d = (d * q : Nat) := by push_cast; ring
    rw [hc]
    generalize d * q = dq at *
    generalize a.val.natAbs = N at *
    omega

/-- C56 (partial in the same way): negative dividends, when the rounded quotient is representable and negative. -/
theorem c56_div_negative_partial (a c : TS) (ha : a.Ok) (hc : c.Ok) (h0 : a.sec < 0) (hc0 : c.sec < 0) (d : Nat) (hd : 0 < d)
    (hd2 : d < 2 ^ 64) (heven : d % 2 = 0) (hn : Nearest a.val d c.val) : divUint a d = some c := by
  obtain ⟨q, _, h2, h3⟩ := div_eq a ha d hd hd2
  obtain ⟨⟨h4, h5⟩, h6⟩ := h2 heven
  refine div_signed a c hc q ?_ (by constructor <;> intro <;> assumption) d h3
  have hav : a.val = -(a.val.natAbs : Int) := by
    have : a.val < 0 := by unfold TS.val; rw [S_eq, if_pos h0]; push_cast; omega
    omega
  have hcv : c.val = -(c.val.natAbs : Int) := by
    have : c.val < 0 := by unfold TS.val; rw [S_eq, if_pos hc0]; push_cast; omega
    omega
  unfold Nearest at hn
  rw [hav, hcv] at hn
  generalize a.val.natAbs = N at *
  generalize c.val.natAbs = C at *
  have e : -(C : Int) * d - -(N : Int) = (N : Int) - (d * C : Nat) := by push_cast; ring
  rw [e] at hn
  -- two nearest candidates
  rcases Nat.lt_trichotomy C q with hlt | heq | hgt
  · exfalso
    have : d * (C + 1) ≤ d * q := Nat.mul_le_mul_left d hlt
    have e2 : d * (C + 1) = d * C + d := by ring
    have hstep : d * q = d * C + d → q = C + 1 := by
      intro h
      have : d * q = d * (C + 1) := by rw [h, e2]
      exact Nat.eq_of_mul_eq_mul_left hd this
    generalize d * q = dq at *
    generalize d * C = dc at *
    omega
  · exact heq
  · exfalso
    have : d * (q + 1) ≤ d * C := Nat.mul_le_mul_left d hgt
    have e2 : d * (q + 1) = d * q + d := by ring
    have hstep : d * C = d * q + d → C = q + 1 := by
      intro h
      have : d * C = d * (q + 1) := by rw [h, e2]
      exact Nat.eq_of_mul_eq_mul_left hd this
    generalize d * q = dq at *
    generalize d * C = dc at *
    omega

/-- C56: for every divisor the error of the magnitude is at most half a unit plus `1/(2d)`. -/
theorem c56_div_error (a : TS) (ha : a.Ok) (d : Nat) (hd : 0 < d) (hd2 : d < 2 ^ 64) :
    ∃ q : Nat, 2 * ((q : Int) * d - a.val.natAbs).natAbs ≤ d + 1 ∧
      divUint a d = some { sec := s64 (if a.sec < 0 then neg64 (q / S % 2 ^ 64) else q / S % 2 ^ 64), sub := q % S } := by
  obtain ⟨q, h1, _, h3⟩ := div_eq a ha d hd hd2
  refine ⟨q, ?_, h3⟩
  have hc : (q : Int) * d = (d * q : Nat) := by push_cast; ring
  rw [hc]
  generalize d * q = dq at *
  omega

/-- C56: dividing by zero does not return. -/
theorem c56_div_zero (a : TS) : divUint a 0 = none := rfl

/-- C56 violated: dividing 10^-19 s by one gives 2·10^-19 s, 4·10^-19 s by three gives 2·10^-19 s. -/
theorem c56_odd_violated : divUint ⟨0, 1⟩ 1 = some ⟨0, 2⟩ ∧ divUint ⟨0, 4⟩ 3 = some ⟨0, 2⟩ ∧ ¬ Nearest 1 1 2 ∧ ¬ Nearest 4 3 2 := by
  refine ⟨by decide +kernel, by decide +kernel, ?_, ?_⟩ <;> unfold Nearest <;> decide +kernel

/-- C56 violated: without 128-bit integers, 4 s / 2 is 3 s (the two-word division of the emulation is wrong, see C42). -/
theorem c56_emulated_violated : divUintOld ⟨4, 0⟩ 2 = some ⟨3, 0⟩ := by decide +kernel

example : divUint ⟨-7, 0⟩ 2 = some ⟨-3, 5000000000000000000⟩ ∧ TS.Ok ⟨-7, 0⟩ ∧ Nearest (TS.val ⟨-7, 0⟩) 2 (TS.val ⟨-3, 5000000000000000000⟩) := by
  refine ⟨by decide +kernel, by unfold TS.Ok; decide +kernel, by unfold Nearest; decide +kernel⟩

/-! ## C57: conversion between epochs -/

/-- C57 (partial: a fraction may not change sign, see `c57_convert_violated`): the instant is kept: seconds since the epochs
differ by the distance of the epochs. -/
theorem c57_convert_partial (off newOff : Int) (a : TS) (h : -2 ^ 63 ≤ off - newOff ∧ off - newOff < 2 ^ 63)
    (h2 : -2 ^ 63 ≤ a.sec + (off - newOff) ∧ a.sec + (off - newOff) < 2 ^ 63)
    (hs : a.sub = 0 ∨ (a.sec < 0 ↔ a.sec + (off - newOff) < 0)) :
    ∃ c, convert off newOff a = some c ∧ c.val + newOff * S = a.val + off * S := by
  refine ⟨⟨a.sec + (off - newOff), a.sub⟩, ?_, ?_⟩
  · unfold convert i64
    rw [if_pos h]
    simp only [Option.bind_eq_bind, Option.bind_some]
    rw [if_pos h2]
    rfl
  · unfold TS.val
    simp only
    rw [S_eq]
    push_cast
    split_ifs <;> omega

/-- C57 violated: half a second and one second before 1970 becomes half a second before 1970 in seconds since year 0. -/
theorem c57_convert_violated : convert 0 (-62167219200) ⟨-1, 5000000000000000000⟩ = some ⟨62167219199, 5000000000000000000⟩ ∧
    TS.val ⟨62167219199, 5000000000000000000⟩ + (-62167219200) * S = -5000000000000000000 ∧
    TS.val ⟨-1, 5000000000000000000⟩ + 0 * S = -15000000000000000000 := by decide +kernel

/-- C57: there and back. -/
theorem c57_round_trip (off newOff : Int) (a c : TS) (h : convert off newOff a = some c)
    (hb : -2 ^ 63 < off - newOff) (ha : a.Ok) : convert newOff off c = some a := by
  obtain ⟨a1, a2, a3⟩ := ha
  have key : ∀ x y : Int, i64 x = some y → y = x ∧ -2 ^ 63 ≤ x ∧ x < 2 ^ 63 := by
    intro x y h
    unfold i64 at h
    split_ifs at h with h1
    exact ⟨(Option.some.inj h).symm, h1⟩
  unfold convert at h
  rcases hd : i64 (off - newOff) with _ | d
  · rw [hd] at h; simp at h
  · rw [hd] at h
    simp only [Option.bind_eq_bind, Option.bind_some] at h
    rcases hs : i64 (a.sec + d) with _ | s
    · rw [hs] at h; simp at h
    · rw [hs] at h
      simp only [Option.bind_some, Option.some.injEq] at h
      obtain ⟨rfl, h1⟩ := key _ _ hd
      obtain ⟨rfl, h2⟩ := key _ _ hs
      subst h
      norm_num at *
      unfold convert i64
      rw [if_pos (by norm_num; omega)]
      simp only [Option.bind_eq_bind, Option.bind_some]
      have e : a.sec + (off - newOff) + (newOff - off) = a.sec := by ring
      rw [e, if_pos (by norm_num; omega)]
      rfl

example : convert 0 (-62167219200) ⟨5, 3⟩ = some ⟨62167219205, 3⟩ := by decide +kernel

/-! ## C33: text -/

/-- C33: what is printed is the ISO 8601 text of the timestamp, and nothing else is written. -/
theorem c33_print (t : Iso) (hy : -2 ^ 63 ≤ t.year ∧ t.year < 2 ^ 63) (h1 : t.month < 100) (h2 : t.day < 100)
    (h3 : t.hours < 100) (h4 : t.minutes < 100) (h5 : t.seconds < 100) (h6 : t.sub < S)
    (h7 : -2 ^ 31 ≤ t.timezone ∧ t.timezone < 2 ^ 31) (m : Mem) (p : Nat) :
    printIso t m p = some (store m p (isoText t), p + (isoText t).length) :=
  printIso_writes t hy h1 h2 h3 h4 h5 h6 h7 m p

/-- C33 (partial: time zones with seconds or of a day or more, and the year -2^63, are excluded, see the `violated` theorems):
scanning the printed text, whatever follows it, restores the timestamp and stops at its end. -/
theorem c33_round_trip_partial (cfg : TCfg) (hv : cfg.Valid) (t : Iso) (ht : t.Carried) (m : Mem) (p : Nat) (follow : List Nat)
    (hf : CodeUnits cfg.cw follow) :
    ∃ txt, printIso t m p = some (store m p txt, p + txt.length) ∧ scanIso cfg (txt ++ follow) = some (follow, .ok, some t) := by
  refine ⟨isoText t, c33_print t ⟨le_of_lt ht.year.1, ht.year.2⟩ ?_ ?_ ?_ ?_ ?_ ht.sub ?_ m p, scanIso_text cfg hv t ht follow hf⟩
  · have := ht.month; omega
  · have := ht.day; omega
  · have := ht.hours; omega
  · have := ht.minutes; omega
  · have := ht.seconds; omega
  · have := ht.zone_day; norm_num; omega

/-- C33 with C29: every timestamp, converted to UTC, printed and scanned, comes back. -/
theorem c33_utc_round_trip (cfg : TCfg) (hv : cfg.Valid) (a : TS) (ha : a.Ok) (hr : -2 ^ 63 + 951868800 ≤ a.sec) (m : Mem) (p : Nat)
    (follow : List Nat) (hf : CodeUnits cfg.cw follow) :
    ∃ t txt, utc a = some t ∧ printIso t m p = some (store m p txt, p + txt.length) ∧
      scanIso cfg (txt ++ follow) = some (follow, .ok, some t) := by
  obtain ⟨sec, sub⟩ := a
  have hr' : -2 ^ 63 + 951868800 ≤ sec ∧ sec < 2 ^ 63 := ⟨hr, ha.2.1⟩
  have hu := c29_utc sec sub hr'
  have hf2 := c29_fields sec sub _ hu hr'
  simp only at hf2
  obtain ⟨⟨v1, v2, v3, v4⟩, f1, f2, f3, _⟩ := hf2
  simp only at v1 v2 v3 v4
  have hml := (monthLen_bounds (dateOf (sec / 86400)).y (dateOf (sec / 86400)).m).2
  have hyr : -2 ^ 63 < (dateOf (sec / 86400)).y ∧ (dateOf (sec / 86400)).y < 2 ^ 63 := by
    have hd := dateOf_spec (sec / 86400)
    have hc := cum_bound _ _ _ hd.1.1 hd.1.2.1 hd.1.2.2.1 hd.1.2.2.2
    have h2 := hd.2
    have hlb : (isLeap (dateOf (sec / 86400)).y).toNat ≤ 1 := by cases isLeap (dateOf (sec / 86400)).y <;> simp
    unfold dayNum yearStart at h2
    generalize (dateOf (sec / 86400)).y = y at *
    generalize (cum (isLeap y) (dateOf (sec / 86400)).m : Int) = cc at *
    generalize ((dateOf (sec / 86400)).d : Int) = dd at *
    norm_num at *
    omega
  have hcar : Iso.Carried (Iso.mk (dateOf (sec / 86400)).y (dateOf (sec / 86400)).m (dateOf (sec / 86400)).d
      (sec % 86400 / 3600).toNat (sec % 86400 / 60 % 60).toNat (sec % 60).toNat sub 0) :=
    ⟨hyr, ⟨v1, v2⟩, ⟨v3, by simp only; omega⟩, f1, f2, f3, ha.2.2, by simp, by simp⟩
  obtain ⟨txt, h1, h2⟩ := c33_round_trip_partial cfg hv _ hcar m p follow hf
  exact ⟨_, txt, hu, h1, h2⟩

/-- A reader of 8-bit characters without vector instructions. -/
def plain : TCfg := ⟨8, 0, false⟩

/-- C33 violated: a time zone with seconds is printed with them, but they are not scanned. -/
theorem c33_zone_seconds_violated : isoText ⟨1900, 1, 1, 0, 0, 0, 0, 1172⟩ = ascii "1900-01-01T00:00:00+00:19:32" ∧
    scanIso plain (ascii "1900-01-01T00:00:00+00:19:32") = some (ascii ":32", .ok, some ⟨1900, 1, 1, 0, 0, 0, 0, 1140⟩) := by
  decide +kernel

/-- C33 violated: a time zone of a day is rejected. -/
theorem c33_zone_day_violated : isoText ⟨1900, 1, 1, 0, 0, 0, 0, 86400⟩ = ascii "1900-01-01T00:00:00+24:00" ∧
    scanIso plain (ascii "1900-01-01T00:00:00+24:00") = some (ascii "24:00", .overflow, none) := by
  decide +kernel

/-- C33 violated: the least year is rejected. -/
theorem c33_least_year_violated :
    scanIso plain (ascii "-9223372036854775808-01-01T00:00:00Z") = some (ascii "372036854775808-01-01T00:00:00Z", .overflow, none) := by
  decide +kernel

/-- C33 violated: a text cut inside the minutes of the time zone makes the scanner read beyond its end (`none`). -/
theorem c33_out_of_bounds_violated : scanIso plain (ascii "1900-01-01T00:00:00+08:0") = none := by decide +kernel

/-- C33 violated: a fraction close to one is rounded up to a whole second, outside the range of the fraction. -/
theorem c33_fraction_range_violated : scanIso plain (ascii "1900-01-01T00:00:00.99999999999999999999Z") =
    some ([], .ok, some ⟨1900, 1, 1, 0, 0, 0, S, 0⟩) := by decide +kernel

/-- Hypotheses met: a date before year 0 with a fraction and a negative time zone. -/
example : Iso.Carried ⟨-12345, 2, 29, 23, 59, 59, 120, -34200⟩ ∧ TCfg.Valid plain := by
  refine ⟨⟨by norm_num, by norm_num, by norm_num, by norm_num, by norm_num, by norm_num, by norm_num [S], by norm_num, by norm_num⟩,
    Or.inl rfl, Or.inl rfl⟩

end Verif.Time
