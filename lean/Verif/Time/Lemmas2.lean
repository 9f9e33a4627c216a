import Verif.Time.Lemmas
/-! Dates to timestamps, days of the week. -/
namespace Verif.Time

theorem tdiv_lit (y n : Int) (hn : 0 < n) : y.tdiv n = if 0 ≤ y then y / n else -((-y) / n) := by
  split_ifs with h
  · exact Int.tdiv_eq_ediv_of_nonneg h
  · have : y = -(-y) := by ring
    conv_lhs => rw [this, Int.neg_tdiv]
    rw [Int.tdiv_eq_ediv_of_nonneg (by omega)]

theorem tmod_zero (y n : Int) : y.tmod n = 0 ↔ y % n = 0 := by
  rw [← Int.dvd_iff_tmod_eq_zero, Int.dvd_iff_emod_eq_zero]

theorem leap_code (y : Int) : (y.tmod 400 == 0 || (y.tmod 4 == 0 && y.tmod 100 != 0)) = isLeap y := by
  unfold isLeap
  rw [Bool.or_comm]
  have h1 : (y.tmod 400 == 0) = (y % 400 == 0) := by
    have := tmod_zero y 400
    by_cases h : y % 400 = 0 <;> simp [h, this]
  have h2 : (y.tmod 4 == 0) = (y % 4 == 0) := by
    have := tmod_zero y 4
    by_cases h : y % 4 = 0 <;> simp [h, this]
  have h3 : (y.tmod 100 != 0) = (y % 100 != 0) := by
    have := tmod_zero y 100
    by_cases h : y % 100 = 0
    · have h' := this.mpr h
      rw [h, h']
    · have h' := mt this.mp h
      have e1 : (y.tmod 100 != 0) = true := bne_iff_ne.mpr h'
      have e2 : (y % 100 != 0) = true := bne_iff_ne.mpr h
      rw [e1, e2]
  rw [h1, h2, h3]

/-- The days counted by the code before a month. -/
theorem yms_days (y : Int) (m : Nat) (h1 : 1 ≤ m) (h2 : m ≤ 12) :
    ∃ t, secsThroughMonth[(m + 255) % 256]? = some t ∧
      (y * 365 + (y.tdiv 4 + (y.tdiv 400 - y.tdiv 100))) * 86400 +
        ((if (m + 255) % 256 ≠ 0 ∨ (0 ≤ y ∧ isLeap y = false) then t + 86400 else t : Nat) : Int) =
      (yearStart y + cum (isLeap y) m + (if GoodMonth y m then 0 else 1)) * 86400 := by
  rw [tdiv_lit y 4 (by norm_num), tdiv_lit y 400 (by norm_num), tdiv_lit y 100 (by norm_num)]
  rw [show (m + 255) % 256 = m - 1 by omega]
  have hl := isLeap_iff y
  unfold yearStart
  unfold GoodMonth
  by_cases hy : 0 ≤ y
  · simp only [hy, if_true]
    have key : 365 * y + (y + 3) / 4 - (y + 99) / 100 + (y + 399) / 400 =
        y * 365 + (y / 4 + (y / 400 - y / 100)) + (if isLeap y then 0 else 1) := by
      cases hb : isLeap y
      · have := mt hl.mpr (by rw [hb]; simp)
        simp; omega
      · have := hl.mp hb
        simp; omega
    rw [key]
    generalize y * 365 + (y / 4 + (y / 400 - y / 100)) = Z at *
    generalize isLeap y = b at *
    clear hl key
    cases b <;> interval_cases m <;> simp [secsThroughMonth, cum] <;> omega
  · simp only [hy, if_false]
    have key : 365 * y + (y + 3) / 4 - (y + 99) / 100 + (y + 399) / 400 =
        y * 365 + (-(-y / 4) + (-(-y / 400) - -(-y / 100))) := by
      omega
    rw [key]
    generalize y * 365 + (-(-y / 4) + (-(-y / 400) - -(-y / 100))) = Z at *
    generalize isLeap y = b at *
    clear hl key
    cases b <;> interval_cases m <;> simp [secsThroughMonth, cum] <;> omega

theorem yms_eq (y : Int) (m : Nat) (h1 : 1 ≤ m) (h2 : m ≤ 12) (hy : -292000000000 ≤ y ∧ y ≤ 292000000000) :
    yearMonthToSeconds y m = some ((yearStart y + cum (isLeap y) m + (if GoodMonth y m then 0 else 1) - 719528) * 86400) := by
  obtain ⟨t, ht, he⟩ := yms_days y m h1 h2
  unfold yearMonthToSeconds
  have hmin : (-2 ^ 63 : Int).tdiv (365 * 86400) = -292471208677 := by decide +kernel
  have hmax : (2 ^ 63 - 1 : Int).tdiv (365 * 86400) = 292471208677 := by decide +kernel
  rw [hmin, hmax, leap_code]
  simp only [ht, Option.bind_eq_bind, Option.bind_some]
  rw [if_neg (by omega), if_neg (by omega)]
  have b1 : -73100000000 ≤ y.tdiv 4 ∧ y.tdiv 4 ≤ 73100000000 := by rw [tdiv_lit y 4 (by norm_num)]; split_ifs <;> omega
  have b2 : -2930000000 ≤ y.tdiv 100 ∧ y.tdiv 100 ≤ 2930000000 := by rw [tdiv_lit y 100 (by norm_num)]; split_ifs <;> omega
  have b3 : -740000000 ≤ y.tdiv 400 ∧ y.tdiv 400 ≤ 740000000 := by rw [tdiv_lit y 400 (by norm_num)]; split_ifs <;> omega
  have htb : t ≤ 334 * 86400 := by
    have h12 : (m + 255) % 256 < 12 := by omega
    generalize (m + 255) % 256 = j at *
    interval_cases j <;> simp [secsThroughMonth] at ht <;> omega
  generalize htt : (if (m + 255) % 256 ≠ 0 ∨ (0 ≤ y ∧ isLeap y = false) then t + 86400 else t) = t' at *
  have htb' : t' ≤ 335 * 86400 := by rw [← htt]; split_ifs <;> omega
  generalize y.tdiv 4 = l4 at *
  generalize y.tdiv 100 = l100 at *
  generalize y.tdiv 400 = l400 at *
  have i64ok : ∀ x : Int, -9223372036854775808 ≤ x ∧ x < 9223372036854775808 → i64 x = some x := by
    intro x hx; unfold i64; rw [if_pos (by norm_num; exact hx)]
  rw [i64ok (y * 365) (by omega), Option.bind_some, i64ok (y * 365 + (l4 + (l400 - l100))) (by omega), Option.bind_some,
    i64ok _ (by omega), Option.bind_some, i64ok _ (by omega), Option.bind_some, i64ok _ (by omega)]
  congr 1
  omega

theorem toTimestamp_eq (t : Iso) (hv : Date.Valid ⟨t.year, t.month, t.day⟩) (hh : t.hours < 24) (hm : t.minutes < 60)
    (hs : t.seconds < 60) (hy : -291000000000 ≤ t.year ∧ t.year ≤ 291000000000)
    (htz : -2 ^ 31 ≤ t.timezone ∧ t.timezone < 2 ^ 31) :
    toTimestamp t = some { sec := (dayNum ⟨t.year, t.month, t.day⟩ - 719528) * 86400 + t.hours * 3600 + t.minutes * 60 + t.seconds -
        t.timezone + (if GoodMonth t.year t.month then 0 else 86400) +
        (if ((t.day : Int) - 1) * 86400 + t.hours * 3600 + t.minutes * 60 + t.seconds < t.timezone then 2 ^ 32 else 0), sub := t.sub } := by
  obtain ⟨v1, v2, v3, v4⟩ := hv
  simp only at v1 v2 v3 v4
  have hb := (monthLen_bounds t.year t.month).2
  unfold toTimestamp
  rw [yms_eq t.year t.month v1 v2 (by omega)]
  simp only [Option.bind_eq_bind, Option.bind_some]
  have hcb := cum_bound t.year t.month 1 v1 v2 (le_refl _) (by omega)
  have hlb : (isLeap t.year).toNat ≤ 1 := by cases isLeap t.year <;> simp
  have hys : -106400000000000 ≤ yearStart t.year ∧ yearStart t.year ≤ 106400000000000 := by unfold yearStart; omega
  have i64ok : ∀ x : Int, -9223372036854775808 ≤ x ∧ x < 9223372036854775808 → i64 x = some x := by
    intro x hx; unfold i64; rw [if_pos (by norm_num; exact hx)]
  have hu : (((t.day : Int) - 1) * 86400 + t.hours * 3600 + t.minutes * 60 + t.seconds - t.timezone) % 2 ^ 32 =
      ((t.day : Int) - 1) * 86400 + t.hours * 3600 + t.minutes * 60 + t.seconds - t.timezone +
      (if ((t.day : Int) - 1) * 86400 + t.hours * 3600 + t.minutes * 60 + t.seconds < t.timezone then 2 ^ 32 else 0) := by
    norm_num at *
    split_ifs <;> omega
  rw [hu]
  have hgr : (0 : Int) ≤ (if GoodMonth t.year t.month then 0 else 1) ∧ (if GoodMonth t.year t.month then (0 : Int) else 1) ≤ 1 := by
    split_ifs <;> simp
  have hg2 : (if GoodMonth t.year t.month then (0 : Int) else 86400) = (if GoodMonth t.year t.month then (0 : Int) else 1) * 86400 := by
    split_ifs <;> simp
  have hwr : (0 : Int) ≤ (if ((t.day : Int) - 1) * 86400 + t.hours * 3600 + t.minutes * 60 + t.seconds < t.timezone then 2 ^ 32 else 0) ∧
      (if ((t.day : Int) - 1) * 86400 + t.hours * 3600 + t.minutes * 60 + t.seconds < t.timezone then (2 : Int) ^ 32 else 0) ≤ 2 ^ 32 := by
    split_ifs <;> norm_num
  unfold dayNum
  simp only
  rw [hg2]
  clear hu hg2
  generalize (if GoodMonth t.year t.month then (0 : Int) else 1) = g at *
  generalize (if ((t.day : Int) - 1) * 86400 + t.hours * 3600 + t.minutes * 60 + t.seconds < t.timezone then (2 : Int) ^ 32 else 0) = w at *
  norm_num at htz hwr
  rw [i64ok _ (by omega)]
  simp only [Option.bind_some, Option.some.injEq, TS.mk.injEq, and_true]
  ring

/-! ## Days of the week -/

theorem u64_of (x : Int) (h : 0 ≤ x ∧ x < 2 ^ 64) : (u64 x : Int) = x := by
  unfold u64
  rw [Int.emod_eq_of_lt h.1 h.2, Int.toNat_of_nonneg h.1]

theorem weekdaySum_eq (y : Int) (m d e : Nat) (hy : 0 ≤ y ∧ y < 2 ^ 63) (hm : m < 12) (hd : d < 256) (he : e < 256) :
    ∃ tb, weekdayTb[m]? = some tb ∧ weekdaySum y m d e = some (y + y / 4 - y / 100 + y / 400 + tb + d + e).toNat := by
  have hlt : m < weekdayTb.length := by simpa [weekdayTb] using hm
  refine ⟨weekdayTb[m], List.getElem?_eq_getElem hlt, ?_⟩
  have htb : weekdayTb[m] ≤ 6 := by interval_cases m <;> simp [weekdayTb]
  unfold weekdaySum
  rw [List.getElem?_eq_getElem hlt]
  simp only [Option.bind_eq_bind, Option.bind_some, Option.some.injEq]
  rw [Int.tdiv_eq_ediv_of_nonneg hy.1, Int.tdiv_eq_ediv_of_nonneg hy.1, Int.tdiv_eq_ediv_of_nonneg hy.1]
  norm_num at hy
  rw [u64_of y (by norm_num; omega), u64_of (y / 4) (by norm_num; omega), u64_of (y / 100) (by norm_num; omega),
    u64_of (y / 400) (by norm_num; omega)]
  generalize weekdayTb[m] = tb at *
  unfold u64
  norm_num
  rw [Int.emod_eq_of_lt (by omega) (by omega)]

theorem weekday_core (x : Date) (hx : x.Valid) (hy : 0 ≤ x.y ∧ x.y < 2 ^ 63) (h0 : x.y = 0 → 3 ≤ x.m) (e : Nat) (he : e < 256) :
    ∃ s, weekdaySum (weekdayAdjust x.y x.m).1 (weekdayAdjust x.y x.m).2 x.d e = some s ∧
      (s : Int) % 7 = (dayNum x - 719528 + 4 + e) % 7 := by
  obtain ⟨h1, h2, h3, h4⟩ := hx
  have hb := (monthLen_bounds x.y x.m).2
  have hmod : (x.m + 255) % 256 = x.m - 1 := by omega
  have hl := isLeap_iff x.y
  norm_num at hy
  by_cases hm : x.m < 3
  · have hadj : weekdayAdjust x.y x.m = (x.y - 1, x.m - 1) := by
      unfold weekdayAdjust
      simp only
      rw [hmod, if_pos (by omega)]
      have hu : u64 x.y = x.y.toNat := by
        unfold u64; rw [Int.emod_eq_of_lt hy.1 (by norm_num; omega)]
      rw [hu, show (x.y.toNat + 2 ^ 64 - 1) % 2 ^ 64 = x.y.toNat - 1 by omega]
      unfold s64
      rw [if_pos (by omega)]
      congr 1; omega
    rw [hadj]
    obtain ⟨tb, ht, hs⟩ := weekdaySum_eq (x.y - 1) (x.m - 1) x.d e (by norm_num; omega) (by omega) (by omega) he
    refine ⟨_, hs, ?_⟩
    rw [Int.toNat_of_nonneg (by omega)]
    have hm2 : x.m = 1 ∨ x.m = 2 := by omega
    unfold dayNum yearStart
    have e1 : (x.y + 3) / 4 = (x.y - 1) / 4 + 1 := by omega
    have e2 : (x.y + 99) / 100 = (x.y - 1) / 100 + 1 := by omega
    have e3 : (x.y + 399) / 400 = (x.y - 1) / 400 + 1 := by omega
    rw [e1, e2, e3]
    clear e1 e2 e3 hl hs hadj
    generalize (x.y - 1) / 4 = A
    generalize (x.y - 1) / 100 = B
    generalize (x.y - 1) / 400 = C
    rcases hm2 with hm2 | hm2
    · rw [hm2] at ht ⊢
      simp [weekdayTb] at ht
      subst ht
      simp only [cum]
      push_cast
      omega
    · rw [hm2] at ht ⊢
      simp [weekdayTb] at ht
      subst ht
      simp only [cum]
      push_cast
      omega
  · have hadj : weekdayAdjust x.y x.m = (x.y, x.m - 1) := by
      unfold weekdayAdjust
      simp only
      rw [hmod, if_neg (by omega), if_neg (by omega)]
    rw [hadj]
    obtain ⟨tb, ht, hs⟩ := weekdaySum_eq x.y (x.m - 1) x.d e (by norm_num; omega) (by omega) (by omega) he
    refine ⟨_, hs, ?_⟩
    rw [Int.toNat_of_nonneg (by omega)]
    unfold dayNum yearStart
    have key : 365 * x.y + (x.y + 3) / 4 - (x.y + 99) / 100 + (x.y + 399) / 400 =
        x.y * 365 + (x.y / 4 + (x.y / 400 - x.y / 100)) + 1 - (isLeap x.y).toNat := by
      cases hb : isLeap x.y
      · have := mt hl.mpr (by rw [hb]; simp)
        simp; omega
      · have := hl.mp hb
        simp; omega
    rw [key]
    clear key hs hadj hl hmod
    generalize (isLeap x.y) = b at *
    have hm3 : 3 ≤ x.m := by omega
    have hc : (tb : Int) % 7 = (cum b x.m + 6 - b.toNat) % 7 := by
      clear h3 h4 hb h0
      generalize x.m = m at *
      cases b <;> interval_cases m <;> simp [weekdayTb] at ht <;> subst ht <;> simp [cum]
    generalize x.y / 4 = A at *
    generalize x.y / 100 = B at *
    generalize x.y / 400 = C at *
    generalize (cum b x.m : Int) = c at *
    generalize (b.toNat : Int) = bb at *
    clear h0 h1 h2 h3 h4 hb ht hm hm3 he
    omega

end Verif.Time
