import Verif.Time.Calendar
/-! Timestamps to dates and back. -/
namespace Verif.Time

theorem floor_fix (a n : Int) (hn : 0 < n) :
    (if a.tmod n < 0 then (a.tmod n + n, a.tdiv n - 1) else (a.tmod n, a.tdiv n)) = (a % n, a / n) := by
  have h1 := Int.mul_tdiv_add_tmod a n
  have h2 : a.tmod n < n := Int.tmod_lt_of_pos a hn
  have h3 : -n < a.tmod n := by
    have := Int.lt_tmod_of_pos a hn
    exact this
  have e1 := Int.emod_add_mul_ediv a n
  have e2 := Int.emod_nonneg a (by omega : n ≠ 0)
  have e3 := Int.emod_lt_of_pos a hn
  generalize a.tdiv n = q at *
  generalize a.tmod n = r at *
  generalize a / n = Q at *
  generalize a % n = R at *
  split_ifs with h
  · have hq : n * (q - 1 - Q) = R - (r + n) := by linarith
    have : q - 1 - Q = 0 := by
      by_contra hne
      rcases lt_or_gt_of_ne hne with hl | hg
      · have : n * (q - 1 - Q) ≤ n * (-1) := by apply mul_le_mul_of_nonneg_left _ hn.le; omega
        omega
      · have : n * 1 ≤ n * (q - 1 - Q) := by apply mul_le_mul_of_nonneg_left _ hn.le; omega
        omega
    rw [this] at hq
    simp only [Prod.mk.injEq]
    omega
  · have hq : n * (q - Q) = R - r := by linarith
    have : q - Q = 0 := by
      by_contra hne
      rcases lt_or_gt_of_ne hne with hl | hg
      · have : n * (q - Q) ≤ n * (-1) := by apply mul_le_mul_of_nonneg_left _ hn.le; omega
        omega
      · have : n * 1 ≤ n * (q - Q) := by apply mul_le_mul_of_nonneg_left _ hn.le; omega
        omega
    rw [this] at hq
    simp only [Prod.mk.injEq]
    omega

/-- The day within a year that begins in March, and the month loop. -/
theorem monthLoop_eq (r : Int) (h0 : 0 ≤ r) (h1 : r < 366) : ∃ (k : Nat) (r' : Int), monthLoop 13 0 r = some (k, r') ∧ k < 12 ∧ 0 ≤ r' ∧
    r = [0, 31, 61, 92, 122, 153, 184, 214, 245, 275, 306, 337].getD k 0 + r' ∧
    r' < ([31, 30, 31, 30, 31, 31, 30, 31, 30, 31, 31, 29].getD k 0 : Int) := by
  simp only [monthLoop, daysInMonth, List.getElem?_cons_zero, List.getElem?_cons_succ, Option.bind_eq_bind, Option.bind_some,
    Nat.zero_add, Nat.reduceAdd, Nat.cast_ofNat]
  by_cases c0 : (31 : Int) ≤ r
  · simp only [c0, if_true]
    by_cases c1 : (30 : Int) ≤ r - 31
    · simp only [c1, if_true]
      by_cases c2 : (31 : Int) ≤ r - 31 - 30
      · simp only [c2, if_true]
        by_cases c3 : (30 : Int) ≤ r - 31 - 30 - 31
        · simp only [c3, if_true]
          by_cases c4 : (31 : Int) ≤ r - 31 - 30 - 31 - 30
          · simp only [c4, if_true]
            by_cases c5 : (31 : Int) ≤ r - 31 - 30 - 31 - 30 - 31
            · simp only [c5, if_true]
              by_cases c6 : (30 : Int) ≤ r - 31 - 30 - 31 - 30 - 31 - 31
              · simp only [c6, if_true]
                by_cases c7 : (31 : Int) ≤ r - 31 - 30 - 31 - 30 - 31 - 31 - 30
                · simp only [c7, if_true]
                  by_cases c8 : (30 : Int) ≤ r - 31 - 30 - 31 - 30 - 31 - 31 - 30 - 31
                  · simp only [c8, if_true]
                    by_cases c9 : (31 : Int) ≤ r - 31 - 30 - 31 - 30 - 31 - 31 - 30 - 31 - 30
                    · simp only [c9, if_true]
                      by_cases c10 : (31 : Int) ≤ r - 31 - 30 - 31 - 30 - 31 - 31 - 30 - 31 - 30 - 31
                      · simp only [c10, if_true]
                        rw [if_neg (by omega)]
                        exact ⟨11, _, rfl, by decide, by omega, by simp; omega, by simp; omega⟩
                      · rw [if_neg c10]; exact ⟨10, _, rfl, by decide, by omega, by simp; omega, by simp; omega⟩
                    · rw [if_neg c9]; exact ⟨9, _, rfl, by decide, by omega, by simp; omega, by simp; omega⟩
                  · rw [if_neg c8]; exact ⟨8, _, rfl, by decide, by omega, by simp; omega, by simp; omega⟩
                · rw [if_neg c7]; exact ⟨7, _, rfl, by decide, by omega, by simp; omega, by simp; omega⟩
              · rw [if_neg c6]; exact ⟨6, _, rfl, by decide, by omega, by simp; omega, by simp; omega⟩
            · rw [if_neg c5]; exact ⟨5, _, rfl, by decide, by omega, by simp; omega, by simp; omega⟩
          · rw [if_neg c4]; exact ⟨4, _, rfl, by decide, by omega, by simp; omega, by simp; omega⟩
        · rw [if_neg c3]; exact ⟨3, _, rfl, by decide, by omega, by simp; omega, by simp; omega⟩
      · rw [if_neg c2]; exact ⟨2, _, rfl, by decide, by omega, by simp; omega, by simp; omega⟩
    · rw [if_neg c1]; exact ⟨1, _, rfl, by decide, by omega, by simp, by simp; omega⟩
  · rw [if_neg c0]; exact ⟨0, _, rfl, by decide, by omega, by simp, by simp at c0 ⊢; exact c0⟩

/-- Years that begin in March: the year number and the day in it. -/
theorem years_eq (days : Int) :
    let rem := days % d400
    let qc := days / d400
    let c := rem.tdiv d100
    let c := if c = 4 then c - 1 else c
    let rem := rem - c * d100
    let q := rem.tdiv d4
    let q := if q = 25 then q - 1 else q
    let rem := rem - q * d4
    let ry := rem.tdiv 365
    let ry := if ry = 4 then ry - 1 else ry
    let rem := rem - ry * 365
    let Y := ry + 4 * q + 100 * c + 400 * qc
    days = 365 * Y + Y / 4 - Y / 100 + Y / 400 + rem ∧ 0 ≤ rem ∧ rem < 365 + (isLeap (Y + 2001)).toNat := by
  unfold d400 d100 d4
  intro rem0 qc c0 c rem1 q0 q rem2 ry0 ry rem3 Y
  have hr0 : 0 ≤ rem0 ∧ rem0 < 146097 := by
    constructor
    · exact Int.emod_nonneg _ (by norm_num)
    · exact Int.emod_lt_of_pos _ (by norm_num)
  have hd : days = rem0 + 146097 * qc := by
    show days = days % _ + 146097 * (days / _)
    norm_num
    omega
  have hc0 : c0 = rem0 / 36524 := by
    show rem0.tdiv _ = _
    rw [Int.tdiv_eq_ediv_of_nonneg hr0.1]; norm_num
  clear_value rem0 qc c0
  have hc : c = if c0 = 4 then 3 else c0 := by
    show (if c0 = 4 then c0 - 1 else c0) = _
    split_ifs with h
    · omega
    · rfl
  clear_value c
  have hrem1 : rem1 = rem0 - c * 36524 := by show rem0 - c * _ = _; norm_num
  clear_value rem1
  have hcb : 0 ≤ c ∧ c ≤ 3 ∧ 0 ≤ rem1 ∧ rem1 ≤ 36524 ∧ (c < 3 → rem1 < 36524) := by
    split_ifs at hc <;> omega
  have hq0 : q0 = rem1 / 1461 := by
    show rem1.tdiv _ = _
    rw [Int.tdiv_eq_ediv_of_nonneg hcb.2.2.1]; norm_num
  clear_value q0
  have hq : q = if q0 = 25 then 24 else q0 := by
    show (if q0 = 25 then q0 - 1 else q0) = _
    split_ifs with h
    · omega
    · rfl
  clear_value q
  have hrem2 : rem2 = rem1 - q * 1461 := by show rem1 - q * _ = _; norm_num
  clear_value rem2
  have hqb : 0 ≤ q ∧ q ≤ 24 ∧ 0 ≤ rem2 ∧ rem2 ≤ 1460 ∧ (q = 24 → c < 3 → rem2 < 1460) := by
    split_ifs at hq <;> omega
  have hry0 : ry0 = rem2 / 365 := by
    show rem2.tdiv _ = _
    rw [Int.tdiv_eq_ediv_of_nonneg hqb.2.2.1]
  clear_value ry0
  have hry : ry = if ry0 = 4 then 3 else ry0 := by
    show (if ry0 = 4 then ry0 - 1 else ry0) = _
    split_ifs with h
    · omega
    · rfl
  clear_value ry
  have hrem3 : rem3 = rem2 - ry * 365 := rfl
  clear_value rem3
  have hrb : 0 ≤ ry ∧ ry ≤ 3 ∧ 0 ≤ rem3 ∧ rem3 ≤ 365 ∧ (ry < 3 → rem3 < 365) ∧ (ry = 3 → q = 24 → c < 3 → rem3 < 365) := by
    split_ifs at hry <;> omega
  have hY : Y = ry + 4 * q + 100 * c + 400 * qc := rfl
  clear_value Y
  have y1 : Y / 4 = q + 25 * c + 100 * qc := by omega
  have y2 : Y / 100 = c + 4 * qc := by omega
  have y3 : Y / 400 = qc := by omega
  refine ⟨by omega, hrb.2.2.1, ?_⟩
  by_cases hl : isLeap (Y + 2001) = true
  · rw [hl, Bool.toNat_true]; omega
  · have h2 := mt (isLeap_iff (Y + 2001)).mpr hl
    rw [Bool.not_eq_true] at hl
    rw [hl, Bool.toNat_false]
    have hlt : rem3 < 365 := by
      by_contra hge
      apply h2
      have h3 : ry = 3 := by omega
      by_cases hq24 : q = 24
      · have hc3 : c = 3 := by
          by_contra hne
          have := hrb.2.2.2.2.2 h3 hq24 (by omega)
          omega
        right; omega
      · left; omega
    omega

/-- What the conversion returns. -/
theorem toIso_eq (seconds : Int) (sub : Nat) (tz : Int) (h : -2 ^ 63 ≤ seconds - 951868800 ∧ seconds - 951868800 < 2 ^ 63) :
    ∃ x : Date, x.Valid ∧ dayNum x = seconds / 86400 + 719528 ∧
      toIso seconds sub tz = some (Iso.mk x.y x.m x.d (seconds % 86400 / 3600).toNat (seconds % 86400 / 60 % 60).toNat
        (seconds % 60).toNat sub tz) := by
  have hle : leapoch = 951868800 := by norm_num [leapoch, y2k]
  unfold toIso
  rw [hle]
  have hi : i64 (seconds - 951868800) = some (seconds - 951868800) := by
    unfold i64; rw [if_pos h]
  rw [hi]
  simp only [Option.bind_eq_bind, Option.bind_some]
  have hsecs : (if (seconds - 951868800).tmod 86400 < 0 then ((seconds - 951868800).tmod 86400 + 86400,
      (seconds - 951868800).tdiv 86400 - 1) else ((seconds - 951868800).tmod 86400, (seconds - 951868800).tdiv 86400)) =
      ((seconds - 951868800) % 86400, (seconds - 951868800) / 86400) := floor_fix _ _ (by norm_num)
  rw [hsecs]
  simp only
  generalize hdays : (seconds - 951868800) / 86400 = days
  have hdd : (if days.tmod d400 < 0 then (days.tmod d400 + d400, days.tdiv d400 - 1) else (days.tmod d400, days.tdiv d400)) =
      (days % d400, days / d400) := floor_fix _ _ (by norm_num [d400])
  rw [hdd]
  simp only
  have hy := years_eq days
  simp only at hy
  generalize (if (days % d400).tdiv d100 = 4 then (days % d400).tdiv d100 - 1 else (days % d400).tdiv d100) = c at *
  generalize days % d400 - c * d100 = rem1 at *
  generalize (if rem1.tdiv d4 = 25 then rem1.tdiv d4 - 1 else rem1.tdiv d4) = q at *
  generalize rem1 - q * d4 = rem2 at *
  generalize (if rem2.tdiv 365 = 4 then rem2.tdiv 365 - 1 else rem2.tdiv 365) = ry at *
  generalize rem2 - ry * 365 = rem3 at *
  generalize ry + 4 * q + 100 * c + 400 * (days / d400) = Y at *
  obtain ⟨e, r0, r1⟩ := hy
  have hb : (isLeap (Y + 2001)).toNat ≤ 1 := by cases isLeap (Y + 2001) <;> simp
  obtain ⟨k, r', hm, hk, hr0, hr, hr1⟩ := monthLoop_eq rem3 r0 (by omega)
  rw [hm]
  simp only [Option.bind_some]
  have hsec : (seconds - 951868800) % 86400 = seconds % 86400 := by omega
  rw [hsec]
  have hs0 : 0 ≤ seconds % 86400 := Int.emod_nonneg _ (by norm_num)
  have hs1 : seconds % 86400 < 86400 := Int.emod_lt_of_pos _ (by norm_num)
  have hmm : seconds % 86400 % 60 = seconds % 60 := by omega
  have hrb : r' < 31 := by
    have : ([31, 30, 31, 30, 31, 31, 30, 31, 30, 31, 31, 29].getD k 0 : Int) ≤ 31 := by interval_cases k <;> simp
    omega
  have hday : ((r' + 1) % 256).toNat = (r' + 1).toNat := by rw [Int.emod_eq_of_lt (by omega) (by omega)]
  have hh : ((seconds % 86400).tdiv 3600 % 256).toNat = (seconds % 86400 / 3600).toNat := by
    rw [Int.tdiv_eq_ediv_of_nonneg hs0, Int.emod_eq_of_lt (by omega) (by omega)]
  have hmi : (((seconds % 86400).tdiv 60).tmod 60 % 256).toNat = (seconds % 86400 / 60 % 60).toNat := by
    rw [Int.tdiv_eq_ediv_of_nonneg hs0, Int.tmod_eq_emod_of_nonneg (by omega), Int.emod_eq_of_lt (by omega) (by omega)]
  have hse : ((seconds % 86400).tmod 60 % 256).toNat = (seconds % 60).toNat := by
    rw [Int.tmod_eq_emod_of_nonneg hs0, hmm, Int.emod_eq_of_lt (by omega) (by omega)]
  rw [hday, hh, hmi, hse]
  have hdn : days = seconds / 86400 - 11017 := by omega
  have f1 : (Y + 2004) / 4 = Y / 4 + 501 := by omega
  have f2 : (Y + 2100) / 100 = Y / 100 + 21 := by omega
  have f3 : (Y + 2400) / 400 = Y / 400 + 6 := by omega
  by_cases h10 : 10 ≤ k
  · -- January or February
    rw [if_pos h10]
    refine ⟨{ y := Y + 1 + 2000, m := k - 9, d := (r' + 1).toNat }, ⟨by simp only; omega, by simp only; omega, by simp only; omega, ?_⟩, ?_, ?_⟩
    · simp only
      rw [show Y + 1 + 2000 = Y + 2001 by ring]
      have hkk : k = 10 ∨ k = 11 := by omega
      rcases hkk with hkk | hkk
      · rw [hkk]
        simp only [monthLen]; norm_num; omega
      · rw [hkk] at hr ⊢
        simp at hr
        unfold monthLen
        rw [if_pos (by norm_num)]
        cases hl : isLeap (Y + 2001)
        · rw [hl] at r1; simp at r1 ⊢; omega
        · rw [hl] at r1; simp at r1 ⊢; omega
    · unfold dayNum yearStart
      simp only
      rw [show Y + 1 + 2000 + 3 = Y + 2004 by ring, show Y + 1 + 2000 + 99 = Y + 2100 by ring,
        show Y + 1 + 2000 + 399 = Y + 2400 by ring, f1, f2, f3]
      rw [Int.toNat_of_nonneg (by omega)]
      have hkk : k = 10 ∨ k = 11 := by omega
      rcases hkk with hkk | hkk
      · rw [hkk] at hr ⊢
        simp at hr
        simp only [cum]; omega
      · rw [hkk] at hr ⊢
        simp at hr
        simp only [cum]; omega
    · simp only
      rw [show ((k + 256 - 12) % 256 + 3) % 256 = k - 9 by omega]
  · rw [if_neg h10]
    refine ⟨{ y := Y + 2000, m := k + 3, d := (r' + 1).toNat }, ⟨by simp only; omega, by simp only; omega, by simp only; omega, ?_⟩, ?_, ?_⟩
    · simp only
      have : k < 10 := by omega
      unfold monthLen
      interval_cases k <;> simp at hr1 ⊢ <;> omega
    · unfold dayNum
      simp only
      have hys := yearStart_succ (Y + 2000)
      have hys2 : yearStart (Y + 2000 + 1) = 365 * Y + 730365 + (Y / 4 + 501) - (Y / 100 + 21) + (Y / 400 + 6) := by
        unfold yearStart
        rw [show Y + 2000 + 1 + 3 = Y + 2004 by ring, show Y + 2000 + 1 + 99 = Y + 2100 by ring,
          show Y + 2000 + 1 + 399 = Y + 2400 by ring, f1, f2, f3]
        ring
      rw [Int.toNat_of_nonneg (by omega)]
      have : k < 10 := by omega
      generalize isLeap (Y + 2000) = b at *
      interval_cases k <;> simp [cum] at hr ⊢ <;> omega
    · simp only
      rw [show (k + 3) % 256 = k + 3 by omega]

end Verif.Time
