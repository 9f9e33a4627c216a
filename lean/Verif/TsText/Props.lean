import Verif.TsText.Lemmas
/-!
# Property C68: timestamps as decimal numbers of seconds
-/
namespace Verif.TsText
open Verif Verif.IntPrint Verif.IntScan Verif.Time

theorem inRange64 (t : Int) (h : -2 ^ 63 ≤ t ∧ t < 2 ^ 63) : InRange 64 true t := by
  simp only [InRange, if_true]; norm_num at *; omega

/-- The digits of the whole part. -/
theorem print_seconds (t : Int) (h : -2 ^ 63 ≤ t ∧ t < 2 ^ 63) (m : Mem) (p : Nat) :
    printInt 64 true {} m p t = some (store m p (signText false t ++ chars (numeral 10 t.natAbs)),
      p + (signText false t ++ chars (numeral 10 t.natAbs)).length) := by
  have := printInt_eq 64 (by simp [Width]) true {} rfl (by norm_num) (by norm_num) (by intro h; simp at h) t (inRange64 t h) m p
  rw [map_digitChar _ (decText_digits _)] at this
  simpa using this

/-- The text of a timestamp. -/
theorem print_text (t : TS) (ht : t.Ok) : ∃ fs, (∀ d ∈ fs, d < 10) ∧ fs.length ≤ 19 ∧ fs.getLast? ≠ some 0 ∧
    (fs = [] ↔ t.sub = 0) ∧ digitsValue 10 fs * 10 ^ (19 - fs.length) = t.sub ∧
    ∀ m p, (let txt := signText false t.sec ++ chars (numeral 10 t.sec.natAbs) ++ (if fs = [] then [] else [46] ++ chars fs)
      printTs t m p = some (store m p txt, p + txt.length)) := by
  obtain ⟨h1, h2, h3⟩ := ht
  by_cases h0 : t.sub = 0
  · refine ⟨[], by simp, by simp, by simp, by simp [h0], by simp [h0], fun m p => ?_⟩
    unfold printTs
    rw [print_seconds t.sec ⟨h1, h2⟩]
    simp [h0]
  · obtain ⟨fs, f1, f2, f3, f4, f5, f6, f7⟩ := frac_digits t.sub h0 h3
    refine ⟨fs, f2, f3, f4, by simp [f1, h0], f5, fun m p => ?_⟩
    unfold printTs
    rw [print_seconds t.sec ⟨h1, h2⟩, Option.bind_some, if_pos h0, printFrac_writes t.sub h0 h3, f6]
    rw [store_store_append]
    simp [f1, Nat.add_assoc]

/-- **C68**: printing a timestamp writes the decimal number of seconds it stands for, exactly, without superfluous zeros, and
nothing else. -/
theorem c68_print (t : TS) (ht : t.Ok) (m : Mem) (p : Nat) :
    ∃ txt, DecimalText [46] txt t.val ∧ printTs t m p = some (store m p txt, p + txt.length) := by
  obtain ⟨fs, f1, f2, f3, f4, f5, f6⟩ := print_text t ht
  refine ⟨_, ⟨decide (t.sec < 0), t.sec.natAbs, numeral 10 t.sec.natAbs, fs, numeral_isNumeral (by norm_num) _, f1, f2, f3, ?_, ?_⟩, f6 m p⟩
  · rw [signText_eq]
  · exact val_eq t _ f5

example : TS.Ok ⟨-1, 5000000000000000000⟩ ∧
    (printTs ⟨-1, 5000000000000000000⟩ (fun _ => 0) 10).map (fun r => (load r.1 10 5, r.2)) = some (ascii "-1.5" ++ [0], 14) := by
  refine ⟨by norm_num [TS.Ok, S], ?_⟩
  decide +kernel

/-- `2^63` is no power of ten. -/
theorem ten_pow_ne (k : Nat) : 10 ^ k ≠ 2 ^ (64 - 1) := by
  intro hk
  rcases Nat.eq_zero_or_pos k with h | h
  · subst h; norm_num at hk
  · obtain ⟨j, rfl⟩ : ∃ j, k = j + 1 := ⟨k - 1, by omega⟩
    have hd : 5 ∣ 2 ^ 63 := by
      rw [← hk, pow_succ]
      exact Dvd.dvd.mul_left (by norm_num) _
    norm_num at hd

/-- **C68**: the text fits the announced space and nothing outside it is written. -/
theorem c68_fits (t : TS) (ht : t.Ok) (m : Mem) (p : Nat) : ∃ m' e, printTs t m p = some (m', e) ∧ e ≤ p + tsReserve ∧
    ∀ a, (a < p ∨ p + tsReserve ≤ a) → m' a = m a := by
  obtain ⟨fs, f1, f2, f3, f4, f5, f6⟩ := print_text t ht
  obtain ⟨h1, h2, h3⟩ := ht
  obtain ⟨m1, e1, g1, _, g3, _⟩ := c04_decimal 64 (by simp [Width]) true false t.sec (inRange64 _ ⟨h1, h2⟩) m p
  rw [print_seconds t.sec ⟨h1, h2⟩] at g1
  have ge := congrArg Prod.snd (Option.some.inj g1)
  simp only at ge
  have hl : (signText false t.sec ++ chars (numeral 10 t.sec.natAbs) ++ (if fs = [] then [] else [46] ++ chars fs)).length ≤
      tsReserve := by
    rw [List.length_append]
    have : (if fs = [] then ([] : List Nat) else [46] ++ chars fs).length ≤ 20 := by
      split
      · simp
      · simp [chars]; omega
    unfold tsReserve; omega
  refine ⟨_, _, f6 m p, by omega, ?_⟩
  intro a ha
  apply store_outside
  rcases ha with h | h
  · left; exact h
  · right; omega

/-! ## With a locale -/

theorem lc_text (nu : NumericP) (t : TS) (ht : t.Ok) : ∃ body fs, Lc.Grouped nu.grouping nu.sep (chars (numeral 10 t.sec.natAbs)) body ∧
    (∀ d ∈ fs, d < 10) ∧ fs.length ≤ 19 ∧ fs.getLast? ≠ some 0 ∧ digitsValue 10 fs * 10 ^ (19 - fs.length) = t.sub ∧
    ∀ m p, (let txt := signText false t.sec ++ body ++ (if fs = [] then [] else nu.point ++ chars fs)
      lcPrintTs nu t m p = some (store m p txt, p + txt.length)) ∧
      Lc.lcPrintInt nu.toNumeric 64 true {} m p t.sec =
        some (store m p (signText false t.sec ++ body), p + (signText false t.sec ++ body).length) := by
  obtain ⟨h1, h2, h3⟩ := ht
  have hint : ∀ m p, ∃ body, Lc.Grouped nu.grouping nu.sep (chars (numeral 10 t.sec.natAbs)) body ∧
      Lc.lcPrintInt nu.toNumeric 64 true {} m p t.sec =
        some (store m p (signText false t.sec ++ body), p + (signText false t.sec ++ body).length) := by
    intro m p
    obtain ⟨ds, body, g1, g2, g3⟩ := Lc.c67_lc_print_partial nu.toNumeric 64 (by simp [Width]) true {} (by norm_num) (by norm_num)
      (by simp) (fun _ => by simp [Lc.PlainOk, Supported]) t.sec (inRange64 _ ⟨h1, h2⟩) m p
    simp only [Lc.IsDigits, Bool.false_eq_true, if_false] at g1
    rw [(isNumeralText_iff (by norm_num) _ _ _).mp g1, map_digitChar _ (decText_digits _)] at g2
    exact ⟨body, g2, by simpa using g3⟩
  obtain ⟨body, g1, _⟩ := hint (fun _ => 0) 0
  have hint2 : ∀ m p, Lc.lcPrintInt nu.toNumeric 64 true {} m p t.sec =
      some (store m p (signText false t.sec ++ body), p + (signText false t.sec ++ body).length) := by
    intro m p
    obtain ⟨body', g1', g2'⟩ := hint m p
    rw [Lc.c67_grouped_unique _ _ _ _ _ g1 g1']
    exact g2'
  by_cases h0 : t.sub = 0
  · refine ⟨body, [], g1, by simp, by simp, by simp, by simp [h0], fun m p => ⟨?_, hint2 m p⟩⟩
    unfold lcPrintTs
    rw [hint2]
    simp [h0]
  · obtain ⟨fs, f1, f2, f3, f4, f5, f6, f7⟩ := frac_digits t.sub h0 h3
    refine ⟨body, fs, g1, f2, f3, f4, f5, fun m p => ⟨?_, hint2 m p⟩⟩
    unfold lcPrintTs
    rw [hint2, Option.bind_some, if_pos h0]
    have hpt : ∀ m p, (if nu.point.length = 1 then putc (nu.point.headD 0) (m, p) else (store m p nu.point, p + nu.point.length)) =
        (store m p nu.point, p + nu.point.length) := by
      intro m p
      split
      · rename_i hh
        obtain ⟨c, hc⟩ := List.length_eq_one_iff.mp hh
        simp [hc, putc]
      · rfl
    simp only []
    rw [hpt, f7, store_store_append, store_store_at _ _ _ _ _ (by simp [Nat.add_assoc])]
    simp [f1, Nat.add_assoc]

/-- **C68**: with a locale the whole part is grouped and the decimal point is that of the locale. -/
theorem c68_lc_print (nu : NumericP) (t : TS) (ht : t.Ok) (m : Mem) (p : Nat) :
    ∃ txt, GroupedDecimalText nu.grouping nu.sep nu.point txt t.val ∧ lcPrintTs nu t m p = some (store m p txt, p + txt.length) := by
  obtain ⟨body, fs, g1, f1, f2, f3, f5, f6⟩ := lc_text nu t ht
  refine ⟨_, ⟨decide (t.sec < 0), t.sec.natAbs, numeral 10 t.sec.natAbs, body, fs, numeral_isNumeral (by norm_num) _, g1, f1, f2, f3, ?_, ?_⟩,
    (f6 m p).1⟩
  · rw [signText_eq]
  · exact val_eq t _ f5

example : TS.Ok ⟨-1234567, 250000000000000000⟩ ∧
    (lcPrintTs ⟨⟨[46], [3]⟩, [44]⟩ ⟨-1234567, 250000000000000000⟩ (fun _ => 0) 10).map (fun r => (load r.1 10 15, r.2)) =
      some (ascii "-1.234.567,025" ++ [0], 24) := by
  refine ⟨by norm_num [TS.Ok, S], ?_⟩
  decide +kernel

/-- **C68**: with a locale, too, the text fits the announced space. -/
theorem c68_lc_fits (nu : NumericP) (t : TS) (ht : t.Ok) (m : Mem) (p : Nat) : ∃ m' e, lcPrintTs nu t m p = some (m', e) ∧
    e ≤ p + lcTsReserve nu ∧ ∀ a, (a < p ∨ p + lcTsReserve nu ≤ a) → m' a = m a := by
  obtain ⟨body, fs, g1, f1, f2, f3, f5, f6⟩ := lc_text nu t ht
  obtain ⟨h1, h2, h3⟩ := ht
  obtain ⟨m1, e1, r1, _, r3, _⟩ := Lc.c67_reserve_partial nu.toNumeric 64 (by simp [Width]) true {} rfl (by norm_num) (by norm_num)
    (by simp) (fun _ => by simp [Supported]) t.sec (inRange64 _ ⟨h1, h2⟩) (fun _ => Or.inl ten_pow_ne) m p
  rw [(f6 m p).2] at r1
  have ge := congrArg Prod.snd (Option.some.inj r1)
  simp only at ge
  have hl : (signText false t.sec ++ body ++ (if fs = [] then [] else nu.point ++ chars fs)).length ≤ lcTsReserve nu := by
    rw [List.length_append]
    have : (if fs = [] then ([] : List Nat) else nu.point ++ chars fs).length ≤ nu.point.length + 19 := by
      split
      · simp
      · simp [chars]; omega
    unfold lcTsReserve
    unfold Lc.lcReserve at r3
    simp only [] at r3 ⊢
    omega
  refine ⟨_, _, (f6 m p).1, by omega, ?_⟩
  intro a ha
  apply store_outside
  rcases ha with h | h
  · left; exact h
  · right; omega

/-! ## Scanning -/

theorem point_no_digit (l : List Nat) : NoDigitFirst 10 (46 :: l) := by
  intro c t d h hd
  have := isDigit_range c d hd
  simp at h; omega

theorem codeUnits_chars (cfg : TCfg) (hv : cfg.Valid) (ds : List Nat) (hd : ∀ d ∈ ds, d < 10) (rest : List Nat)
    (hr : CodeUnits cfg.cw rest) : CodeUnits cfg.cw (46 :: (chars ds ++ rest)) := by
  have h2 := cw_ge _ hv.cw
  intro c hc
  rcases List.mem_cons.mp hc with rfl | hc
  · omega
  · rcases List.mem_append.mp hc with hc | hc
    · have := chars_lt ds hd c hc; omega
    · exact hr c hc

/-- **C68** (partial: the whole part is a canonical numeral in the range of the type that is not `-0`, see
`c68_minus_zero_violated`): a decimal number with any number of decimals is read as its seconds and the nearest multiple of
`10^-19` of the fraction, ties to even; the scan stops behind the last digit. -/
theorem c68_scan_partial (cfg : TCfg) (hv : cfg.Valid) (s : Int) (hs : -2 ^ 63 ≤ s ∧ s < 2 ^ 63) (ds rest : List Nat) (hne : ds ≠ [])
    (hd : ∀ d ∈ ds, d < 10) (hr : CodeUnits cfg.cw rest) (hnd : NoDigitFirst 10 rest) :
    ∃ w, scanTs cfg 0 ((if s < 0 then [45] else []) ++ decText s.natAbs ++ (46 :: (chars ds ++ rest))) = some (rest, .ok, some ⟨s, w⟩) ∧
      NearestEven (digitsValue 10 ds * 10 ^ 19) (10 ^ ds.length) w := by
  obtain ⟨w, h1, h2⟩ := scanFrac_run cfg hv ds rest hne hd hr hnd
  have h3 := scan_seconds cfg hv s hs (46 :: (chars ds ++ rest)) (codeUnits_chars cfg hv ds hd rest hr) (point_no_digit _)
  have e : (if s < 0 then [45] else []) ++ decText s.natAbs = signText false s ++ chars (numeral 10 s.natAbs) := by
    rw [signText_eq, decText, map_digitChar _ (decText_digits _)]
    by_cases h : s < 0 <;> simp [h]
  refine ⟨w, ?_, h2⟩
  rw [e]
  unfold scanTs scanUnix
  rw [h3]
  simp [h1]

/-- Hypotheses met, with rounding: twenty decimals. -/
example : ∃ w, scanTs ⟨8, 0, false⟩ 0 ((if (-3 : Int) < 0 then [45] else []) ++ decText (-3 : Int).natAbs ++
      (46 :: (chars ([1] ++ List.replicate 18 0 ++ [5]) ++ [32]))) = some ([32], .ok, some ⟨-3, w⟩) ∧
    NearestEven (digitsValue 10 ([1] ++ List.replicate 18 0 ++ [5]) * 10 ^ 19) (10 ^ ([1] ++ List.replicate 18 0 ++ [5]).length) w :=
  c68_scan_partial ⟨8, 0, false⟩ ⟨Or.inl rfl, Or.inl rfl⟩ (-3) (by norm_num) _ [32] (by simp) (by decide) (by intro c hc; simp at hc; subst hc; norm_num)
    (by intro c t d h hd; have := isDigit_range c d hd; simp at h; omega)

/-- **C68** (partial: a timestamp without a fraction must be at the end of the text, see `c68_follow_violated`; only the epoch of
1970, see `c68_epoch_violated`): scanning the printed text restores the timestamp and leaves what follows. -/
theorem c68_round_trip_partial (cfg : TCfg) (hv : cfg.Valid) (t : TS) (ht : t.Ok) (m : Mem) (p : Nat) (follow : List Nat)
    (hr : CodeUnits cfg.cw follow) (hnd : NoDigitFirst 10 follow) (hf : t.sub = 0 → follow = []) :
    ∃ txt, printTs t m p = some (store m p txt, p + txt.length) ∧ scanTs cfg 0 (txt ++ follow) = some (follow, .ok, some t) := by
  obtain ⟨fs, f1, f2, f3, f4, f5, f6⟩ := print_text t ht
  refine ⟨_, f6 m p, ?_⟩
  by_cases h0 : t.sub = 0
  · have hfs := f4.mpr h0
    rw [hf h0]
    have h3 := scan_seconds cfg hv t.sec ⟨ht.1, ht.2.1⟩ [] (by intro c hc; simp at hc) (by intro c t d h; simp at h)
    unfold scanTs scanUnix
    simp only [hfs, if_true, List.append_nil] at h3 ⊢
    rw [h3]
    have : t = ⟨t.sec, 0⟩ := by rw [← h0]
    simp [← this]
  · have hfs : fs ≠ [] := fun h => h0 (f4.mp h)
    obtain ⟨w, h1, h2⟩ := scanFrac_run cfg hv fs follow hfs f1 hr hnd
    have h3 := scan_seconds cfg hv t.sec ⟨ht.1, ht.2.1⟩ (46 :: (chars fs ++ follow)) (codeUnits_chars cfg hv fs f1 follow hr) (point_no_digit _)
    have hw : w = t.sub := by
      have e : digitsValue 10 fs * 10 ^ 19 = t.sub * 10 ^ fs.length := by
        rw [← f5, mul_assoc, ← pow_add]; congr 2; omega
      rw [e] at h2
      obtain ⟨a, b, _⟩ := h2
      have hp : (0 : Nat) < 10 ^ fs.length := by positivity
      have h1 : 2 * t.sub ≤ 2 * w + 1 := by
        rw [← mul_assoc] at a
        exact Nat.le_of_mul_le_mul_right a hp
      have h2 : 2 * w ≤ 2 * t.sub + 1 := by
        have : 2 * w * 10 ^ fs.length ≤ (2 * t.sub + 1) * 10 ^ fs.length := by
          calc _ ≤ _ := b
            _ = _ := by ring
        exact Nat.le_of_mul_le_mul_right this hp
      omega
    unfold scanTs scanUnix
    simp only [hfs, if_false, List.append_assoc, List.singleton_append, List.cons_append, List.nil_append] at h3 ⊢
    rw [h3]
    simp [h1, hw]

example : ∃ txt, printTs ⟨1609669796, 120000000000000000⟩ (fun _ => 0) 0 = some (store (fun _ => 0) 0 txt, 0 + txt.length) ∧
    scanTs ⟨8, 16, true⟩ 0 (txt ++ [32, 120]) = some ([32, 120], .ok, some ⟨1609669796, 120000000000000000⟩) :=
  c68_round_trip_partial ⟨8, 16, true⟩ ⟨Or.inl rfl, Or.inr (Or.inl rfl)⟩ _ (by norm_num [TS.Ok, S]) _ _ _
    (by intro c hc; simp at hc; rcases hc with rfl | rfl <;> norm_num) (by intro c t d h hd; have := isDigit_range c d hd; simp at h; omega) (by simp)

/-- **C68 is false for whole seconds followed by anything**: `7 ` is not accepted. -/
theorem c68_follow_violated : scanTs ⟨8, 0, false⟩ 0 (ascii "7") = some ([], .ok, some ⟨7, 0⟩) ∧
    scanTs ⟨8, 0, false⟩ 0 (ascii "7 ") = some (ascii " ", .invalid, none) := by decide +kernel

/-- **C68 is false between -1 and 0**: `-0.5` is read as half a second after the epoch. -/
theorem c68_minus_zero_violated : scanTs ⟨8, 0, false⟩ 0 (ascii "-0.5") = some ([], .ok, some ⟨0, 5000000000000000000⟩) ∧
    TS.val ⟨0, 5000000000000000000⟩ = 5000000000000000000 := by decide +kernel

/-- **C68 is false when rounding carries**: `1.99999999999999999999` becomes a timestamp whose fraction is a whole second, and
which compares less than 2. -/
theorem c68_carry_violated : scanTs ⟨8, 0, false⟩ 0 (ascii "1.99999999999999999999") = some ([], .ok, some ⟨1, 10 ^ 19⟩) ∧
    ¬ TS.Ok ⟨1, 10 ^ 19⟩ ∧ cmpTS ⟨1, 10 ^ 19⟩ ⟨2, 0⟩ = .lt := by
  refine ⟨by decide +kernel, by norm_num [TS.Ok, S], by decide +kernel⟩

/-- **C68 is false for other epochs**: a `win32_timestamp` is printed in seconds since 1601 but read as seconds since 1970, so the
text of 0 is read as 11644473600. -/
theorem c68_epoch_violated : (printTs ⟨0, 0⟩ (fun _ => 0) 0).map (fun r => load r.1 0 r.2) = some (ascii "0") ∧
    scanTs ⟨8, 0, false⟩ (-11644473600) (ascii "0") = some ([], .ok, some ⟨11644473600, 0⟩) := by decide +kernel

end Verif.TsText
