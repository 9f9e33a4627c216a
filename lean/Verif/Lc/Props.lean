import Verif.Lc.Lemmas
/-!
# Property C67: integers printed with a locale
-/
namespace Verif.Lc
open Verif Verif.IntPrint

/-- The formats without grouping for which the printing of integers is correct (C03). -/
def PlainOk (bits : Nat) (f : Fmt) : Prop :=
  if f.full then bits = 128 → f.base = 2 ∨ f.base = 4 ∨ (f.base = 16 ∧ f.upper = false) else Supported bits f.base f.upper

/-- The digits written for `u`. -/
theorem digits_exist (bits : Nat) (hw : Width bits) (full : Bool) (base : Nat) (hb : 2 ≤ base) (upper : Bool) (u : Nat)
    (hu : u < 2 ^ bits) :
    ∃ L, 0 < L ∧ L ≤ maxIntSize bits false base ∧ u < base ^ L ∧ IsDigits bits base upper full u (low base upper u L) ∧
      L = (if full then maxIntSize bits false base else charsLen bits base u) ∧
      ∀ k, k < L → ((if full then k + 1 == maxIntSize bits false base else u / base ^ (k + 1) == 0) = true ↔ k + 1 = L) := by
  have hmi : maxIntSize bits false base = (numeral base (2 ^ bits - 1)).length := by
    rw [maxIntSize_eq hb bits false (intMax_ne bits false hw)]; rfl
  have hlen : u < base ^ maxIntSize bits false base := by
    have := (numeral_length_le hb _ (2 ^ bits - 1) (numeral_length_pos base (2 ^ bits - 1))).mp (le_refl _)
    rw [hmi]; omega
  cases full
  · have hlt : u < base ^ (numeral base u).length :=
      (numeral_length_le hb _ u (numeral_length_pos _ _)).mp (le_refl _)
    have hnp : numeral base u = padded base (numeral base u).length u := by
      obtain ⟨k, hk⟩ : ∃ k, (numeral base u).length = k + 1 :=
        ⟨(numeral base u).length - 1, by have := numeral_length_pos base u; omega⟩
      rw [hk]
      apply numeral_eq_padded hb k u (by rw [← hk]; exact hlt)
      rcases Nat.eq_zero_or_pos k with h | h
      · left; exact h
      · right
        by_contra hh
        have := (numeral_length_le hb k u h).mpr (by omega)
        omega
    refine ⟨(numeral base u).length, numeral_length_pos _ _, ?_, hlt, ?_, ?_, ?_⟩
    · rw [numeral_length_le hb _ _ (by rw [hmi]; exact numeral_length_pos _ _)]; exact hlen
    · simp only [IsDigits, Bool.false_eq_true, if_false]
      exact ⟨numeral base u, numeral_isNumeral hb u, by rw [low, ← hnp]⟩
    · simp [charsLen_eq bits base u hw hb hu]
    · intro k hk
      simp only [Bool.false_eq_true, if_false, beq_iff_eq]
      rw [Nat.div_eq_zero_iff_lt (by positivity), ← numeral_length_le hb _ _ (by omega)]
      omega
  · refine ⟨maxIntSize bits false base, by rw [hmi]; exact numeral_length_pos _ _, le_refl _, hlen, ?_, by simp, by simp⟩
    simp only [IsDigits, if_true]
    refine ⟨padded base (maxIntSize bits false base) u, padded_lt _ _ _ (by omega), padded_value _ _ _ hlen, ?_, rfl⟩
    intro x hx
    rw [isNumeral_unique hb hx, padded_length, hmi]

theorem plain_spec (bits : Nat) (hw : Width bits) (f : Fmt) (hb2 : 2 ≤ f.base) (hb36 : f.base ≤ 36) (hs : PlainOk bits f)
    (m : Mem) (first u : Nat) (hu : u < 2 ^ bits) :
    ∃ ds, IsDigits bits f.base f.upper f.full u ds ∧
      withFull bits f.full f.base f.upper m first u = some (store m first ds, first + ds.length) := by
  unfold PlainOk at hs
  cases hf : f.full
  · rw [hf] at hs
    simp only [Bool.false_eq_true, if_false] at hs
    refine ⟨(numeral f.base u).map (digitChar f.upper), ?_, ?_⟩
    · simp only [IsDigits, Bool.false_eq_true, if_false]
      exact ⟨_, numeral_isNumeral hb2 u, rfl⟩
    · rw [withFull_eq bits f.base hw hb2 f.upper hs m first u hu]; simp
  · rw [hf] at hs
    simp only [if_true] at hs
    obtain ⟨l, h1, h2, h3, h4⟩ := c03_full_partial bits hw { base := f.base, upper := f.upper, full := true } rfl hb2 hb36 hs false
      (u : Int) (by simp only [InRange, Bool.false_eq_true, if_false]; exact ⟨by omega, by exact_mod_cast hu⟩) m first
    have hab := (absBits_eq bits hw false (u : Int)
      (by simp only [InRange, Bool.false_eq_true, if_false]; exact ⟨by omega, by exact_mod_cast hu⟩)).1
    refine ⟨l.map (digitChar f.upper), ?_, ?_⟩
    · simp only [IsDigits, if_true]
      exact ⟨l, h1, by simpa using h2, h3, rfl⟩
    · have hn : ¬ ((u : Int) < 0) := by omega
      simpa [printInt, signChars, signText, ascii, hab, hn] using h4

/-- The body of the number. -/
theorem lcWithFull_spec (nu : Numeric) (bits : Nat) (hw : Width bits) (f : Fmt) (hb2 : 2 ≤ f.base) (hb36 : f.base ≤ 36)
    (hs : nu.grouping.length = 0 ∨ nu.sep.length = 0 → PlainOk bits f) (m : Mem) (first u : Nat) (hu : u < 2 ^ bits) :
    ∃ ds txt, IsDigits bits f.base f.upper f.full u ds ∧ Grouped nu.grouping nu.sep ds txt ∧
      lcWithFull nu bits f.full f.base f.upper m first u = some (store m first txt, first + txt.length) := by
  unfold lcWithFull
  by_cases h0 : nu.grouping.length = 0 ∨ nu.sep.length = 0
  · rw [if_pos h0]
    obtain ⟨ds, h1, h2⟩ := plain_spec bits hw f hb2 hb36 (hs h0) m first u hu
    exact ⟨ds, ds, h1, grouped_plain _ _ _ h0, h2⟩
  · rw [if_neg h0]
    push Not at h0
    obtain ⟨L, hL0, hLm, hlt, hdig, hLe, hstop⟩ := digits_exist bits hw f.full f.base hb2 f.upper u hu
    by_cases h3 : nu.grouping = [3] ∧ nu.sep.length = 1
    · rw [if_pos h3]
      obtain ⟨c, hc⟩ := List.length_eq_one_iff.mp h3.2
      unfold threePath
      rw [← hLe, hc, h3.1]
      obtain ⟨txt, h1, h2, h4⟩ := threeSep_spec f.base hb2 f.upper c L m first u hL0 hlt
      refine ⟨_, txt, hdig, h4, ?_⟩
      simp only [List.headD_cons]
      rw [h2, h1]; rfl
    · rw [if_neg h3]
      unfold mulSep
      have hgne : nu.grouping ≠ [] := fun h => h0.1 (by simp [h])
      obtain ⟨txt, h1, h2⟩ := groupingLoop_spec ⟨f.full, f.base, f.upper, if nu.sep.length = 1 then nu.sep.headD 0 else 44,
          maxIntSize bits false f.base, maxIntSize bits false f.base * 2 - 1⟩ u L ⟨hb2, hLm, rfl, hstop⟩
        (maxIntSize bits false f.base) hLm nu.grouping [] ⟨u, 0, []⟩ (by simp) (fun _ => hgne) (by simpa [groupSum] using hL0)
        ⟨by simp [groupSum], by simp [groupSum]⟩
        ⟨[], by simpa [groupSum, low, padded] using Grouped.nil, Or.inr ⟨by simpa [groupSum] using not_boundary_zero _, rfl⟩⟩
      simp only [List.getLast?_nil, Option.getD_none, List.nil_append] at h1 h2
      refine ⟨_, if nu.sep.length = 1 then txt else replaceComma nu.sep txt, hdig, ?_, by simp only [h1, Option.map_some]⟩
      by_cases hs1 : nu.sep.length = 1
      · obtain ⟨c, hc⟩ := List.length_eq_one_iff.mp hs1
        simpa [hc] using h2
      · simp only [if_neg hs1] at h2 ⊢
        refine grouped_replace h2 ?_
        intro d hd
        unfold low at hd
        obtain ⟨x, _, rfl⟩ := List.mem_map.mp hd
        exact digitChar_ne_comma _ _

/-- **C67** (partial: bases up to 10 in upper case are excluded, see `c67_upper_violated`; without grouping the restrictions of
C03 on 128-bit types apply): printing an integer of any type in any base with a locale writes the sign, the base prefix, and the
digits with the locale's separator exactly at the group boundaries of the locale, and nothing else. -/
theorem c67_lc_print_partial (nu : Numeric) (bits : Nat) (hw : Width bits) (signed : Bool) (f : Fmt) (hb2 : 2 ≤ f.base)
    (hb36 : f.base ≤ 36) (hup : f.base ≤ 10 → f.upper = false)
    (hs : nu.grouping.length = 0 ∨ nu.sep.length = 0 → PlainOk bits f) (t : Int) (ht : InRange bits signed t) (m : Mem) (p : Nat) :
    ∃ ds body, IsDigits bits f.base f.upper f.full t.natAbs ds ∧ Grouped nu.grouping nu.sep ds body ∧
      (let txt := signText f.showpos t ++ (if f.showbase then prefixText f.base f.upperShow else []) ++ body
       lcPrintInt nu bits signed f m p t = some (store m p txt, p + txt.length)) := by
  obtain ⟨hab, hlt⟩ := absBits_eq bits hw signed t ht
  have hsg := signChars_eq signed f.showpos t (by
    intro h; subst h; simp only [InRange, Bool.false_eq_true, if_false] at ht; exact ht.1)
  have hp : (if f.showbase = true ∧ f.base ≠ 10 then basePrefix f.base f.upperShow else []) =
      (if f.showbase then prefixText f.base f.upperShow else []) := by
    rw [basePrefix_eq _ _ hb2 hb36]
    by_cases h10 : f.base = 10
    · cases f.showbase <;> simp [h10, prefixText, ascii]
    · simp [h10]
  unfold lcPrintInt
  rw [if_neg (show ¬ (f.base ≤ 10 ∧ f.upper = true) by rintro ⟨h1, h2⟩; simp [hup h1] at h2)]
  simp only [hab, hsg, hp]
  obtain ⟨ds, body, h1, h2, h3⟩ := lcWithFull_spec nu bits hw f hb2 hb36 hs
    (store (store m p (signText f.showpos t)) (p + (signText f.showpos t).length)
      (if f.showbase then prefixText f.base f.upperShow else []))
    (p + (signText f.showpos t).length + (if f.showbase then prefixText f.base f.upperShow else []).length) t.natAbs hlt
  refine ⟨ds, body, h1, h2, ?_⟩
  rw [h3, store_store_append, store_store_at _ _ _ _ _ (by simp [Nat.add_assoc])]
  simp [Nat.add_assoc]

/-- The grouping of Indian English: `12,34,567`. -/
example : (lcPrintInt ⟨[44], [3, 2]⟩ 32 true {} (fun _ => 0) 100 (-1234567)).map (fun r => (load r.1 100 12, r.2)) =
    some (ascii "-12,34,567" ++ [0, 0], 110) := by decide +kernel

/-- Groups of three with a separator of two characters, hexadecimal with prefix. -/
example : (lcPrintInt ⟨[226, 128], [3]⟩ 16 false { base := 16, showbase := true, upper := true } (fun _ => 0) 0 0xFACE).map
    (fun r => (load r.1 0 9, r.2)) = some (ascii "0xF" ++ [226, 128] ++ ascii "ACE" ++ [0], 8) := by decide +kernel

example : ∃ ds body, IsDigits 64 10 false false 1234567 ds ∧ Grouped [3] [46] ds body ∧
    lcPrintInt ⟨[46], [3]⟩ 64 false {} (fun _ => 0) 0 1234567 =
      some (store (fun _ => 0) 0 (signText false 1234567 ++ [] ++ body), 0 + (signText false 1234567 ++ [] ++ body).length) :=
  c67_lc_print_partial ⟨[46], [3]⟩ 64 (by simp [Width]) false {} (by simp) (by simp) (by simp) (by simp) 1234567
    (by simp [InRange]) _ _

/-- A text that is grouped in one way is not grouped in another: the grouped text of given digits is unique. -/
theorem c67_grouped_unique (g sep ds t1 t2 : List Nat) (h1 : Grouped g sep ds t1) (h2 : Grouped g sep ds t2) : t1 = t2 := by
  induction h1 generalizing t2 with
  | nil => cases h2; rfl
  | plain d ds txt hb h ih =>
    cases h2 with
    | plain _ _ _ _ h2 => rw [ih _ h2]
    | sep _ _ _ hb2 h2 => exact absurd hb2 hb
  | sep d ds txt hb h ih =>
    cases h2 with
    | plain _ _ _ hb2 h2 => exact absurd hb hb2
    | sep _ _ _ _ h2 => rw [ih _ h2]

/-- **C67 is false in upper case for the bases up to 10**: the locale is ignored, `1234` has no separator. -/
theorem c67_upper_violated :
    (lcPrintInt ⟨[44], [3]⟩ 32 false { upper := true } (fun _ => 0) 0 1234).map (fun r => (load r.1 0 5, r.2)) =
      some (ascii "1234" ++ [0], 4) ∧
    (lcPrintInt ⟨[44], [3]⟩ 32 false {} (fun _ => 0) 0 1234).map (fun r => (load r.1 0 5, r.2)) = some (ascii "1,234", 5) := by
  decide +kernel

/-- **C67, size** (partial: the restrictions of C04, `c04_reserved_size_partial`): whatever the locale, printing writes only
inside the number of characters announced for it. -/
theorem c67_reserve_partial (nu : Numeric) (bits : Nat) (hw : Width bits) (signed : Bool) (f : Fmt) (hfull : f.full = false)
    (hb2 : 2 ≤ f.base) (hb36 : f.base ≤ 36) (hup : f.base ≤ 10 → f.upper = false)
    (hs : nu.grouping.length = 0 ∨ nu.sep.length = 0 → Supported bits f.base f.upper) (t : Int) (ht : InRange bits signed t)
    (hmin : signed = true → (∀ k, f.base ^ k ≠ 2 ^ (bits - 1)) ∨ t ≠ -(2 ^ (bits - 1) : Int)) (m : Mem) (p : Nat) :
    ∃ m' e, lcPrintInt nu bits signed f m p t = some (m', e) ∧ p < e ∧ e ≤ p + lcReserve nu bits signed f ∧
      ∀ a, (a < p ∨ p + lcReserve nu bits signed f ≤ a) → m' a = m a := by
  obtain ⟨ds, body, h1, h2, h3⟩ := c67_lc_print_partial nu bits hw signed f hb2 hb36 hup
    (fun h => by simpa [PlainOk, hfull] using hs h) t ht m p
  have hds : ds.length = (numeral f.base t.natAbs).length := by
    rw [hfull] at h1
    simp only [IsDigits, Bool.false_eq_true, if_false] at h1
    rw [(isNumeralText_iff hb2 _ _ _).mp h1]; simp
  have hd := digits_le_max bits hw signed f.base hb2 t ht hmin
  have hpos := numeral_length_pos f.base t.natAbs
  have hne : ds ≠ [] := by intro h; rw [h] at hds; simp at hds; omega
  have hl := grouped_length h2 hne
  have hl2 := grouped_length_ge h2
  have hp2 := prefixText_length f.base f.upperShow hb2 hb36
  have hsg : (signText f.showpos t).length ≤
      (if f.showpos then 1 else 0) + (if !f.showpos && signed then 1 else 0) := by
    have h1 := signText_length f.showpos t
    cases hsp : f.showpos
    · cases signed
      · have : 0 ≤ t := by simp only [InRange, Bool.false_eq_true, if_false] at ht; exact ht.1
        have : ¬ t < 0 := by omega
        simp [signText, this, ascii]
      · simpa [hsp] using h1
    · simpa [hsp] using h1
  have hsum : (signText f.showpos t ++ (if f.showbase then prefixText f.base f.upperShow else [])).length + ds.length ≤
      reserveSize bits signed f.base f.showbase f.showpos := by
    unfold reserveSize
    simp only [List.length_append]
    split <;> simp_all <;> omega
  have hmul : (ds.length - 1) * nu.sep.length ≤ (reserveSize bits signed f.base f.showbase f.showpos - 1) * nu.sep.length :=
    Nat.mul_le_mul_right _ (by omega)
  have hall : (signText f.showpos t ++ (if f.showbase then prefixText f.base f.upperShow else []) ++ body).length ≤
      lcReserve nu bits signed f := by
    unfold lcReserve
    rw [List.length_append]; simp only []; omega
  refine ⟨_, _, h3, ?_, by omega, ?_⟩
  · rw [List.length_append]; omega
  · intro a ha
    apply store_outside
    rcases ha with h | h
    · left; exact h
    · right; omega

example : ∃ m' e, lcPrintInt ⟨[226, 128, 137], [3]⟩ 64 true {} (fun _ => 7) 100 (-9223372036854775808) = some (m', e) ∧
    100 < e ∧ e ≤ 100 + lcReserve ⟨[226, 128, 137], [3]⟩ 64 true {} ∧
    ∀ a, (a < 100 ∨ 100 + lcReserve ⟨[226, 128, 137], [3]⟩ 64 true {} ≤ a) → m' a = 7 := by
  refine c67_reserve_partial _ 64 (by simp [Width]) true {} rfl (by simp) (by simp) (by simp) (by simp) _ (by simp [InRange]) ?_ _ _
  intro _
  left
  intro k hk
  rcases Nat.eq_zero_or_pos k with h | h
  · subst h; norm_num at hk
  · obtain ⟨j, rfl⟩ : ∃ j, k = j + 1 := ⟨k - 1, by omega⟩
    have hd : 5 ∣ 2 ^ 63 := by
      rw [← hk, pow_succ]
      exact Dvd.dvd.mul_left (by norm_num) _
    norm_num at hd

end Verif.Lc
