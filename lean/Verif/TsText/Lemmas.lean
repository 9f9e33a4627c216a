import Verif.TsText.Model
import Verif.Time.TextScan
import Verif.Lc.Props
/-!
# Lemmas about the decimal text of timestamps
-/
namespace Verif.TsText
open Verif Verif.IntPrint Verif.IntScan Verif.Time

theorem map_digitChar (ds : List Nat) (h : ∀ d ∈ ds, d < 10) : ds.map (digitChar false) = chars ds := by
  apply List.map_congr_left
  intro d hd
  simp [digitChar, h d hd]

theorem chars_run (ds : List Nat) (h : ∀ d ∈ ds, d < 10) : DigitRun 10 (chars ds) ds := by
  induction ds with
  | nil => exact .nil
  | cons d ds ih => exact .cons (isDigit48 d (h d (by simp))) (ih fun x hx => h x (by simp [hx]))

theorem chars_lt (ds : List Nat) (h : ∀ d ∈ ds, d < 10) : ∀ c ∈ chars ds, c < 256 := by
  intro c hc
  obtain ⟨d, hd, rfl⟩ := List.mem_map.mp hc
  have := h d hd; omega

theorem padded_getLast (n s : Nat) (hn : 0 < n) (h : s % 10 ≠ 0) : (padded 10 n s).getLast? ≠ some 0 := by
  obtain ⟨k, rfl⟩ : ∃ k, n = k + 1 := ⟨n - 1, by omega⟩
  simpa [padded] using h

/-- The digits of a fraction. -/
theorem frac_digits (sub : Nat) (h0 : sub ≠ 0) (h : sub < S) : ∃ fs, fs ≠ [] ∧ (∀ d ∈ fs, d < 10) ∧ fs.length ≤ 19 ∧
    fs.getLast? ≠ some 0 ∧ digitsValue 10 fs * 10 ^ (19 - fs.length) = sub ∧ fracText sub = 46 :: chars fs ∧
    Writes (fracMain sub) (chars fs) := by
  obtain ⟨s', n, h1, h2, h3, h4, h5, h6⟩ := fracStrip_eq 20 sub 19 h0 h (by omega)
  have hc : (padded 10 n s').map (digitChar false) = chars (padded 10 n s') := map_digitChar _ (Time.padded_lt n s')
  refine ⟨padded 10 n s', ?_, Time.padded_lt n s', by rw [padded_len]; exact h2, padded_getLast n s' h4 h5, ?_, ?_, ?_⟩
  · intro hh; have := congrArg List.length hh; rw [padded_len] at this; simp at this; omega
  · rw [padded_value 10 n s' h3, padded_len]; exact h6.symm
  · obtain ⟨s2, n2, g1, g2, g3, g4, g5, g6⟩ := fracText_eq sub h0 h
    rw [h1] at g1
    obtain ⟨rfl, rfl⟩ : s' = s2 ∧ n = n2 := by simpa using g1
    rw [g6, hc]
  · intro m p
    unfold fracMain
    simp only [h1, Option.bind_eq_bind, Option.bind_some, genMain]
    rw [if_neg (by norm_num), genWord_eq 10 (by norm_num) false m p s' n h3, hc]
    simp [chars, padded_len]

theorem signText_eq (t : Int) : signText false t = if decide (t < 0) = true then [45] else [] := by
  by_cases h : t < 0 <;> simp [signText, h, ascii]

/-- The value of a timestamp from its digits. -/
theorem val_eq (t : TS) (f : Nat) (hf : f = t.sub) : t.val = (if decide (t.sec < 0) = true then -1 else 1) *
    ((t.sec.natAbs * 10 ^ 19 + f : Nat) : Int) := by
  subst hf
  unfold TS.val S
  by_cases h : t.sec < 0
  · rw [if_pos h, if_pos (by simpa using h)]
    push_cast
    rw [abs_of_neg h]; ring
  · rw [if_neg h, if_neg (by simpa using h)]
    push_cast
    rw [abs_of_nonneg (by omega)]; ring

/-! ## Scanning a fraction of any length -/

theorem digitsValue_lt10 (l : List Nat) (h : ∀ d ∈ l, d < 10) : digitsValue 10 l < 10 ^ l.length := by
  induction l using List.reverseRecOn with
  | nil => simp
  | append_singleton l d ih =>
    have h1 := ih fun x hx => h x (by simp [hx])
    have h2 := h d (by simp)
    rw [digitsValue_append_singleton, List.length_append, List.length_singleton, pow_succ]
    omega

/-- The rounding of the digits after the nineteenth. -/
theorem roundDigits_spec (ts : List Nat) (hne : ts ≠ []) (hd : ∀ d ∈ ts, d < 10) (v : Nat) (hv : v < 10 ^ 19) :
    ∃ w, roundDigits (chars ts) v = some w ∧ NearestEven (v * 10 ^ ts.length + digitsValue 10 ts) (10 ^ ts.length) w := by
  have hpow : ∀ l : List Nat, (∀ d ∈ l, d < 10) → digitsValue 10 l < 10 ^ l.length := by
    intro l hl
    exact digitsValue_lt10 l hl
  cases ts with
  | nil => exact absurd rfl hne
  | cons c l =>
    have hc := hd c (by simp)
    have hl := hpow l (fun d h => hd d (by simp [h]))
    have hval : digitsValue 10 (c :: l) = c * 10 ^ l.length + digitsValue 10 l := by
      have := digitsValue_append 10 [c] l
      simpa [digitsValue] using this
    have hP : (0 : Nat) < 10 ^ l.length := by positivity
    have hmod : (v + 1) % 2 ^ 64 = v + 1 := Nat.mod_eq_of_lt (by norm_num at *; omega)
    have hlen : (10 : Nat) ^ (c :: l).length = 10 * 10 ^ l.length := by rw [List.length_cons, pow_succ, Nat.mul_comm]
    have hany : (chars l).any (fun d => d != 48) = true ↔ digitsValue 10 l ≠ 0 := by
      constructor
      · intro h hz
        obtain ⟨x, hx, hx2⟩ := List.any_eq_true.mp h
        obtain ⟨d, hd1, rfl⟩ := List.mem_map.mp hx
        have : ∀ l : List Nat, digitsValue 10 l = 0 → ∀ d ∈ l, d = 0 := by
          intro l
          induction l with
          | nil => simp
          | cons a l ih =>
            intro h d hd
            have h2 := digitsValue_append 10 [a] l
            rw [List.singleton_append, h] at h2
            have h3 : a = 0 := by
              by_contra ha
              have : 0 < digitsValue 10 [a] * 10 ^ l.length := Nat.mul_pos (by simp [digitsValue]; omega) (by positivity)
              omega
            rcases List.mem_cons.mp hd with rfl | hd
            · exact h3
            · exact ih (by omega) d hd
        have := this l hz d hd1
        subst this
        simp at hx2
      · intro h
        rw [List.any_eq_true]
        by_contra hn
        push Not at hn
        apply h
        have : ∀ l : List Nat, (∀ d ∈ l, d = 0) → digitsValue 10 l = 0 := by
          intro l
          induction l with
          | nil => simp
          | cons a l ih =>
            intro h
            have h2 := digitsValue_append 10 [a] l
            have ha := h a (by simp)
            subst ha
            rw [List.singleton_append, ih fun d hd => h d (by simp [hd])] at h2
            rw [h2]; simp [digitsValue]
        apply this
        intro d hd1
        have := hn (48 + d) (List.mem_map.mpr ⟨d, hd1, rfl⟩)
        simpa using this
    have hany' := hany
    simp only [chars] at hany'
    generalize 10 ^ l.length = P at *
    generalize digitsValue 10 l = r at *
    rw [hval, hlen]
    unfold roundDigits NearestEven
    simp only [chars, List.map_cons]
    by_cases h1 : 48 + c < 53
    · rw [if_pos h1]
      refine ⟨v, rfl, ?_⟩
      have : c * P ≤ 4 * P := Nat.mul_le_mul_right _ (by omega)
      have e1 : (2 * v + 1) * (10 * P) = 20 * (v * P) + 10 * P := by ring
      have e2 : 2 * v * (10 * P) = 20 * (v * P) := by ring
      have e3 : v * (10 * P) = 10 * (v * P) := by ring
      rw [e1, e2, e3]
      refine ⟨by omega, by omega, ?_⟩
      rintro (h | h) <;> omega
    · rw [if_neg h1]
      by_cases h2 : 53 < 48 + c
      · rw [if_pos h2, hmod]
        refine ⟨v + 1, rfl, ?_⟩
        have : 6 * P ≤ c * P := Nat.mul_le_mul_right _ (by omega)
        have h9 : c * P ≤ 9 * P := Nat.mul_le_mul_right _ (by omega)
        have e1 : (2 * (v + 1) + 1) * (10 * P) = 20 * (v * P) + 30 * P := by ring
        have e2 : 2 * (v + 1) * (10 * P) = 20 * (v * P) + 20 * P := by ring
        have e3 : v * (10 * P) = 10 * (v * P) := by ring
        rw [e1, e2, e3]
        refine ⟨by omega, by omega, ?_⟩
        rintro (h | h) <;> omega
      · rw [if_neg h2]
        have hc5 : c = 5 := by omega
        subst hc5
        have e1 : (2 * v + 1) * (10 * P) = 20 * (v * P) + 10 * P := by ring
        have e2 : 2 * v * (10 * P) = 20 * (v * P) := by ring
        have e3 : v * (10 * P) = 10 * (v * P) := by ring
        have e4 : (2 * (v + 1) + 1) * (10 * P) = 20 * (v * P) + 30 * P := by ring
        have e5 : 2 * (v + 1) * (10 * P) = 20 * (v * P) + 20 * P := by ring
        by_cases h3 : r = 0
        · rw [if_neg (fun hh => hany'.mp hh h3)]
          by_cases h4 : v % 2 = 1
          · rw [if_pos h4, hmod]
            refine ⟨v + 1, rfl, ?_⟩
            rw [e4, e5, e3]
            refine ⟨by omega, by omega, fun _ => by omega⟩
          · rw [if_neg h4]
            refine ⟨v, rfl, ?_⟩
            rw [e1, e2, e3]
            refine ⟨by omega, by omega, fun _ => by omega⟩
        · rw [if_pos (hany'.mpr h3), hmod]
          refine ⟨v + 1, rfl, ?_⟩
          rw [e4, e5, e3]
          refine ⟨by omega, by omega, ?_⟩
          rintro (h | h) <;> omega

theorem noDigit_take {l : List Nat} (h : NoDigitFirst 10 l) (k : Nat) : NoDigitFirst 10 (l.take k) := by
  intro c t d he
  cases l with
  | nil => simp at he
  | cons a l =>
    cases k with
    | zero => simp at he
    | succ k =>
      simp at he
      exact he.1 ▸ h a l d rfl

/-- The first nineteen digits. -/
theorem scan_head (cfg : TCfg) (hv : cfg.Valid) (ds rest : List Nat) (hne : ds ≠ []) (hd : ∀ d ∈ ds, d < 10)
    (hlen : ds.length ≤ 19) (hr : CodeUnits cfg.cw rest) (hnd : NoDigitFirst 10 rest) (hl : (chars ds ++ rest).length ≤ 19) :
    scanContig (fracCfg cfg) (chars ds ++ rest) = some ⟨rest, .ok, some (digitsValue 10 ds : Int)⟩ := by
  set C : Cfg := fracCfg cfg with hC
  have hvC : Valid C := ⟨by norm_num [hC, fracCfg], by norm_num [hC, fracCfg], by simp [Width, hC, fracCfg], hv.cw, hv.simd, by simp [hC, fracCfg], by simp [hC, fracCfg]⟩
  have hcu : CodeUnits cfg.cw (chars ds ++ rest) := by
    intro x hx
    rcases List.mem_append.mp hx with hx | hx
    · have := chars_lt ds hd x hx
      have h2 := cw_ge _ hv.cw
      omega
    · exact hr x hx
  have hlt := digitsValue_lt10 ds hd
  have hspec : ScanSpec 64 false true true 10 (chars ds ++ rest) ⟨rest, .ok, some (digitsValue 10 ds : Int)⟩ := by
    refine .num [] _ _ (by simp) (by simp) (by simp) ?_
    have := NumSpec.ok (bits := 64) (signed := false) (skipzero := true) (base := 10) [] (chars ds) ds
      rest false (Or.inl ⟨rfl, rfl⟩) (chars_run ds hd) hne hnd (by simp)
    refine this ?_
    have h19 : (10 : Nat) ^ ds.length ≤ 10 ^ 19 := Nat.pow_le_pow_right (by norm_num) hlen
    simp [InRange, signedValue]
    norm_num at *
    omega
  obtain ⟨o, ho, hos⟩ := c06_scan_partial C hvC (chars ds ++ rest) ⟨hcu, by intro h; simp [hC, fracCfg] at h⟩
    (by intro h; simp [hC, fracCfg] at h)
    (by
      intro ws sgn neg t he _ _ _ _ _ _ k cs' ds' rest' hl' _ _ _ _ h32
      exfalso
      have h1 := congrArg List.length he
      have h2 := congrArg List.length hl'
      simp only [List.length_append] at h1 h2 hl h32
      omega)
    (by
      intro ws t he _ hws _ hls
      have : ws = [] := hws rfl
      subst this
      rcases hls with ⟨h, _⟩ | ⟨_, h⟩
      · simp [hC, fracCfg] at h
      · rw [h] at he
        have := congrArg List.length he
        have h0 : 0 < ds.length := List.length_pos_iff.mpr hne
        rw [List.length_append, show (chars ds).length = ds.length by simp [chars], List.nil_append, List.length_nil] at this
        omega)
  have ho' := c06_spec_functional (base := 10) (by norm_num) (by norm_num) hos hspec
  rw [ho, ho']

/-- A fraction of any number of digits: the nearest multiple of `10^-19`. -/
theorem scanFrac_run (cfg : TCfg) (hv : cfg.Valid) (ds rest : List Nat) (hne : ds ≠ []) (hd : ∀ d ∈ ds, d < 10)
    (hr : CodeUnits cfg.cw rest) (hnd : NoDigitFirst 10 rest) :
    ∃ w, scanFrac cfg (chars ds ++ rest) = some (rest, .ok, w) ∧
      NearestEven (digitsValue 10 ds * 10 ^ 19) (10 ^ ds.length) w := by
  have h0 : 0 < ds.length := List.length_pos_iff.mpr hne
  have hcl : (chars ds).length = ds.length := by simp [chars]
  unfold scanFrac
  rw [if_neg (by
    intro h; have := congrArg List.length h
    rw [List.length_append, hcl, List.length_nil] at this; omega)]
  simp only
  by_cases hlen : ds.length ≤ 19
  · have htake : (chars ds ++ rest).take 19 = chars ds ++ rest.take (19 - ds.length) := by
      rw [List.take_append, hcl, List.take_of_length_le (by omega)]
    have hdrop : (chars ds ++ rest).drop 19 = rest.drop (19 - ds.length) := by
      rw [List.drop_append, hcl, List.drop_eq_nil_of_le (by omega), List.nil_append]
    rw [htake, hdrop, scan_head cfg hv ds _ hne hd hlen (fun c hc => hr c (List.mem_of_mem_take hc)) (noDigit_take hnd _)
      (by rw [← htake]; simp)]
    simp only [Option.bind_some]
    have hused : (chars ds ++ rest.take (19 - ds.length)).length - (rest.take (19 - ds.length)).length = ds.length := by
      rw [List.length_append, hcl]; omega
    rw [hused, if_neg (by omega), List.take_append_drop, Int.toNat_natCast]
    have hlt := digitsValue_lt10 ds hd
    have hbig : digitsValue 10 ds * 10 ^ (19 - ds.length) < 10 ^ 19 := by
      calc digitsValue 10 ds * 10 ^ (19 - ds.length) < 10 ^ ds.length * 10 ^ (19 - ds.length) :=
            Nat.mul_lt_mul_of_pos_right hlt (by positivity)
        _ = 10 ^ 19 := by rw [← pow_add]; congr 1; omega
    have hval : digitsValue 10 ds * 10 ^ (19 - ds.length) % 2 ^ 64 = digitsValue 10 ds * 10 ^ (19 - ds.length) :=
      Nat.mod_eq_of_lt (by norm_num at *; omega)
    rw [hval]
    refine ⟨digitsValue 10 ds * 10 ^ (19 - ds.length), ?_, ?_⟩
    · have hsk : skipDigits (fracCfg cfg) rest = some rest := by
        have hvC : Valid (fracCfg cfg) := ⟨by norm_num [fracCfg], by norm_num [fracCfg], by simp [Width, fracCfg], hv.cw, hv.simd, by simp [fracCfg], by simp [fracCfg]⟩
        have := skipDigits_eq hvC (cs := []) (ds := []) (rest := rest) .nil hnd ⟨hr, by intro h; simp [fracCfg] at h⟩
        simpa using this
      split_ifs
      · rw [hsk]; simp
      · rfl
    · have e : digitsValue 10 ds * 10 ^ 19 = digitsValue 10 ds * 10 ^ (19 - ds.length) * 10 ^ ds.length := by
        rw [mul_assoc, ← pow_add]; congr 2; omega
      rw [e]
      unfold NearestEven
      have hp : (0 : Nat) < 10 ^ ds.length := by positivity
      generalize digitsValue 10 ds * 10 ^ (19 - ds.length) = v
      generalize (10 : Nat) ^ ds.length = P at *
      have e1 : (2 * v + 1) * P = 2 * (v * P) + P := by ring
      have e2 : 2 * v * P = 2 * (v * P) := by ring
      rw [e1, e2]
      refine ⟨by omega, by omega, ?_⟩
      rintro (h | h) <;> omega
  · have hsplit : chars ds = chars (ds.take 19) ++ chars (ds.drop 19) := by
      rw [chars, chars, chars, ← List.map_append, List.take_append_drop]
    have ht19 : (ds.take 19).length = 19 := by simp; omega
    have htake : (chars ds ++ rest).take 19 = chars (ds.take 19) ++ [] := by
      rw [hsplit, List.append_assoc, List.take_append, List.take_of_length_le (by simp [chars])]
      simp [chars]; try (left; omega)
    have hdrop : (chars ds ++ rest).drop 19 = chars (ds.drop 19) ++ rest := by
      have h19 : (chars (ds.take 19)).length = 19 := by rw [chars, List.length_map, ht19]
      rw [hsplit, List.append_assoc, List.drop_append, List.drop_eq_nil_of_le (by omega), h19]
      simp
    have hd1 : ∀ d ∈ ds.take 19, d < 10 := fun d h => hd d (List.mem_of_mem_take h)
    have hd2 : ∀ d ∈ ds.drop 19, d < 10 := fun d h => hd d (List.mem_of_mem_drop h)
    have hne1 : ds.take 19 ≠ [] := by intro h; rw [h] at ht19; simp at ht19
    have hne2 : ds.drop 19 ≠ [] := by
      intro h; have := congrArg List.length h; simp at this; omega
    rw [htake, hdrop, scan_head cfg hv (ds.take 19) [] hne1 hd1 (by omega) (by intro c hc; simp at hc)
      (by intro c t d h; simp at h) (by simp [chars])]
    simp only [Option.bind_some, List.append_nil, List.length_nil, Nat.sub_zero, List.nil_append]
    have hcl1 : (chars (ds.take 19)).length = 19 := by rw [chars, List.length_map, ht19]
    rw [hcl1, if_neg (by omega), Int.toNat_natCast]
    have hlt := digitsValue_lt10 _ hd1
    rw [ht19] at hlt
    have hval : digitsValue 10 (ds.take 19) * 10 ^ (19 - 19) % 2 ^ 64 = digitsValue 10 (ds.take 19) := by
      rw [Nat.sub_self, pow_zero, mul_one]
      exact Nat.mod_eq_of_lt (by norm_num at *; omega)
    rw [hval]
    have hcne : chars (ds.drop 19) ++ rest ≠ [] := by
      intro h; have := congrArg List.length h
      have h2 : 0 < (ds.drop 19).length := List.length_pos_iff.mpr hne2
      rw [List.length_append, chars, List.length_map, List.length_nil] at this; omega
    rw [if_pos ⟨hcne, trivial⟩]
    have hvC : Valid (fracCfg cfg) := ⟨by norm_num [fracCfg], by norm_num [fracCfg], by simp [Width, fracCfg], hv.cw, hv.simd, by simp [fracCfg], by simp [fracCfg]⟩
    rw [skipDigits_eq hvC (chars_run _ hd2) hnd ⟨hr, by intro h; simp [fracCfg] at h⟩, Option.bind_some]
    rw [if_pos (by
      have : 0 < (ds.drop 19).length := List.length_pos_iff.mpr hne2
      rw [List.length_append, chars, List.length_map]; omega)]
    rw [show (chars (ds.drop 19) ++ rest).take ((chars (ds.drop 19) ++ rest).length - rest.length) = chars (ds.drop 19) by
      rw [List.length_append, Nat.add_sub_cancel, List.take_left]]
    obtain ⟨w, h1, h2⟩ := roundDigits_spec (ds.drop 19) hne2 hd2 (digitsValue 10 (ds.take 19)) hlt
    refine ⟨w, by rw [h1]; rfl, ?_⟩
    have hv2 : digitsValue 10 ds = digitsValue 10 (ds.take 19) * 10 ^ (ds.drop 19).length + digitsValue 10 (ds.drop 19) := by
      rw [← digitsValue_append, List.take_append_drop]
    rw [← hv2] at h2
    have hP : (10 : Nat) ^ ds.length = 10 ^ (ds.drop 19).length * 10 ^ 19 := by
      rw [← pow_add]; congr 1; simp; omega
    rw [hP]
    unfold NearestEven at *
    have h10 : (0 : Nat) < 10 ^ 19 := by norm_num
    generalize (10 : Nat) ^ 19 = T at *
    generalize digitsValue 10 ds = V at *
    generalize (10 : Nat) ^ (ds.drop 19).length = P at *
    obtain ⟨a, b, c⟩ := h2
    have e1 : (2 * w + 1) * (P * T) = (2 * w + 1) * P * T := by ring
    have e2 : 2 * w * (P * T) = 2 * w * P * T := by ring
    have e3 : 2 * (V * T) = 2 * V * T := by ring
    have e4 : 2 * V * T + P * T = (2 * V + P) * T := by ring
    rw [e1, e2, e3, e4]
    refine ⟨Nat.mul_le_mul_right _ a, Nat.mul_le_mul_right _ b, ?_⟩
    rintro (h | h)
    · exact c (Or.inl (Nat.eq_of_mul_eq_mul_right h10 h))
    · exact c (Or.inr (Nat.eq_of_mul_eq_mul_right h10 h))

/-- The seconds. -/
theorem scan_seconds (cfg : TCfg) (hv : cfg.Valid) (t : Int) (ht : -2 ^ 63 ≤ t ∧ t < 2 ^ 63) (rest : List Nat)
    (hr : CodeUnits cfg.cw rest) (hnd : NoDigitFirst 10 rest) :
    scanContig (secCfg cfg) (signText false t ++ chars (numeral 10 t.natAbs) ++ rest) = some ⟨rest, .ok, some t⟩ := by
  have hvC : Valid (secCfg cfg) :=
    ⟨by show 2 ≤ 10; norm_num, by show 10 ≤ 36; norm_num, by show Width 64; simp [Width], hv.cw, hv.simd, by simp [secCfg], by simp [secCfg]⟩
  have hin : InRange 64 true t := by simp only [InRange, if_true]; norm_num at *; omega
  obtain ⟨txt, h1, h2⟩ := c07_round_trip (secCfg cfg) hvC rfl {} rfl rfl rfl rfl
    (by intro h; exact absurd h (by show ¬ (64 : Nat) = 128; norm_num)) t hin (fun _ => 0) 0 rest hr
    (by intro h; exact absurd h (by show ¬ 10 < 10; norm_num)) hnd
  have h3 := printInt_eq 64 (by simp [Width]) true {} rfl (by norm_num) (by norm_num) (by intro h; simp at h) t hin (fun _ => 0) 0
  simp only [secCfg] at h1 h3
  rw [h1] at h3
  simp only [Bool.false_eq_true, if_false, List.append_nil, Nat.zero_add] at h3
  rw [map_digitChar _ (decText_digits _)] at h3
  have e : txt = signText false t ++ chars (numeral 10 t.natAbs) := by
    have h4 := congrArg Prod.fst (Option.some.inj h3)
    have h5 := congrArg Prod.snd (Option.some.inj h3)
    simp only at h4 h5
    have := congrArg (fun m => load m 0 txt.length) h4
    rw [load_store] at this
    rw [this, h5, load_store]
  rw [← e]
  exact h2

end Verif.TsText
