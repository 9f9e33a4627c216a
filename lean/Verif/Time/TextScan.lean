import Verif.Time.TextPrint
import Verif.IntScan.Props
/-! The scanner reads back the text of a timestamp. -/
namespace Verif.Time
open Verif Verif.IntPrint Verif.IntScan

/-- Character types and vector widths that exist. -/
structure TCfg.Valid (cfg : TCfg) : Prop where
  cw : CharWidth cfg.cw
  simd : cfg.simd = 0 ∨ cfg.simd = 16 ∨ cfg.simd = 32 ∨ cfg.simd = 64

theorem isDigit48 (d : Nat) (h : d < 10) : IsDigit 10 (48 + d) d := ⟨h, Or.inl (by simp [digitChar, h])⟩

theorem isDigit_range (c d : Nat) (h : IsDigit 10 c d) : 48 ≤ c ∧ c ≤ 57 := by
  obtain ⟨h1, h2⟩ := h
  simp [digitChar, h1] at h2
  omega

theorem charDigit_yes (cw d : Nat) (hcw : CharWidth cw) (h : d < 10) : charDigit cw 10 (48 + d) = some (some d) :=
  charDigit_some hcw (by norm_num) (isDigit48 d h)

theorem charDigit_no (cw c : Nat) (hcw : CharWidth cw) (h : c < 48 ∨ 57 < c) (hc : c < 2 ^ cw) : charDigit cw 10 c = some none :=
  charDigit_none hcw (by norm_num) (fun d hd => by have := isDigit_range c d hd; omega) hc (by norm_num)

theorem cw_ge (cw : Nat) (h : CharWidth cw) : 256 ≤ 2 ^ cw := by
  rcases h with h | h | h <;> subst h <;> norm_num

theorem lane_eq (cw d : Nat) (hcw : CharWidth cw) (hd : d < 10) : (48 + d + 2 ^ cw - 48) % 2 ^ cw = d := by
  have := cw_ge cw hcw
  generalize 2 ^ cw = M at *
  rw [show 48 + d + M - 48 = d + M by omega, Nat.add_mod_right, Nat.mod_eq_of_lt (by omega)]

theorem scanTwo_dd (cw n : Nat) (hcw : CharWidth cw) (h : n < 100) (rest : List Nat) :
    scanTwo cw (dd n ++ rest) = some (some n) := by
  unfold dd scanTwo
  simp only [List.cons_append, List.nil_append]
  rw [lane_eq cw (n / 10) hcw (by omega), lane_eq cw (n % 10) hcw (by omega), if_neg (by omega), if_neg (by omega)]
  congr 2
  omega

theorem scanField_dd (cw sep lo hi n : Nat) (hcw : CharWidth cw) (h1 : lo ≤ n) (h2 : n ≤ hi) (h3 : hi < 100) (rest : List Nat)
    (k : Nat → List Nat → Option TOutcome) : scanField cw sep lo hi (sep :: dd n ++ rest) k = k n rest := by
  unfold scanField
  simp only [List.cons_append]
  rw [if_neg (by simp), scanTwo_dd cw n hcw (by omega)]
  simp only [Option.bind_some]
  rw [if_neg (by omega)]
  simp [dd]

theorem yearLoop_digits (cw : Nat) (hcw : CharWidth cw) (ds rest : List Nat) (k : Nat) (hk : k ≤ ds.length)
    (hd : ∀ d ∈ ds, d < 10) : yearLoop cw k (ds.map (digitChar false) ++ rest) = some none := by
  induction k generalizing ds with
  | zero => rfl
  | succ k ih =>
    cases ds with
    | nil => simp at hk
    | cons d ds =>
      have h10 := hd d (by simp)
      simp only [List.map_cons, List.cons_append, yearLoop]
      rw [show digitChar false d = 48 + d by simp [digitChar, h10], charDigit_yes cw d hcw h10]
      simp only [Option.bind_some]
      exact ih ds (by simpa using hk) (fun x hx => hd x (by simp [hx]))

theorem yearCfg_valid {cfg : TCfg} (hv : cfg.Valid) : Valid (yearCfg cfg) :=
  ⟨by show 2 ≤ 10; norm_num, by show 10 ≤ 36; norm_num, by show Width 64; simp [Width], hv.cw, hv.simd, by simp [yearCfg], by simp [yearCfg]⟩

/-- The wide years: scanned as integers. -/
theorem scan_big_year (cfg : TCfg) (hv : cfg.Valid) (n : Nat) (h : n < 2 ^ 63) (rest : List Nat) (hr : CodeUnits cfg.cw rest)
    (hnd : NoDigitFirst 10 rest) :
    scanContig (yearCfg cfg) (decText n ++ rest) = some ⟨rest, .ok, some n⟩ := by
  obtain ⟨txt, h1, h2⟩ := c07_round_trip (yearCfg cfg) (yearCfg_valid hv) rfl {} rfl rfl rfl rfl
    (by intro h; exact absurd h (by show ¬ (64 : Nat) = 128; norm_num)) n
    (by show InRange 64 true n; norm_num [InRange]; omega) (fun _ => 0) 0 rest hr (by intro h; exact absurd h (by show ¬ 10 < 10; norm_num)) hnd
  have h3 := printInt_eq 64 (by simp [Width]) true {} rfl (by norm_num) (by norm_num) (by intro h; simp at h) n
    (by norm_num [InRange]; omega) (fun _ => 0) 0
  simp only [yearCfg] at h1 h3
  rw [h1] at h3
  simp only [signText, Bool.false_eq_true, if_false, List.append_nil, Int.natAbs_natCast, Nat.zero_add] at h3
  have hneg : ¬ (n : Int) < 0 := by omega
  simp only [hneg, if_false] at h3
  have e : txt = decText n := by
    have h4 := congrArg Prod.fst (Option.some.inj h3)
    have h5 := congrArg Prod.snd (Option.some.inj h3)
    simp only at h4 h5
    have := congrArg (fun m => load m 0 txt.length) h4
    rw [load_store] at this
    rw [this, h5, load_store]
    simp [decText, ascii]
  rw [← e]
  exact h2

theorem decText_digits (n : Nat) : ∀ d ∈ numeral 10 n, d < 10 := (numeral_isNumeral (by norm_num) n).digits_lt

theorem scanYear_text (cfg : TCfg) (hv : cfg.Valid) (y : Int) (hy : -2 ^ 63 < y ∧ y < 2 ^ 63) (rest : List Nat)
    (hr : CodeUnits cfg.cw (45 :: rest)) (hlen : 15 ≤ rest.length) :
    scanYear cfg (yearText y ++ 45 :: rest) = some (45 :: rest, .ok, y) := by
  have hnd : NoDigitFirst 10 (45 :: rest) := by
    intro c t d h hd
    have := isDigit_range c d hd
    simp at h; omega
  have h45 : charDigit cfg.cw 10 45 = some none := charDigit_no cfg.cw 45 hv.cw (by norm_num) (by have := cw_ge _ hv.cw; omega)
  -- the digits after the sign
  have key : ∀ n : Nat, n < 2 ^ 63 → ∀ (sign : Bool),
      (yearLoop cfg.cw 4 ((if n < 10000 then dd (n / 100) ++ dd (n % 100) else decText n) ++ 45 :: rest) = some none) ∧
      ∃ a b c d e r, (if n < 10000 then dd (n / 100) ++ dd (n % 100) else decText n) ++ 45 :: rest = a :: b :: c :: d :: e :: r ∧
        a ≠ 45 ∧
        ((charDigit cfg.cw 10 e = some none ∧ e :: r = 45 :: rest ∧
            (a - 48) * 1000 + (b - 48) * 100 + (c - 48) * 10 + (d - 48) = n) ∨
         (∃ x, charDigit cfg.cw 10 e = some (some x)) ∧
          scanContig (yearCfg cfg) (a :: b :: c :: d :: e :: r) = some ⟨45 :: rest, .ok, some n⟩) := by
    intro n hn sign
    by_cases c : n < 10000
    · simp only [c, if_true]
      refine ⟨?_, ?_⟩
      · have := yearLoop_digits cfg.cw hv.cw [n / 100 / 10, n / 100 % 10, n % 100 / 10, n % 100 % 10] (45 :: rest) 4 (by simp)
          (by simp; omega)
        have e1 : n / 100 / 10 < 10 := by omega
        have e2 : n / 100 % 10 < 10 := by omega
        have e3 : n % 100 / 10 < 10 := by omega
        have e4 : n % 100 % 10 < 10 := by omega
        simp only [List.map_cons, List.map_nil, digitChar, e1, e2, e3, e4, if_true] at this
        simpa [dd] using this
      · refine ⟨48 + n / 100 / 10, 48 + n / 100 % 10, 48 + n % 100 / 10, 48 + n % 100 % 10, 45, rest, by simp [dd], by omega,
          Or.inl ⟨h45, rfl, by omega⟩⟩
    · simp only [c, if_false]
      have hl : 5 ≤ (numeral 10 n).length := by
        by_contra hcon
        have := (numeral_length_le (b := 10) (by norm_num) 4 n (by norm_num)).mp (by omega)
        norm_num at this
        omega
      have hd := decText_digits n
      have hs := scan_big_year cfg hv n hn (45 :: rest) hr hnd
      refine ⟨yearLoop_digits cfg.cw hv.cw (numeral 10 n) (45 :: rest) 4 (by omega) hd, ?_⟩
      unfold decText at hs ⊢
      generalize numeral 10 n = ds at *
      match ds, hl with
      | a :: b :: c :: d :: e :: r, _ =>
        have h10 : ∀ x ∈ [a, e], digitChar false x = 48 + x := by
          intro x hx
          have : x < 10 := hd x (by simp at hx ⊢; tauto)
          simp [digitChar, this]
        refine ⟨digitChar false a, digitChar false b, digitChar false c, digitChar false d, digitChar false e,
          r.map (digitChar false) ++ 45 :: rest, by simp, ?_, Or.inr ⟨⟨e, ?_⟩, by simpa using hs⟩⟩
        · rw [h10 a (by simp)]; omega
        · rw [h10 e (by simp)]; exact charDigit_yes cfg.cw e hv.cw (hd e (by simp))
  have hn : y.natAbs < 2 ^ 63 := by norm_num at *; omega
  obtain ⟨hloop, a, b, c, d, e, r, hl, ha, hcase⟩ := key y.natAbs hn false
  have hlen2 : 4 ≤ (if y.natAbs < 10000 then dd (y.natAbs / 100) ++ dd (y.natAbs % 100) else decText y.natAbs).length := by
    split_ifs with c
    · simp [dd]
    · have : 5 ≤ (numeral 10 y.natAbs).length := by
        by_contra hcon
        have := (numeral_length_le (b := 10) (by norm_num) 4 y.natAbs (by norm_num)).mp (by omega)
        norm_num at this
        omega
      simp [decText]; omega
  unfold yearText
  generalize (if y.natAbs < 10000 then dd (y.natAbs / 100) ++ dd (y.natAbs % 100) else decText y.natAbs) = D at *
  unfold scanYear
  have hL : ∀ P : List Nat, ¬ (P ++ D ++ 45 :: rest).length < 20 := by
    intro P; simp; omega
  by_cases hneg : y < 0
  · simp only [hneg, if_true]
    rw [if_neg (hL [45])]
    simp only [List.cons_append, List.nil_append]
    simp only [beq_self_eq_true, if_true]
    rw [hloop]
    simp only [Option.bind_some]
    rw [hl]
    simp only
    rcases hcase with ⟨h1, h2, h3⟩ | ⟨⟨x, h1⟩, h2⟩
    · rw [h1]
      simp only [Option.bind_some]
      rw [h2, h3]
      congr 3
      omega
    · rw [h1]
      simp only [Option.bind_some]
      rw [h2]
      simp only [Option.bind_some]
      congr 3
      omega
  · simp only [hneg, if_false]
    rw [if_neg (hL [])]
    simp only [List.nil_append]
    rw [hl]
    have hb : (a == 45) = false := by simpa using ha
    simp only [hb, Bool.false_eq_true, if_false]
    rw [← hl, hloop, hl]
    simp only [Option.bind_some]
    rcases hcase with ⟨h1, h2, h3⟩ | ⟨⟨x, h1⟩, h2⟩
    · rw [h1]
      simp only [Option.bind_some]
      rw [h2, h3]
      congr 3
      omega
    · rw [h1]
      simp only [Option.bind_some]
      rw [h2]
      simp only [Option.bind_some]
      congr 3
      omega

theorem padded_run (n s : Nat) : DigitRun 10 ((padded 10 n s).map (digitChar false)) (padded 10 n s) := by
  have h := padded_lt n s
  generalize padded 10 n s = ds at h
  induction ds with
  | nil => exact .nil
  | cons d ds ih => exact .cons ⟨h d (by simp), Or.inl rfl⟩ (ih (fun x hx => h x (by simp [hx])))

theorem scanFrac_text (cfg : TCfg) (hv : cfg.Valid) (n s : Nat) (h0 : 0 < n) (hn : n ≤ 19) (hs : s < 10 ^ n) (c : Nat)
    (rest : List Nat) (hr : CodeUnits cfg.cw (c :: rest)) (hc : c < 48 ∨ 57 < c) :
    scanFrac cfg ((padded 10 n s).map (digitChar false) ++ c :: rest) = some (c :: rest, .ok, s * 10 ^ (19 - n)) := by
  set cs := (padded 10 n s).map (digitChar false) with hcs
  have hlen : cs.length = n := by simp [hcs, padded_len]
  have htake : (cs ++ c :: rest).take 19 = cs ++ (c :: rest).take (19 - n) := by
    rw [List.take_append, hlen, List.take_of_length_le (by omega)]
  have hdrop : (cs ++ c :: rest).drop 19 = (c :: rest).drop (19 - n) := by
    rw [List.drop_append, hlen, List.drop_eq_nil_of_le (by omega), List.nil_append]
  have hnd : ∀ k, NoDigitFirst 10 ((c :: rest).take k) := by
    intro k a t d h hd
    have := isDigit_range a d hd
    cases k with
    | zero => simp at h
    | succ k => simp at h; omega
  unfold scanFrac
  rw [if_neg (by simp)]
  simp only
  rw [htake, hdrop]
  set C : Cfg := fracCfg cfg with hC
  have hvC : Valid C := ⟨by norm_num [hC, fracCfg], by norm_num [hC, fracCfg], by simp [Width, hC, fracCfg], hv.cw, hv.simd, by simp [hC, fracCfg], by simp [hC, fracCfg]⟩
  have hhl : (cs ++ (c :: rest).take (19 - n)).length ≤ 19 := by
    rw [← htake]; simp
  have hcu : CodeUnits cfg.cw (cs ++ (c :: rest).take (19 - n)) := by
    intro x hx
    rcases List.mem_append.mp hx with hx | hx
    · rw [hcs, List.mem_map] at hx
      obtain ⟨d, hd, rfl⟩ := hx
      have := padded_lt n s d hd
      have h2 := cw_ge _ hv.cw
      simp [digitChar, this]; omega
    · exact hr x (List.mem_of_mem_take hx)
  have hspec : ScanSpec 64 false true true 10 (cs ++ (c :: rest).take (19 - n)) ⟨(c :: rest).take (19 - n), .ok, some (s : Int)⟩ := by
    refine .num [] _ _ (by simp) (by simp) (by simp) ?_
    have := NumSpec.ok (bits := 64) (signed := false) (skipzero := true) (base := 10) [] cs (padded 10 n s)
      ((c :: rest).take (19 - n)) false (Or.inl ⟨rfl, rfl⟩) (padded_run n s)
      (by intro h; have := congrArg List.length h; simp [padded_len] at this; omega) (hnd _) (by simp)
    rw [padded_value 10 n s hs] at this
    refine this ?_
    have h19 : (10 : Nat) ^ n ≤ 10 ^ 19 := Nat.pow_le_pow_right (by norm_num) hn
    simp [InRange, signedValue]
    norm_num at *
    omega
  obtain ⟨o, ho, hos⟩ := c06_scan_partial C hvC (cs ++ (c :: rest).take (19 - n)) ⟨hcu, by intro h; simp [hC, fracCfg] at h⟩
    (by intro h; simp [hC, fracCfg] at h)
    (by
      intro ws sgn neg t he _ _ _ _ _ _ k cs' ds' rest' hl _ _ _ _ h32
      exfalso
      have h1 := congrArg List.length he
      have h2 := congrArg List.length hl
      simp only [List.length_append] at h1 h2 hhl h32
      omega)
    (by
      intro ws t he _ hws _ hls
      have : ws = [] := hws rfl
      subst this
      rcases hls with ⟨h, _⟩ | ⟨_, h⟩
      · simp [hC, fracCfg] at h
      · rw [h] at he
        have := congrArg List.length he
        simp [hlen] at this
        omega)
  have ho' : o = ⟨(c :: rest).take (19 - n), .ok, some (s : Int)⟩ := c06_spec_functional (base := 10) (by norm_num) (by norm_num) hos hspec
  rw [ho, ho']
  simp only [Option.bind_some]
  have hused : (cs ++ (c :: rest).take (19 - n)).length - ((c :: rest).take (19 - n)).length = n := by
    rw [List.length_append, hlen]; omega
  rw [hused, if_neg (by omega), List.take_append_drop, Int.toNat_natCast]
  have hval : s * 10 ^ (19 - n) % 2 ^ 64 = s * 10 ^ (19 - n) := by
    apply Nat.mod_eq_of_lt
    calc s * 10 ^ (19 - n) < 10 ^ n * 10 ^ (19 - n) := Nat.mul_lt_mul_of_pos_right hs (by positivity)
      _ = 10 ^ 19 := by rw [← pow_add]; congr 1; omega
      _ < 2 ^ 64 := by norm_num
  rw [hval]
  have hcd : charDigit cfg.cw 10 c = some none := charDigit_no cfg.cw c hv.cw hc (hr c (by simp))
  have hsk : skipDigits C (c :: rest) = some (c :: rest) := by
    unfold skipDigits
    simp only [hC, fracCfg]
    rw [hcd]
    rfl
  split_ifs
  · rw [hsk]
    simp
  · rfl

theorem scanZone_text (cw : Nat) (hcw : CharWidth cw) (t : Iso) (z : Int) (h0 : z ≠ 0) (h60 : z % 60 = 0)
    (h1 : -86400 < z ∧ z < 86400) (follow : List Nat) :
    scanZone cw t (decide (z < 0)) (zoneText z ++ follow) = some (follow, .ok, some { t with timezone := z }) := by
  have ha : z.natAbs / 3600 < 24 := by omega
  have hs : z.natAbs % 60 = 0 := by omega
  unfold zoneText
  simp only [h0, if_false, hs, if_true, List.append_nil]
  rw [if_pos (by omega : z.natAbs / 3600 < 100)]
  have e : ((if z < 0 then [45] else [43]) ++ (dd (z.natAbs / 3600) ++ (58 :: dd (z.natAbs / 60 % 60)))) ++ follow =
      (if z < 0 then 45 else 43) :: (dd (z.natAbs / 3600) ++ ((58 :: dd (z.natAbs / 60 % 60)) ++ follow)) := by
    split_ifs <;> simp
  rw [e]
  unfold scanZone
  rw [if_neg (by simp [dd])]
  simp only [List.drop_succ_cons, List.drop_zero]
  rw [scanTwo_dd cw _ hcw (by omega)]
  simp only [Option.bind_some]
  rw [if_neg (by omega)]
  have : (dd (z.natAbs / 3600) ++ ((58 :: dd (z.natAbs / 60 % 60)) ++ follow)).drop 2 = (58 :: dd (z.natAbs / 60 % 60)) ++ follow := by
    simp [dd]
  rw [this, scanField_dd cw 58 0 59 _ hcw (by omega) (by omega) (by omega)]
  congr 5
  by_cases hn : z < 0
  · simp only [hn, decide_true, if_true]; omega
  · simp only [hn, decide_false, Bool.false_eq_true, if_false]; omega

theorem scanTail_text (cw : Nat) (hcw : CharWidth cw) (t : Iso) (h : t.timezone = 0) (z : Int) (h60 : z % 60 = 0)
    (h1 : -86400 < z ∧ z < 86400) (follow : List Nat) (other : Option TOutcome) :
    scanTail cw t (zoneText z ++ follow) other = some (follow, .ok, some { t with timezone := z }) := by
  by_cases h0 : z = 0
  · subst h0
    simp only [zoneText, if_true, List.cons_append, List.nil_append, scanTail]
    congr 4
    cases t
    simp_all
  · have hz := scanZone_text cw hcw t z h0 h60 h1 follow
    have e : ∃ r, zoneText z = (if z < 0 then 45 else 43) :: r := by
      unfold zoneText
      simp only [h0, if_false]
      split_ifs <;> exact ⟨_, rfl⟩
    obtain ⟨r, hr⟩ := e
    rw [hr] at hz ⊢
    unfold scanTail
    simp only [List.cons_append] at hz ⊢
    by_cases hn : z < 0
    · simp only [hn, if_true, decide_true] at hz ⊢
      simpa using hz
    · simp only [hn, if_false, decide_false] at hz ⊢
      simpa using hz

theorem scanTail_dot (cw : Nat) (t : Iso) (l : List Nat) (other : Option TOutcome) : scanTail cw t (46 :: l) other = other := by
  simp [scanTail]

theorem zoneText_cons (z : Int) : ∃ c r, zoneText z = c :: r ∧ (c = 90 ∨ c = 45 ∨ c = 43) := by
  unfold zoneText
  simp only
  split_ifs <;> exact ⟨_, _, rfl, by simp⟩

/-- The fields of a timestamp that the text format can carry. -/
structure Iso.Carried (t : Iso) : Prop where
  year : -2 ^ 63 < t.year ∧ t.year < 2 ^ 63
  month : 1 ≤ t.month ∧ t.month ≤ 12
  day : 1 ≤ t.day ∧ t.day ≤ 31
  hours : t.hours < 24
  minutes : t.minutes < 60
  seconds : t.seconds < 60
  sub : t.sub < S
  zone_minutes : t.timezone % 60 = 0
  zone_day : -86400 < t.timezone ∧ t.timezone < 86400

theorem dd_lt (n : Nat) (h : n < 100) : ∀ c ∈ dd n, c < 256 := by
  intro c hc; simp [dd] at hc; omega

theorem yearText_head (y : Int) : ∃ c r, yearText y = c :: r ∧ (c = 45 ∨ (48 ≤ c ∧ c ≤ 57)) := by
  unfold yearText
  by_cases h : y < 0
  · simp only [h, if_true]; exact ⟨45, _, rfl, Or.inl rfl⟩
  · simp only [h, if_false, List.nil_append]
    split_ifs with c
    · exact ⟨_, _, rfl, Or.inr (by omega)⟩
    · have hne := (numeral_isNumeral (b := 10) (by norm_num) y.natAbs).nonempty
      have hd := decText_digits y.natAbs
      unfold decText
      generalize numeral 10 y.natAbs = ds at *
      cases ds with
      | nil => exact absurd rfl hne
      | cons d ds =>
        have h10 := hd d (by simp)
        refine ⟨_, _, rfl, Or.inr ?_⟩
        simp [digitChar, h10]
        omega

theorem yearText_lt (y : Int) : ∀ c ∈ yearText y, c < 256 := by
  intro c hc
  unfold yearText at hc
  rw [List.mem_append] at hc
  rcases hc with hc | hc
  · split_ifs at hc <;> simp at hc; omega
  · split_ifs at hc with h
    · rw [List.mem_append] at hc
      rcases hc with hc | hc
      · exact dd_lt _ (by omega) c hc
      · exact dd_lt _ (by omega) c hc
    · unfold decText at hc
      rw [List.mem_map] at hc
      obtain ⟨d, hd, rfl⟩ := hc
      have := decText_digits _ d hd
      simp [digitChar, this]; omega

theorem zoneText_lt (z : Int) (h1 : -86400 < z ∧ z < 86400) : ∀ c ∈ zoneText z, c < 256 := by
  intro c hc
  unfold zoneText at hc
  simp only at hc
  rw [if_pos (show z.natAbs / 3600 < 100 by omega)] at hc
  have ha := dd_lt (z.natAbs / 3600) (by omega)
  have hb := dd_lt (z.natAbs / 60 % 60) (by omega)
  have hd := dd_lt (z.natAbs % 60) (by omega)
  have hk : ∀ l : List Nat, (∀ c ∈ l, c < 256) → ∀ P : List Nat, (∀ c ∈ P, c < 256) →
      ∀ c ∈ P ++ (dd (z.natAbs / 3600) ++ (58 :: dd (z.natAbs / 60 % 60) ++ l)), c < 256 := by
    intro l hl P hP c hc
    simp only [List.mem_append, List.mem_cons] at hc
    rcases hc with h | h | (h | h) | h
    · exact hP c h
    · exact ha c h
    · omega
    · exact hb c h
    · exact hl c h
  have hsec : ∀ c ∈ 58 :: dd (z.natAbs % 60), c < 256 := by
    intro c hc
    rcases List.mem_cons.mp hc with h | h
    · omega
    · exact hd c h
  split_ifs at hc
  · simp at hc; omega
  · exact hk [] (by simp) [45] (by simp) c hc
  · exact hk _ hsec [45] (by simp) c hc
  · exact hk [] (by simp) [43] (by simp) c hc
  · exact hk _ hsec [43] (by simp) c hc

theorem fracText_lt (s : Nat) (h : s < S) : ∀ c ∈ fracText s, c < 256 := by
  intro c hc
  by_cases h0 : s = 0
  · simp [fracText, h0] at hc
  · obtain ⟨s', n, _, _, _, _, _, he⟩ := fracText_eq s h0 h
    rw [he, List.mem_cons, List.mem_map] at hc
    rcases hc with hc | ⟨d, hd, rfl⟩
    · omega
    · have := padded_lt n s' d hd
      simp [digitChar, this]; omega

theorem scanIso_text (cfg : TCfg) (hv : cfg.Valid) (t : Iso) (ht : t.Carried) (follow : List Nat)
    (hf : CodeUnits cfg.cw follow) : scanIso cfg (isoText t ++ follow) = some (follow, .ok, some t) := by
  have hcw := hv.cw
  have h256 := cw_ge _ hcw
  obtain ⟨hy, hmo, hda, hho, hmi, hse, hsu, hzm, hzd⟩ := ht
  -- the part after the seconds
  set tail := fracText t.sub ++ (zoneText t.timezone ++ follow) with htail
  have htl : CodeUnits cfg.cw tail := by
    intro c hc
    rw [htail, List.mem_append, List.mem_append] at hc
    rcases hc with hc | hc | hc
    · exact lt_of_lt_of_le (fracText_lt _ hsu c hc) h256
    · exact lt_of_lt_of_le (zoneText_lt _ hzd c hc) h256
    · exact hf c hc
  have htn : 1 ≤ tail.length := by
    obtain ⟨c, r, hz, _⟩ := zoneText_cons t.timezone
    rw [htail, hz]; simp; omega
  set rest := dd t.month ++ (45 :: dd t.day ++ (84 :: dd t.hours ++ (58 :: dd t.minutes ++ (58 :: dd t.seconds ++ tail)))) with hrest
  have e : isoText t ++ follow = yearText t.year ++ 45 :: rest := by
    simp only [isoText, hrest, htail, List.append_assoc, List.cons_append]
  have hcr : CodeUnits cfg.cw (45 :: rest) := by
    intro c hc
    simp only [hrest, List.mem_cons, List.mem_append] at hc
    have a1 := dd_lt t.month (by omega)
    have a2 := dd_lt t.day (by omega)
    have a3 := dd_lt t.hours (by omega)
    have a4 := dd_lt t.minutes (by omega)
    have a5 := dd_lt t.seconds (by omega)
    rcases hc with h | h | (h | h) | (h | h) | (h | h) | (h | h) | h
    · omega
    · exact lt_of_lt_of_le (a1 c h) h256
    · omega
    · exact lt_of_lt_of_le (a2 c h) h256
    · omega
    · exact lt_of_lt_of_le (a3 c h) h256
    · omega
    · exact lt_of_lt_of_le (a4 c h) h256
    · omega
    · exact lt_of_lt_of_le (a5 c h) h256
    · exact htl c h
  have hrl : 15 ≤ rest.length := by simp [hrest, dd]; omega
  rw [e]
  unfold scanIso
  have hsp : findSpace (yearCfg cfg)
      (yearText t.year ++ 45 :: rest) = yearText t.year ++ 45 :: rest := by
    obtain ⟨c, r, hc, hcc⟩ := yearText_head t.year
    have hns : ¬ IsSpace c := by unfold IsSpace; omega
    rw [findSpace_eq (cfg := (yearCfg cfg))
      (yearCfg_valid hv) _ _ _]
    · rw [hc]
      have hw := spaceWidth_ok cfg.cw hcw
      have : isCSpace (spaceWidth cfg.cw) c = false := by
        by_contra hcon
        exact hns ((isCSpace_iff hw.1 (lt_of_lt_of_le (by omega : c < 2 ^ cfg.cw) hw.2)).mp (by simpa using hcon))
      show List.dropWhile (isCSpace (spaceWidth cfg.cw)) (c :: r ++ 45 :: rest) = _
      simp [List.dropWhile_cons, this]
    · intro x hx
      rcases List.mem_append.mp hx with hx | hx
      · exact lt_of_lt_of_le (yearText_lt _ x hx) h256
      · exact hcr x hx
    · intro hs hall
      exfalso
      apply hns
      apply hall
      rw [hc]
      have : 0 < cfg.simd := Nat.pos_of_ne_zero hs
      obtain ⟨k, hk⟩ : ∃ k, cfg.simd = k + 1 := ⟨cfg.simd - 1, by omega⟩
      show c ∈ List.take cfg.simd (c :: r ++ 45 :: rest)
      simp [hk]
  simp only [hsp]
  rw [scanYear_text cfg hv t.year hy rest hcr hrl]
  simp only [Option.bind_some, ne_eq, not_true_eq_false, if_false]
  rw [if_neg (by simp; omega)]
  have hrw : (45 :: rest) = (45 :: dd t.month ++ (45 :: dd t.day ++ (84 :: dd t.hours ++ (58 :: dd t.minutes ++ (58 :: dd t.seconds ++ tail))))) := by
    simp [hrest]
  rw [hrw, scanField_dd _ 45 1 12 _ hcw hmo.1 hmo.2 (by norm_num), scanField_dd _ 45 1 31 _ hcw hda.1 hda.2 (by norm_num),
    scanField_dd _ 84 0 23 _ hcw (by omega) (by omega) (by norm_num), scanField_dd _ 58 0 59 _ hcw (by omega) (by omega) (by norm_num),
    scanField_dd _ 58 0 59 _ hcw (by omega) (by omega) (by norm_num)]
  by_cases h0 : t.sub = 0
  · have : tail = zoneText t.timezone ++ follow := by rw [htail]; simp [fracText, h0]
    rw [this, scanTail_text cfg.cw hcw _ rfl t.timezone hzm hzd]
    cases t
    simp_all
  · obtain ⟨s', n, _, hn0, hn19, hs', hsub, hft⟩ := fracText_eq t.sub h0 hsu
    have : tail = 46 :: ((padded 10 n s').map (digitChar false) ++ (zoneText t.timezone ++ follow)) := by
      rw [htail, hft]; simp
    obtain ⟨c, r, hz, hzc⟩ := zoneText_cons t.timezone
    have hzr : CodeUnits cfg.cw (c :: (r ++ follow)) := by
      intro x hx
      apply htl
      rw [htail, hz]
      simp only [List.cons_append, List.mem_append]
      right; exact hx
    have hsf := scanFrac_text cfg hv n s' hn0 hn19 hs' c (r ++ follow) hzr (by omega)
    have hzz : zoneText t.timezone ++ follow = c :: (r ++ follow) := by rw [hz]; simp
    rw [this]
    rw [scanTail_dot, hzz]
    simp only
    rw [hsf]
    simp only [Option.bind_some, ne_eq, not_true_eq_false, if_false]
    rw [if_neg (by simp), ← hzz, scanTail_text cfg.cw hcw _ rfl t.timezone hzm hzd, ← hsub]

end Verif.Time
