import Verif.IntScan.Lemmas2
/-! The SSE4.1 path. -/
namespace Verif.IntScan
open Verif Verif.IntPrint

theorem laneDigit_iff {c : Nat} (hc : c < 256) : laneDigit c = true ↔ ∃ d, IsDigit 10 c d := by
  have h1 : laneDigit c = true ↔ 48 ≤ c ∧ c ≤ 57 := by
    unfold laneDigit toSigned
    simp only [decide_eq_true_eq]
    norm_num
    split <;> omega
  rw [h1]
  constructor
  · intro h; exact ⟨c - 48, by omega, Or.inl (by simp [digitChar, show c - 48 < 10 by omega]; omega)⟩
  · rintro ⟨d, hd, h | h⟩ <;> simp [digitChar, hd] at h <;> omega

theorem dec_char {c d : Nat} (h : IsDigit 10 c d) : c = 48 + d ∧ d < 10 := by
  obtain ⟨h1, h2⟩ := h
  simp [digitChar, h1] at h2
  exact ⟨h2, h1⟩

/-- Number of leading digit lanes of a vector. -/
theorem countLanes_eq {cs ds rest : List Nat} (h : DigitRun 10 cs ds) (hn : NoDigitFirst 10 rest)
    (hl : CodeUnits 8 rest) (n : Nat) : countLanes ((cs ++ rest).take n) = min n ds.length := by
  unfold countLanes
  induction h generalizing n with
  | nil =>
    cases rest with
    | nil => simp
    | cons c t =>
      cases n with
      | zero => simp
      | succ n =>
        have : laneDigit c = false := by
          by_contra hh
          simp only [Bool.not_eq_false] at hh
          rw [laneDigit_iff (hl c (by simp))] at hh
          obtain ⟨d, hd⟩ := hh
          exact hn c t d rfl hd
        simp [this]
  | @cons c d cs ds hd hr ih =>
    cases n with
    | zero => simp
    | succ n =>
      have : laneDigit c = true := (laneDigit_iff (by have := dec_char hd; omega)).mpr ⟨d, hd⟩
      simp [this, ih n]

/-- The multiply-add pipeline computes the value of 16 digits. -/
theorem pipeline_eq (a : List Nat) (hl : a.length = 16) (hd : ∀ x ∈ a, x < 10) :
    (((pmaddwd 10000 ((packusdw (pmaddwd 100 (pmaddubsw10 a))).take 4))[0]?).getD 0 * 100000000 +
      ((pmaddwd 10000 ((packusdw (pmaddwd 100 (pmaddubsw10 a))).take 4))[1]?).getD 0) % 2 ^ 64 = digitsValue 10 a := by
  match a, hl with
  | [a0,a1,a2,a3,a4,a5,a6,a7,a8,a9,a10,a11,a12,a13,a14,a15], _ =>
    simp only [List.mem_cons, List.not_mem_nil, or_false, forall_eq_or_imp, forall_eq] at hd
    obtain ⟨h0,h1,h2,h3,h4,h5,h6,h7,h8,h9,h10,h11,h12,h13,h14,h15⟩ := hd
    have s1 : ∀ x y : Nat, x < 10 → y < 10 → satS16 (x * 10 + y * 1) = x * 10 + y := by
      intro x y hx hy
      unfold satS16
      rw [min_eq_right (by omega), max_eq_right (by omega)]; omega
    have s2 : ∀ k x y : Nat, x < 10000 → y < 10000 → k ≤ 10000 →
        ((toSigned 16 x * k + toSigned 16 y * 1) % 2 ^ 32).toNat = x * k + y := by
      intro k x y hx hy hk
      unfold toSigned
      rw [if_pos (by omega), if_pos (by omega)]
      have : x * k ≤ 10000 * 10000 := Nat.mul_le_mul (by omega) hk
      have h2 : ((x:Int) * (k:Int) + (y:Int) * 1) = ((x * k + y : Nat) : Int) := by push_cast; ring
      rw [h2]; omega
    have s3 : ∀ x : Nat, x < 10000 → (max 0 (min 65535 (toSigned 32 x))).toNat = x := by
      intro x hx
      unfold toSigned
      rw [if_pos (by omega), min_eq_right (by omega), max_eq_right (by omega)]; omega
    have e1 : pmaddubsw10 [a0,a1,a2,a3,a4,a5,a6,a7,a8,a9,a10,a11,a12,a13,a14,a15] =
        [a0*10+a1, a2*10+a3, a4*10+a5, a6*10+a7, a8*10+a9, a10*10+a11, a12*10+a13, a14*10+a15] := by
      simp only [pmaddubsw10]
      rw [s1 _ _ h0 h1, s1 _ _ h2 h3, s1 _ _ h4 h5, s1 _ _ h6 h7, s1 _ _ h8 h9, s1 _ _ h10 h11, s1 _ _ h12 h13,
        s1 _ _ h14 h15]
    rw [e1]
    have e2 : pmaddwd 100 [a0*10+a1, a2*10+a3, a4*10+a5, a6*10+a7, a8*10+a9, a10*10+a11, a12*10+a13, a14*10+a15] =
        [(a0*10+a1)*100+(a2*10+a3), (a4*10+a5)*100+(a6*10+a7), (a8*10+a9)*100+(a10*10+a11),
          (a12*10+a13)*100+(a14*10+a15)] := by
      simp only [pmaddwd]
      rw [s2 _ _ _ (by omega) (by omega) (by omega), s2 _ _ _ (by omega) (by omega) (by omega),
        s2 _ _ _ (by omega) (by omega) (by omega), s2 _ _ _ (by omega) (by omega) (by omega)]
    rw [e2]
    simp only [packusdw, List.map_cons, List.map_nil, List.cons_append, List.nil_append, List.take_succ_cons,
      List.take_zero]
    rw [s3 _ (by omega), s3 _ (by omega), s3 _ (by omega), s3 _ (by omega)]
    simp only [pmaddwd]
    rw [s2 _ _ _ (by omega) (by omega) (by omega), s2 _ _ _ (by omega) (by omega) (by omega)]
    simp only [List.getElem?_cons_zero, List.getElem?_cons_succ, Option.getD_some]
    simp only [digitsValue, List.foldl_cons, List.foldl_nil]
    rw [Nat.mod_eq_of_lt (by omega)]
    ring

theorem digitsValue_replicate_zero (b k : Nat) (ds : List Nat) :
    digitsValue b (List.replicate k 0 ++ ds) = digitsValue b ds := by
  induction k with
  | zero => simp
  | succ k ih => rw [List.replicate_succ, List.cons_append]; rw [← ih]; simp [digitsValue]

theorem shuffle_eq (c : List Nat) (hc : c.length = 16) (k : Nat) (hk : k ≤ 16) :
    pshufb c ((List.range 16).map fun i => shiftTable (k + i)) = List.replicate (16 - k) 0 ++ c.take k := by
  apply List.ext_getElem
  · simp [pshufb]; omega
  · intro i h1 h2
    simp only [pshufb, List.length_map, List.length_range] at h1
    simp only [pshufb, List.getElem_map, List.getElem_range, shiftTable]
    by_cases hi : i < 16 - k
    · rw [List.getElem_append_left (by simpa using hi)]
      simp [show k + i < 16 by omega]
    · rw [List.getElem_append_right (by simpa using hi)]
      have : (k + i - 16) % 16 = k + i - 16 := Nat.mod_eq_of_lt (by omega)
      simp only [show ¬ (k + i < 16) by omega, if_false, show ¬ (128 ≤ k + i - 16) by omega, this,
        List.getElem_take, List.length_replicate]
      have h3 : i - (16 - k) = k + i - 16 := by omega
      simp only [h3]
      rw [List.getElem?_eq_getElem (by omega)]; rfl

theorem sub48_run {cs ds : List Nat} (h : DigitRun 10 cs ds) : cs.map (fun c => (c + 256 - 48) % 256) = ds := by
  induction h with
  | nil => rfl
  | cons hd _ ih =>
    have := dec_char hd
    simp only [List.map_cons, ih, List.cons.injEq, and_true]; omega

theorem sseValue_eq {cs ds rest : List Nat} (h : DigitRun 10 cs ds) (k : Nat) (hk : k ≤ 16) (hk2 : k ≤ ds.length)
    (hl : 16 ≤ (cs ++ rest).length) :
    sseValue ((cs ++ rest).take 16) k = digitsValue 10 (ds.take k) := by
  unfold sseValue
  simp only
  have hlen := digitRun_length h
  rw [shuffle_eq _ (by simp only [List.length_map, List.length_take]; omega) k hk]
  have htake : (((cs ++ rest).take 16).map (fun c => (c + 256 - 48) % 256)).take k = ds.take k := by
    rw [← List.map_take, List.take_take, min_eq_left hk, List.take_append_of_le_length (by omega), List.map_take,
      sub48_run h]
  rw [htake]
  have := pipeline_eq (List.replicate (16 - k) 0 ++ ds.take k) (by simp; omega) (by
    intro x hx
    rcases List.mem_append.mp hx with hx | hx
    · rw [List.eq_of_mem_replicate hx]; omega
    · exact digitRun_lt h x (List.mem_of_mem_take hx))
  rw [digitsValue_replicate_zero] at this
  exact this

theorem readBytes_eq {l : List Nat} {off n : Nat} (h : off + n ≤ l.length) :
    readBytes l off n = some ((l.drop off).take n) := by simp [readBytes, h]

theorem run_drop {cs ds : List Nat} (h : DigitRun 10 cs ds) (k : Nat) : DigitRun 10 (cs.drop k) (ds.drop k) :=
  List.forall₂_drop k h

theorem detect_eq {cs ds rest : List Nat} (h : DigitRun 10 cs ds) (hn : NoDigitFirst 10 rest)
    (hl : CodeUnits 8 rest) (off : Nat) (hoff : off ≤ cs.length) (hlen : off + 16 ≤ (cs ++ rest).length) :
    detectLength (cs ++ rest) off = some (min 16 (ds.length - off)) := by
  unfold detectLength
  rw [readBytes_eq hlen, List.drop_append_of_le_length hoff]
  simp only [Option.map_some, Option.some.injEq]
  rw [countLanes_eq (run_drop h off) hn hl 16]
  simp

theorem run_get {cs ds : List Nat} (rest : List Nat) (h : DigitRun 10 cs ds) (i : Nat) (hi : i < ds.length) :
    ((cs ++ rest)[i]?).getD 0 - 48 = ds[i] := by
  have hlen := digitRun_length h
  rw [List.getElem?_append_left (by omega), List.getElem?_eq_getElem (by omega)]
  have := List.Forall₂.get h (show i < cs.length by omega) hi
  have := dec_char this
  simp only [List.get_eq_getElem] at this
  simp only [Option.getD_some]; omega

theorem digitsValue_take_succ (b : Nat) (ds : List Nat) (k : Nat) (h : k < ds.length) :
    digitsValue b (ds.take (k + 1)) = digitsValue b (ds.take k) * b + ds[k] := by
  rw [List.take_succ_eq_append_getElem h]
  exact digitsValue_append_singleton b _ _

/-- The 20-digit case. -/
theorem last4 (R p V : Nat) (e : R * 10000 + p = V) (hp : p < 10000) :
    ∃ r, (if (2 ^ 64 - 1) / 10000 < R then some (20, Code.overflow, 0)
      else if R = (2 ^ 64 - 1) / 10000 ∧ (2 ^ 64 - 1) % 10000 < p then some (20, Code.overflow, 0)
      else some (20, Code.ok, (R * 10000 + p) % 2 ^ 64)) =
      some (20, (if V < 2 ^ 64 then Code.ok else Code.overflow), r) ∧ (V < 2 ^ 64 → r = V) := by
  have q1 : (2 ^ 64 - 1) / 10000 = 1844674407370955 := by norm_num
  have q2 : (2 ^ 64 - 1) % 10000 = 1615 := by norm_num
  rw [q1, q2, ← e]
  by_cases c1 : 1844674407370955 < R
  · rw [if_pos c1, if_neg (by omega)]
    exact ⟨_, rfl, fun hh => by omega⟩
  · rw [if_neg c1]
    by_cases c2 : R = 1844674407370955 ∧ 1615 < p
    · rw [if_pos c2, if_neg (by omega)]
      exact ⟨_, rfl, fun hh => by omega⟩
    · rw [if_neg c2, if_pos (by omega)]
      exact ⟨_, rfl, fun hh => Nat.mod_eq_of_lt hh⟩

/-- `sse_parse` on a run that does not reach the long-overflow code. -/
theorem sseParse_eq {cs ds rest : List Nat} (small : Bool) (h : DigitRun 10 cs ds) (hn : NoDigitFirst 10 rest)
    (hl : CodeUnits 8 rest) (hlen : 32 ≤ (cs ++ rest).length) (h0 : ds ≠ []) (hz : ds.head? ≠ some 0)
    (hs : small = true → ds.length < 16) (hb : ds.length < 32) :
    ∃ r, sseParse small (cs ++ rest) =
      some (ds.length, (if digitsValue 10 ds < 2 ^ 64 then Code.ok else Code.overflow), r) ∧
      (digitsValue 10 ds < 2 ^ 64 → r = digitsValue 10 ds) := by
  have hlen2 := digitRun_length h
  have hdpos : 0 < ds.length := List.length_pos_iff.mpr h0
  have hup : digitsValue 10 ds < 10 ^ ds.length := by
    simpa [digitsValue_eq_horner] using horner_lt ds (digitRun_lt h) 0
  have hlow : 10 ^ (ds.length - 1) ≤ digitsValue 10 ds := by
    cases ds with
    | nil => simp at h0
    | cons d ds =>
      have hd : 0 < d := by rcases Nat.eq_zero_or_pos d with h | h
                            · simp [h] at hz
                            · exact h
      have h1 : digitsValue 10 (d :: ds) = horner 10 d ds := by simp [digitsValue_eq_horner, horner]
      rw [h1]
      refine le_trans ?_ (horner_ge ds d)
      exact Nat.le_mul_of_pos_left _ hd
  unfold sseParse
  rw [readBytes_eq (by omega)]
  simp only [List.drop_zero, Option.bind_some]
  rw [countLanes_eq h hn hl 16]
  rw [if_neg (by omega)]
  by_cases h16 : ds.length < 16
  · rw [if_neg (by omega), min_eq_right (by omega), sseValue_eq h _ (by omega) le_rfl (by omega)]
    have : digitsValue 10 ds < 2 ^ 64 :=
      lt_of_lt_of_le hup (le_trans (Nat.pow_le_pow_right (by omega) (by omega : ds.length ≤ 15)) (by norm_num))
    simp only [this, if_true, forall_const, List.take_length]
    exact ⟨_, rfl, rfl⟩
  · have hsm : small = false := by
      by_contra hh; simp only [Bool.not_eq_false] at hh; have := hs hh; omega
    subst hsm
    rw [if_pos (by omega), min_eq_left (by omega), sseValue_eq h 16 le_rfl (by omega) (by omega)]
    simp only [Bool.false_eq_true, if_false]
    rw [detect_eq h hn hl 16 (by omega) hlen]
    simp only [Option.bind_some]
    rw [min_eq_right (by omega)]
    have hR : digitsValue 10 (ds.take 16) < 10 ^ 16 := by
      have := horner_lt (b := 10) (ds.take 16) (fun d hd => digitRun_lt h d (List.mem_of_mem_take hd)) 0
      rw [List.length_take, min_eq_left (by omega)] at this
      simpa [digitsValue_eq_horner] using this
    have htk : ∀ k, ds.length = k → digitsValue 10 (ds.take k) = digitsValue 10 ds := by
      intro k hk; rw [← hk, List.take_length]
    have hdl : ∀ i (hi : i < ds.length), ds[i] < 10 := fun i hi => digitRun_lt h _ (List.getElem_mem hi)
    by_cases h19 : ds.length ≤ 19
    · have hfit : digitsValue 10 ds < 2 ^ 64 :=
        lt_of_lt_of_le hup (le_trans (Nat.pow_le_pow_right (by omega) h19) (by norm_num))
      simp only [hfit, if_true, forall_const]
      have hcase : ds.length = 16 ∨ ds.length = 17 ∨ ds.length = 18 ∨ ds.length = 19 := by omega
      rcases hcase with hk | hk | hk | hk
      · refine ⟨digitsValue 10 ds, ?_, rfl⟩
        simp [hk, htk 16 hk]
      · refine ⟨digitsValue 10 ds, ?_, rfl⟩
        have e := htk 17 hk
        rw [digitsValue_take_succ _ _ _ (by omega)] at e
        rw [run_get rest h 16 (by omega)]
        simp only [hk, Nat.reduceSub, Nat.reduceEqDiff, if_false, if_true]
        rw [e, Nat.mod_eq_of_lt hfit]
      · refine ⟨digitsValue 10 ds, ?_, rfl⟩
        have e := htk 18 hk
        rw [digitsValue_take_succ _ _ _ (by omega), digitsValue_take_succ _ _ _ (by omega)] at e
        rw [run_get rest h 16 (by omega), run_get rest h 17 (by omega)]
        simp only [hk, Nat.reduceSub, Nat.reduceEqDiff, if_false, if_true]
        have e2 : digitsValue 10 (ds.take 16) * 100 + (ds[16] * 10 + ds[17]) = digitsValue 10 ds := by rw [← e]; ring
        rw [e2, Nat.mod_eq_of_lt hfit]
      · refine ⟨digitsValue 10 ds, ?_, rfl⟩
        have e := htk 19 hk
        rw [digitsValue_take_succ _ _ _ (by omega), digitsValue_take_succ _ _ _ (by omega),
          digitsValue_take_succ _ _ _ (by omega)] at e
        rw [run_get rest h 16 (by omega), run_get rest h 17 (by omega), run_get rest h 18 (by omega)]
        simp only [hk, Nat.reduceSub, if_true]
        have e2 : digitsValue 10 (ds.take 16) * 1000 + (ds[16] * 100 + ds[17] * 10 + ds[18]) = digitsValue 10 ds := by
          rw [← e]; ring
        rw [e2, Nat.mod_eq_of_lt hfit]
    · by_cases h20 : ds.length = 20
      · have e := htk 20 h20
        rw [digitsValue_take_succ _ _ _ (by omega), digitsValue_take_succ _ _ _ (by omega),
          digitsValue_take_succ _ _ _ (by omega), digitsValue_take_succ _ _ _ (by omega)] at e
        rw [run_get rest h 16 (by omega), run_get rest h 17 (by omega), run_get rest h 18 (by omega),
          run_get rest h 19 (by omega)]
        have d16 := hdl 16 (by omega); have d17 := hdl 17 (by omega); have d18 := hdl 18 (by omega)
        have d19 := hdl 19 (by omega)
        have e2 : digitsValue 10 (ds.take 16) * 10000 + (ds[16] * 1000 + ds[17] * 100 + ds[18] * 10 + ds[19]) =
            digitsValue 10 ds := by rw [← e]; ring
        simp only [h20, Nat.reduceSub, Nat.reduceEqDiff, if_false, if_true]
        exact last4 _ _ _ e2 (by omega)
      · have hov : ¬ digitsValue 10 ds < 2 ^ 64 := by
          have : 10 ^ 20 ≤ 10 ^ (ds.length - 1) := Nat.pow_le_pow_right (by omega) (by omega)
          norm_num at *; omega
        rw [if_neg (by omega), if_neg (by omega), if_neg (by omega), if_neg (by omega), if_neg (by omega),
          if_neg (by omega)]
        refine ⟨0, ?_, fun hh => absurd hh hov⟩
        rw [if_neg hov, Nat.sub_add_cancel (by omega)]

/-- The SSE branch equals the specification outcome on those runs. -/
theorem sseBranch_eq {cfg : Cfg} (hv : Valid cfg) (h10 : cfg.base = 10) (h64 : cfg.bits ≤ 64) {cs ds rest : List Nat}
    {neg : Bool} (h : DigitRun 10 cs ds) (hn : NoDigitFirst 10 rest) (hl : CodeUnits 8 rest)
    (hlen : 32 ≤ (cs ++ rest).length) (h0 : ds ≠ []) (hz : ds.head? ≠ some 0)
    (hneg : cfg.signed = false → neg = false)
    (hs : cfg.bits < 64 → ds.length < 16) (hb : ds.length < 32) :
    sseBranch cfg neg (cs ++ rest) = some (expect cfg neg ds rest) := by
  obtain ⟨r, h1, h2⟩ := sseParse_eq (decide (cfg.bits < 64)) h hn hl hlen h0 hz (by simpa using hs) hb
  have hll := digitRun_length h
  unfold sseBranch
  rw [h1]
  simp only [Option.bind_some]
  rw [if_neg (by rw [List.length_append]; omega), ← hll, List.drop_left]
  by_cases hf : digitsValue 10 ds < 2 ^ 64
  · rw [h2 hf]
    simp only [hf, if_true, ne_eq, not_true_eq_false, if_false]
    by_cases hov : 2 ^ cfg.bits ≤ digitsValue cfg.base ds
    · rw [expect_overflow hv rest hneg hov, h10] at *
      have hlt : cfg.bits < 64 := by
        by_contra hh
        have : cfg.bits = 64 := by omega
        rw [this] at hov; omega
      rw [if_pos]
      refine ⟨hlt, ?_⟩
      have : 1 ≤ 2 ^ cfg.bits := Nat.one_le_two_pow
      omega
    · rw [if_neg (by rw [h10] at hov; omega)]
      have := finish_eq hv (neg := neg) (ds := ds) rest hneg (by omega)
      rw [h10] at this; rw [this]
  · simp only [hf, if_false, ne_eq, reduceCtorEq, not_false_eq_true, if_true]
    rw [expect_overflow hv rest hneg]
    rw [h10]
    exact le_trans (Nat.pow_le_pow_right (by omega) h64) (by omega)

end Verif.IntScan
