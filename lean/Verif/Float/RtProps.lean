import Verif.Float.RtBest
/-! # C46: decimal texts of `double` and `float` are read back as the same number -/
namespace Verif.Float
open Verif Verif.IntPrint

theorem pair64 : Pair tF64 db64 := Or.inl ⟨rfl, rfl⟩
theorem pair32 : Pair tF32 db32 := Or.inr ⟨rfl, rfl⟩

theorem fieldsOk64 (e f : Nat) : FieldsOk tF64 db64 e f := Or.inl (Or.inl rfl)

/-- `LastDigitOk` for `float`, as a test. -/
def lastDigitTest (e : Nat) : Bool :=
  let E := Spec.ulpExp 23 8 e
  let A := numA db32 E
  let B := denB db32 E
  let k := minusKOf db32 E
  let u := uOf db32 E
  decide (6 * B ≤ A) || (decide (11 * B ≤ 2 * A) &&
    (if 0 ≤ k then decide (2 ^ 25 < 5 ^ k.toNat) && decide (0 ≤ u) else decide (u < 0)))

theorem lastDigitTest_all : allFrom (fun e => lastDigitTest e || badField32.contains e || e == 150) 0 255 = true := by
  decide +kernel

theorem fieldsOk32 (e f : Nat) (he : e < 255) (hb : e ∉ badField32) : FieldsOk tF32 db32 e f := by
  have h := allFrom_spec _ _ _ lastDigitTest_all e (by omega) (by omega)
  simp only [Bool.or_eq_true, List.contains_iff_mem, beq_iff_eq] at h
  rcases h with (h | h) | h
  · left
    right
    unfold lastDigitTest at h
    simp only [Bool.or_eq_true, Bool.and_eq_true, decide_eq_true_eq] at h
    rcases h with h | ⟨h1, h2⟩
    · exact Or.inl h
    · right
      refine ⟨h1, ?_, ?_⟩
      · intro hk
        change 0 ≤ minusKOf db32 (Spec.ulpExp 23 8 e) at hk
        rw [if_pos hk, Bool.and_eq_true, decide_eq_true_eq, decide_eq_true_eq] at h2
        exact h2
      · intro hk
        change minusKOf db32 (Spec.ulpExp 23 8 e) < 0 at hk
        rw [if_neg (by omega), decide_eq_true_eq] at h2
        exact h2
  · exact absurd h hb
  · subst h
    right
    have hE : Spec.ulpExp tF32.mbits tF32.ebits 150 = 0 := by decide
    rw [hE]
    exact ⟨by norm_num, by norm_num, by decide, by simp⟩

/-- The same value in the form without trailing zeros. -/
theorem stripped {t : Trait} {d : DB} (hp : Pair t d) (st : Bool) (e f k : Nat) (n : Int) (hf : f < 2 ^ t.mbits)
    (he : e < 2 ^ t.ebits - 1) (hnz : ¬ (f = 0 ∧ e = 0)) (hpar : FieldsOk t d e f)
    (hi : dragonImpl d st f e = some (k, n)) :
    ∃ k' n', dragonImpl d true f e = some (k', n') ∧ k' % 10 ≠ 0 ∧ (k : ℚ) * (10 : ℚ) ^ n = k' * (10 : ℚ) ^ n' ∧
      Good (Spec.significand t.mbits e f) (Spec.ulpExp t.mbits t.ebits e) k' n' (d = db64) := by
  obtain ⟨hb1, hb2⟩ := hp.bits
  unfold FieldsOk at hpar
  rw [hb1, hb2] at hpar
  rw [hb1] at hf
  rw [hb2] at he
  obtain ⟨Q, x, h1, h2, -, -, -⟩ := dragonMain_good d hp.isDB f e hf he hnz
  have h2 := h2 hpar
  obtain ⟨k1, n1, g1, g2, -⟩ := dragonImpl_spec d hp.isDB st f e Q x h2.pos h1
  rw [hi] at g1
  obtain ⟨rfl, rfl⟩ : k = k1 ∧ n = n1 := by simpa using g1
  obtain ⟨k2, n2, g3, g4, g5⟩ := dragonImpl_spec d hp.isDB true f e Q x h2.pos h1
  rw [hb1, hb2]
  exact ⟨k2, n2, g3, g5 (Or.inl rfl), by rw [← g2.val, g4.val], good_strip h2 g4⟩

theorem room64 (fmt : Format) (st : Bool) (e f k : Nat) (n : Int) (hf : f < 2 ^ 52) (he : e < 2047)
    (hnz : ¬ (f = 0 ∧ e = 0)) (hi : dragonImpl db64 st f e = some (k, n)) : RoomOk tF64 fmt n (decText k).length := by
  obtain ⟨k', n', h1, -, -, h2, -, -⟩ := dragonImpl_good pair64 st f e hf (by simpa [tF64] using he) hnz (fieldsOk64 e f)
  rw [hi] at h1
  obtain ⟨rfl, rfl⟩ : k = k' ∧ n = n' := by simpa using h1
  have := (decText_len_le k 17 (by norm_num)).mpr h2
  intro _ h3 _
  change n + (decText k).length ≤ 17 + 3 + 3
  omega

theorem room32 (fmt : Format) (st : Bool) (e f k : Nat) (n : Int) (hf : f < 2 ^ 23) (he : e < 255)
    (hnz : ¬ (f = 0 ∧ e = 0)) (hi : dragonImpl db32 st f e = some (k, n)) :
    ((fmt = .general → e ≠ 173 ∧ e ≠ 174) → RoomOk tF32 fmt n (decText k).length) ∧
      (fmt = .general → n < 7 → n + (decText k).length ≤ 15) := by
  obtain ⟨k', n', h1, hg, -, h2', -, -, -⟩ := dragonImpl_weak pair32 st f e hf (by simpa [tF32] using he) hnz
  have h2 := digits_bound pair32 h2'
  rw [hi] at h1
  obtain ⟨rfl, rfl⟩ : k = k' ∧ n = n' := by simpa using h1
  have h9 := (decText_len_le k 9 (by norm_num)).mpr h2
  refine ⟨?_, fun _ _ => by omega⟩
  intro he' hfm h3 _
  obtain ⟨e1, e2⟩ := he' hfm
  change n + (decText k).length ≤ 9 + 2 + 3
  by_contra hc
  have hn6 : n = 6 := by omega
  have hl9 : (decText k).length = 9 := by omega
  subst hn6
  have hk8 := decText_lower k hg.pos
  rw [hl9] at hk8
  have hlow := hg.lower
  have hup := hg.upper
  have hm := significand_lt 23 e f hf
  change (2 * (Spec.significand 23 e f : ℚ) - 6 / 5) * (2 : ℚ) ^ (Spec.ulpExp 23 8 e - 1) ≤ _ at hlow
  change _ ≤ (2 * (Spec.significand 23 e f : ℚ) + 6 / 5) * (2 : ℚ) ^ (Spec.ulpExp 23 8 e - 1) at hup
  have hkl : (100000000 : ℚ) ≤ k := by exact_mod_cast hk8
  have hks : (k : ℚ) ≤ 2 ^ 24 * 10 := by
    have h6 : k ≤ 2 ^ 24 * 10 := le_of_lt h2'
    exact_mod_cast h6
  have hm2 : (2 * (Spec.significand 23 e f : ℚ) + 6 / 5) ≤ 2 ^ 25 := by
    have : 2 * Spec.significand 23 e f + 2 ≤ 2 ^ 25 := by omega
    have h : (2 * (Spec.significand 23 e f : ℚ) + 2) ≤ 2 ^ 25 := by exact_mod_cast this
    linarith
  have hE : Spec.ulpExp 23 8 e = (if e = 0 then 1 else (e : Int)) - 127 - 23 := by
    unfold Spec.ulpExp Spec.bias; norm_num
  have hEp : (0 : ℚ) < (2 : ℚ) ^ (Spec.ulpExp 23 8 e - 1) := zpow_pos (by norm_num) _
  -- exponent at least 173
  have hge : 173 ≤ e := by
    by_contra hlt
    have h7 : (2 : ℚ) ^ (Spec.ulpExp 23 8 e - 1) ≤ (2 : ℚ) ^ (21 : Int) :=
      zpow_le_zpow_right₀ (by norm_num) (by rw [hE]; split <;> omega)
    have h8 : (2 * (Spec.significand 23 e f : ℚ) + 6 / 5) * (2 : ℚ) ^ (Spec.ulpExp 23 8 e - 1) ≤ 2 ^ 25 * (2 : ℚ) ^ (21 : Int) :=
      mul_le_mul hm2 h7 hEp.le (by norm_num)
    norm_num at h8 hup
    linarith
  -- and at most 174
  have hle : 175 ≤ e := by omega
  have h7 : (2 : ℚ) ^ (24 : Int) ≤ (2 : ℚ) ^ (Spec.ulpExp 23 8 e - 1) :=
    zpow_le_zpow_right₀ (by norm_num) (by rw [hE, if_neg (by omega)]; omega)
  have hm3 : (2 ^ 24 - 6 / 5 : ℚ) ≤ 2 * (Spec.significand 23 e f : ℚ) - 6 / 5 := by
    have : 2 ^ 23 ≤ Spec.significand 23 e f := by unfold Spec.significand; rw [if_neg (by omega)]; omega
    have : (2 ^ 23 : ℚ) ≤ Spec.significand 23 e f := by exact_mod_cast this
    linarith
  have h8 : (2 ^ 24 - 6 / 5 : ℚ) * (2 : ℚ) ^ (24 : Int) ≤
      (2 * (Spec.significand 23 e f : ℚ) - 6 / 5) * (2 : ℚ) ^ (Spec.ulpExp 23 8 e - 1) :=
    mul_le_mul hm3 h7 (zpow_pos (by norm_num) _).le (le_trans (by norm_num) hm3)
  norm_num at h8 hlow
  linarith

/-! ## `double` -/

/-- **C46, `double` (partial).** For every `double` except the powers of two in `badPow64`, every format and all
flags: the printer is free of undefined behaviour and writes, within the announced space, the sign and a decimal text of
the requested style which a correctly rounding reader converts to the same number; infinities, not-a-numbers and
zero have their texts.  Missing: the powers of two with exponent field in `badPow64`, where it is false
(`c46_double_pow2_violated`), and the exponent letter of a zero (`c46_zero_letter_violated`). -/
theorem c46_double_partial (sizet64 : Bool) (fmt : Format) (fl : Flags) (m : Mem) (iter bits : Nat)
    (hpow : ¬ (Spec.fracField 52 bits = 0 ∧ Spec.expField 52 11 bits ∈ badPow64))
    (hletter : fl.upperE = fl.upper ∨ fmt ≠ .scientific ∨ Spec.absValue 52 11 bits ≠ 0) :
    ∃ txt, printFlt tF64 db64 sizet64 fmt fl m iter bits = some (store m iter txt, iter + txt.length) ∧
      Spec.IsDecFloat 52 11 (styleOf fmt) fl.showpos fl.upper fl.upperE fl.comma sizet64 (Spec.RoundsTo 52 11) bits txt ∧
      txt.length ≤ fltSize tF64 fmt := by
  obtain ⟨txt, h1, h2, h3⟩ := printFlt_eq pair64 sizet64 fmt fl m iter bits (fun _ => fieldsOk64 _ _) hletter
    (Spec.RoundsTo 52 11) (by
      intro e f k n he hf he2 hf2 hnz hi hg _
      change e < 2047 at he2
      by_cases hs : Symmetric e f
      · exact rounds_of_inside 52 11 e f hf2 hs _ hg.inside
      · unfold Symmetric at hs
        push Not at hs
        obtain ⟨rfl, hs2⟩ := hs
        refine (pow2_rounds pair64 sizet64 e k n hs2 he2 (fieldsOk64 _ _) hi).mpr ?_
        have := allFrom_spec _ _ _ pow2Test64 e hs2 (by omega)
        rw [beq_iff_eq] at this
        rw [this]
        have hno : e ∉ badPow64 := fun h => hpow ⟨hf.symm, he ▸ h⟩
        simpa using hno)
  refine ⟨txt, h1, ?_, h3 fun k n a b c => Or.inl (room64 fmt sizet64 _ _ k n (Nat.mod_lt _ (Nat.pow_pos (by norm_num))) a b c)⟩
  simpa [db64, tF64] using h2

/-- The hypotheses are met by `-0.1` and by `1e23`. -/
example : ¬ (Spec.fracField 52 0xBFB999999999999A = 0 ∧ Spec.expField 52 11 0xBFB999999999999A ∈ badPow64) ∧
    ¬ (Spec.fracField 52 0x44B52D02C7E14AF6 = 0 ∧ Spec.expField 52 11 0x44B52D02C7E14AF6 ∈ badPow64) := by
  decide +kernel

example : (printFlt tF64 db64 true .general {} (fun _ => 0) 0 0xBFB999999999999A).map (fun r => load r.1 0 r.2) =
    some [45, 48, 46, 49] := by decide +kernel

example : (printFlt tF64 db64 true .decimal {} (fun _ => 0) 0 0x44B52D02C7E14AF6).map (fun r => load r.1 0 r.2) =
    some [49, 101, 43, 50, 51] := by decide +kernel

/-- **C46 is false for powers of two.** For each of the 255 exponent fields in `badPow64`, in every format, the text
printed for that power of two is *not* read back as the same number. -/
theorem c46_double_pow2_violated (sizet64 : Bool) (fmt : Format) (fl : Flags) (m : Mem) (iter bits : Nat)
    (hf : Spec.fracField 52 bits = 0) (he : Spec.expField 52 11 bits ∈ badPow64) :
    ∃ txt, printFlt tF64 db64 sizet64 fmt fl m iter bits = some (store m iter txt, iter + txt.length) ∧
      Spec.IsDecFloat 52 11 (styleOf fmt) fl.showpos fl.upper fl.upperE fl.comma sizet64
        (fun x e f => ¬ Spec.RoundsTo 52 11 x e f) bits txt := by
  have hrange : ∀ e ∈ badPow64, 2 ≤ e ∧ e < 2047 := by decide +kernel
  obtain ⟨r1, r2⟩ := hrange _ he
  obtain ⟨txt, h1, h2, -⟩ := printFlt_eq pair64 sizet64 fmt fl m iter bits (fun _ => fieldsOk64 _ _)
    (Or.inr (Or.inr (by
      unfold Spec.absValue Spec.magnitude Spec.significand
      change (((if Spec.expField 52 11 bits = 0 then _ else 2 ^ 52 + Spec.fracField 52 bits : Nat)) : ℚ) * _ ≠ 0
      rw [if_neg (by omega)]
      exact mul_ne_zero (by positivity) (zpow_ne_zero _ (by norm_num)))))
    (fun x e f => ¬ Spec.RoundsTo 52 11 x e f) (by
      intro e f k n he' hf' he2 hf2 hnz hi hg _
      change e = Spec.expField 52 11 bits at he'
      change f = Spec.fracField 52 bits at hf'
      rw [hf] at hf'
      subst hf'
      rw [← he'] at he r1 r2
      rw [show Spec.RoundsTo 52 11 = Spec.RoundsTo tF64.mbits tF64.ebits from rfl,
        pow2_rounds pair64 sizet64 e k n r1 r2 (fieldsOk64 _ _) hi]
      have := allFrom_spec _ _ _ pow2Test64 e r1 (by omega)
      rw [beq_iff_eq] at this
      rw [this]
      simpa using he)
  exact ⟨txt, h1, by simpa [db64, tF64] using h2⟩

/-- `2^-24` is printed as `5.960464477539062e-08`, which is read as the `double` below it. -/
example : (printFlt tF64 db64 true .scientific {} (fun _ => 0) 0 (999 * 2 ^ 52)).map (fun r => load r.1 0 r.2) =
    some [53, 46, 57, 54, 48, 52, 54, 52, 52, 55, 55, 53, 51, 57, 48, 54, 50, 101, 45, 48, 56] ∧
    999 ∈ badPow64 := by decide +kernel

/-- **C46, shortest and closest.** For every `double`: no decimal number with fewer digits than the printed one is read
back as the number, and none with equally many is closer to it. -/
theorem c46_double_shortest (sizet64 : Bool) (fmt : Format) (fl : Flags) (m : Mem) (iter bits : Nat)
    (hletter : fl.upperE = fl.upper ∨ fmt ≠ .scientific ∨ Spec.absValue 52 11 bits ≠ 0) :
    ∃ txt, printFlt tF64 db64 sizet64 fmt fl m iter bits = some (store m iter txt, iter + txt.length) ∧
      Spec.IsDecFloat 52 11 (styleOf fmt) fl.showpos fl.upper fl.upperE fl.comma sizet64 (Spec.ShortestClosest 52 11)
        bits txt ∧ txt.length ≤ fltSize tF64 fmt := by
  obtain ⟨txt, h1, h2, h3⟩ := printFlt_eq pair64 sizet64 fmt fl m iter bits (fun _ => fieldsOk64 _ _) hletter
    (Spec.ShortestClosest 52 11) (by
      intro e f k n he hf he2 hf2 hnz hi hg _
      obtain ⟨k', n', g1, g2, g3, g4⟩ := stripped pair64 sizet64 e f k n hf2 he2 hnz (fieldsOk64 _ _) hi
      rw [g3]
      exact ⟨k', n', rfl, fun t j ht hr => double_best e f k' n' hf2 hnz g1 g4 g2 t j ht hr⟩)
  refine ⟨txt, h1, ?_, h3 fun k n a b c => Or.inl (room64 fmt sizet64 _ _ k n (Nat.mod_lt _ (Nat.pow_pos (by norm_num))) a b c)⟩
  simpa [db64, tF64] using h2

/-- The claim is not void: `0.3` needs one digit, `0.1+0.2` seventeen. -/
example : (printFlt tF64 db64 true .fixed {} (fun _ => 0) 0 0x3FD3333333333333).map (fun r => load r.1 0 r.2) =
    some [48, 46, 51] ∧
    (printFlt tF64 db64 true .fixed {} (fun _ => 0) 0 0x3FD3333333333334).map (fun r => load r.1 0 r.2) =
    some [48, 46, 51, 48, 48, 48, 48, 48, 48, 48, 48, 48, 48, 48, 48, 48, 48, 48, 52] := by decide +kernel

/-- With a 32-bit `size_t` a trailing zero remains: `10.0` is printed as `1.0e+01`. -/
theorem c46_trailing_zero_violated :
    (printFlt tF64 db64 false .scientific {} (fun _ => 0) 0 (1026 * 2 ^ 52 + 2 ^ 50)).map (fun r => load r.1 0 r.2) =
      some [49, 46, 48, 101, 43, 48, 49] := by decide +kernel

/-- The exponent letter of zero ignores the flag for the exponent letter: `0e+0` although upper case was requested. -/
theorem c46_zero_letter_violated :
    (printFlt tF64 db64 true .scientific { upperE := true } (fun _ => 0) 0 0).map (fun r => load r.1 0 r.2) =
      some [48, 101, 43, 48] := by decide +kernel

/-- What the printer does with a finite number other than zero. -/
theorem printFlt_finite {t : Trait} {d : DB} (hp : Pair t d) (st : Bool) (fmt : Format) (fl : Flags) (m : Mem)
    (iter bits : Nat) (he : Spec.expField t.mbits t.ebits bits < 2 ^ t.ebits - 1)
    (hnz : ¬ (Spec.fracField t.mbits bits = 0 ∧ Spec.expField t.mbits t.ebits bits = 0)) :
    printFlt t d st fmt fl m iter bits =
      (dragonImpl d st (Spec.fracField t.mbits bits) (Spec.expField t.mbits t.ebits bits)).bind fun p =>
        decision t fmt fl.comma fl.upperE
          (store m iter (Spec.signText fl.showpos (Spec.signBit t.mbits t.ebits bits)))
          (iter + (Spec.signText fl.showpos (Spec.signBit t.mbits t.ebits bits)).length) p.1 p.2 := by
  unfold printFlt
  simp only [punned_eq, fpSign_eq]
  rw [if_neg (by omega), if_neg hnz]
  rfl

/-- **C46, formats.** The general and the decimal format print the text of the fixed or of the scientific format, and the
decimal format prints one that is not longer than the other. -/
theorem c46_format_choice (t : Trait) (d : DB) (hp : Pair t d) (sizet64 : Bool) (fl : Flags) (m : Mem)
    (iter bits : Nat) (he : Spec.expField t.mbits t.ebits bits < 2 ^ t.ebits - 1)
    (hnz : ¬ (Spec.fracField t.mbits bits = 0 ∧ Spec.expField t.mbits t.ebits bits = 0)) :
    ∃ fix sci gen dec,
      printFlt t d sizet64 .fixed fl m iter bits = some (store m iter fix, iter + fix.length) ∧
      printFlt t d sizet64 .scientific fl m iter bits = some (store m iter sci, iter + sci.length) ∧
      printFlt t d sizet64 .general fl m iter bits = some (store m iter gen, iter + gen.length) ∧
      printFlt t d sizet64 .decimal fl m iter bits = some (store m iter dec, iter + dec.length) ∧
      (gen = fix ∨ gen = sci) ∧ (dec = fix ∨ dec = sci) ∧ dec.length ≤ fix.length ∧ dec.length ≤ sci.length := by
  have hf : Spec.fracField t.mbits bits < 2 ^ t.mbits := Nat.mod_lt _ (Nat.pow_pos (by omega))
  obtain ⟨k, n, h1, h2, h3, h4', h5, h6, -⟩ := dragonImpl_weak hp sizet64 _ _ hf he hnz
  have h4 := digits_bound hp h4'
  have ht := hp.isT
  have hpos := decText_len_pos k
  have hr1 : -1000 < n := by split at h5 <;> omega
  have hmax : t.e10max < 1000 := by rcases ht with rfl | rfl <;> norm_num [tF64, tF32]
  have hr2 : n < 1000 := by omega
  have hexp : (n + (decText k).length - 1).natAbs < 10 ^ t.e10digits := by
    rcases ht with rfl | rfl
    · norm_num [tF64] at *; omega
    · norm_num [tF32] at *; omega
  simp only [printFlt_finite hp _ _ _ _ _ _ he hnz, h1, Option.bind_some]
  generalize Spec.signText fl.showpos (Spec.signBit t.mbits t.ebits bits) = sg
  have hfix := fixedDecision_eq t ht fl.comma (store m iter sg) (iter + sg.length) k n h4 hr1 hr2
  have hsci := sciDecision_eq t ht fl.comma fl.upperE (store m iter sg) (iter + sg.length) k n h4 hexp
  obtain ⟨dt, hd1, hd2⟩ := decDecision_eq t ht fl.comma fl.upperE (store m iter sg) (iter + sg.length) k n h4 hr1 hr2 hexp
  have fin : ∀ txt : List Nat, some (store (store m iter sg) (iter + sg.length) txt, iter + sg.length + txt.length) =
      some (store m iter (sg ++ txt), iter + (sg ++ txt).length) := by
    intro txt
    rw [store_store_at _ _ _ _ _ rfl, List.length_append, Nat.add_assoc]
  have hgen : ∃ g, decision t .general fl.comma fl.upperE (store m iter sg) (iter + sg.length) k n =
      some (store m iter (sg ++ g), iter + (sg ++ g).length) ∧
      (g = fixText fl.comma k n ∨ g = sciText fl.comma fl.upperE k (n + (decText k).length - 1)) := by
    unfold decision
    simp only []
    split
    · exact ⟨_, hfix.trans (fin _), Or.inl rfl⟩
    · exact ⟨_, hsci.trans (fin _), Or.inr rfl⟩
  obtain ⟨g, hg1, hg2⟩ := hgen
  refine ⟨sg ++ _, sg ++ _, sg ++ g, sg ++ dt, hfix.trans (fin _), hsci.trans (fin _), hg1, hd1.trans (fin _), ?_, ?_, ?_, ?_⟩
  · rcases hg2 with rfl | rfl
    · exact Or.inl rfl
    · exact Or.inr rfl
  · rcases hd2 with ⟨rfl, -⟩ | ⟨rfl, -⟩
    · exact Or.inr rfl
    · exact Or.inl rfl
  · rcases hd2 with ⟨rfl, h⟩ | ⟨rfl, -⟩
    · simpa using h
    · simp
  · rcases hd2 with ⟨rfl, -⟩ | ⟨rfl, -, h⟩
    · simp
    · simpa using h

/-- The hypotheses are met by `1e23`, whose decimal text is the scientific one. -/
example : Pair tF64 db64 ∧ Spec.expField 52 11 0x44B52D02C7E14AF6 < 2 ^ 11 - 1 ∧
    Spec.fracField 52 0x44B52D02C7E14AF6 ≠ 0 := ⟨Or.inl ⟨rfl, rfl⟩, by decide +kernel⟩

/-! ## `float` -/

/-- **C46, every number.** For every `double` and every `float`, every format and all flags: the printer is free of undefined
behaviour and writes the sign and a decimal text of the requested style whose value differs from the number by at most six tenths
of the unit in the last place of the number (for `double`, and for `float` outside `badField32`, by at most half of it).  The
announced space suffices, except possibly for signed `float` numbers with exponent field 173 or 174 in the general format. -/
theorem c46_near (t : Trait) (d : DB) (hp : Pair t d) (sizet64 : Bool) (fmt : Format) (fl : Flags) (m : Mem) (iter bits : Nat)
    (hletter : fl.upperE = fl.upper ∨ fmt ≠ .scientific ∨ Spec.absValue t.mbits t.ebits bits ≠ 0) :
    ∃ txt, printFlt t d sizet64 fmt fl m iter bits = some (store m iter txt, iter + txt.length) ∧
      Spec.IsDecFloat t.mbits t.ebits (styleOf fmt) fl.showpos fl.upper fl.upperE fl.comma (sizet64 || decide (t.mw = 32))
        (fun x e f => |x - Spec.magnitude t.mbits t.ebits e f| ≤
          (if t.mw = 32 ∧ e ∈ badField32 then 3 / 5 else 1 / 2) * (2 : ℚ) ^ Spec.ulpExp t.mbits t.ebits e) bits txt ∧
      (t = tF64 ∨ fmt ≠ .general ∨ (Spec.expField t.mbits t.ebits bits ≠ 173 ∧ Spec.expField t.mbits t.ebits bits ≠ 174) ∨
        (fl.showpos = false ∧ Spec.signBit t.mbits t.ebits bits = false) → txt.length ≤ fltSize t fmt) := by
  obtain ⟨txt, h1, h2, h3⟩ := printFlt_all hp sizet64 fmt fl m iter bits hletter
    (fun x e f => |x - Spec.magnitude t.mbits t.ebits e f| ≤
          (if t.mw = 32 ∧ e ∈ badField32 then 3 / 5 else 1 / 2) * (2 : ℚ) ^ Spec.ulpExp t.mbits t.ebits e) (by
      intro e f k n he hf he2 hf2 hnz hi hw hg _
      by_cases hb : t.mw = 32 ∧ e ∈ badField32
      · rw [if_pos hb]; exact hw.near
      · rw [if_neg hb]
        refine inside_near _ _ _ (hg ?_).inside
        rcases hp with ⟨rfl, rfl⟩ | ⟨rfl, rfl⟩
        · exact fieldsOk64 _ _
        · exact fieldsOk32 _ _ he2 fun h => hb ⟨rfl, h⟩)
  have htr : (sizet64 || decide (d.w < 64)) = (sizet64 || decide (t.mw = 32)) := by
    rcases hp with ⟨rfl, rfl⟩ | ⟨rfl, rfl⟩ <;> simp [db64, db32, tF64, tF32]
  rw [htr] at h2
  refine ⟨txt, h1, h2, fun hr => h3 fun k n a b c => ?_⟩
  rcases hp with ⟨rfl, rfl⟩ | ⟨rfl, rfl⟩
  · exact Or.inl (room64 fmt sizet64 _ _ k n (Nat.mod_lt _ (Nat.pow_pos (by norm_num))) a b c)
  · have hro := room32 fmt sizet64 _ _ k n (Nat.mod_lt _ (Nat.pow_pos (by norm_num))) a b c
    rcases hr with h | h | h | h
    · exact absurd (congrArg Trait.mw h) (by decide)
    · exact Or.inl (hro.1 fun h' => absurd h' h)
    · exact Or.inl (hro.1 fun _ => h)
    · by_cases hgen : fmt = .general ∧ n < 7
      · exact Or.inr ⟨h.1, h.2, hro.2 hgen.1 hgen.2⟩
      · refine Or.inl ?_
        intro hfm h7 _
        exact absurd ⟨hfm, h7⟩ hgen

/-- The claim covers `8589974528` (exponent field 160), printed as `8589974000`: off by 528, the unit is 1024. -/
example : 160 ∈ badField32 ∧ Spec.expField 23 8 (160 * 2 ^ 23 + 39) = 160 ∧ Spec.ulpExp 23 8 160 = 10 := by decide +kernel

/-- **C46, `float` (partial).** For every `float` except those with exponent field in `badField32` and the powers of
two in `badPow32`: as for `double`.  The announced space suffices, except possibly for signed numbers
with exponent field 173 or 174 in the general format.  Missing: the excluded numbers, where it is false in
general (`c46_float_lastdigit_violated`, `c46_float_pow2_violated`, `c46_float_space_violated`). -/
theorem c46_float_partial (sizet64 : Bool) (fmt : Format) (fl : Flags) (m : Mem) (iter bits : Nat)
    (hfield : Spec.expField 23 8 bits ∉ badField32)
    (hpow : ¬ (Spec.fracField 23 bits = 0 ∧ Spec.expField 23 8 bits ∈ badPow32))
    (hletter : fl.upperE = fl.upper ∨ fmt ≠ .scientific ∨ Spec.absValue 23 8 bits ≠ 0) :
    ∃ txt, printFlt tF32 db32 sizet64 fmt fl m iter bits = some (store m iter txt, iter + txt.length) ∧
      Spec.IsDecFloat 23 8 (styleOf fmt) fl.showpos fl.upper fl.upperE fl.comma true (Spec.RoundsTo 23 8) bits txt ∧
      (fmt ≠ .general ∨ (Spec.expField 23 8 bits ≠ 173 ∧ Spec.expField 23 8 bits ≠ 174) → txt.length ≤ fltSize tF32 fmt) := by
  obtain ⟨txt, h1, h2, h3⟩ := printFlt_eq pair32 sizet64 fmt fl m iter bits
    (fun h => fieldsOk32 _ _ h hfield) hletter
    (Spec.RoundsTo 23 8) (by
      intro e f k n he hf he2 hf2 hnz hi hg _
      change e < 255 at he2
      by_cases hs : Symmetric e f
      · exact rounds_of_inside 23 8 e f hf2 hs _ hg.inside
      · unfold Symmetric at hs
        push Not at hs
        obtain ⟨rfl, hs2⟩ := hs
        have hfd : e ∉ badField32 := by rw [he]; exact hfield
        refine (pow2_rounds pair32 sizet64 e k n hs2 he2 (fieldsOk32 _ _ he2 hfd) hi).mpr ?_
        have := allFrom_spec _ _ _ pow2Test32 e hs2 (by omega)
        have hno : e ∉ badPow32 := fun h => hpow ⟨hf.symm, he ▸ h⟩
        simpa [hfd, hno] using this)
  refine ⟨txt, h1, by simpa [db32, tF32] using h2, fun hr => h3 fun k n a b c => Or.inl ?_⟩
  refine (room32 fmt sizet64 _ _ k n (Nat.mod_lt _ (Nat.pow_pos (by norm_num))) a b c).1 ?_
  intro hfm
  rcases hr with h | h
  · exact absurd hfm h
  · exact h

/-- The hypotheses are met by `0.1f`. -/
example : Spec.expField 23 8 0x3DCCCCCD ∉ badField32 ∧
    ¬ (Spec.fracField 23 0x3DCCCCCD = 0 ∧ Spec.expField 23 8 0x3DCCCCCD ∈ badPow32) ∧
    (printFlt tF32 db32 true .general {} (fun _ => 0) 0 0x3DCCCCCD).map (fun r => load r.1 0 r.2) = some [48, 46, 49] := by
  decide +kernel

/-- **C46 is false for these powers of two in `float`.** -/
theorem c46_float_pow2_violated (sizet64 : Bool) (fmt : Format) (fl : Flags) (m : Mem) (iter bits : Nat)
    (hf : Spec.fracField 23 bits = 0) (he : Spec.expField 23 8 bits ∈ badPow32)
    (hfield : Spec.expField 23 8 bits ∉ badField32) :
    ∃ txt, printFlt tF32 db32 sizet64 fmt fl m iter bits = some (store m iter txt, iter + txt.length) ∧
      Spec.IsDecFloat 23 8 (styleOf fmt) fl.showpos fl.upper fl.upperE fl.comma true
        (fun x e f => ¬ Spec.RoundsTo 23 8 x e f) bits txt := by
  have hrange : ∀ e ∈ badPow32, 2 ≤ e ∧ e < 255 := by decide +kernel
  obtain ⟨r1, r2⟩ := hrange _ he
  obtain ⟨txt, h1, h2, -⟩ := printFlt_eq pair32 sizet64 fmt fl m iter bits (fun h => fieldsOk32 _ _ h hfield)
    (Or.inr (Or.inr (by
      unfold Spec.absValue Spec.magnitude Spec.significand
      change (((if Spec.expField 23 8 bits = 0 then _ else 2 ^ 23 + Spec.fracField 23 bits : Nat)) : ℚ) * _ ≠ 0
      rw [if_neg (by omega)]
      exact mul_ne_zero (by positivity) (zpow_ne_zero _ (by norm_num)))))
    (fun x e f => ¬ Spec.RoundsTo 23 8 x e f) (by
      intro e f k n he' hf' he2 hf2 hnz hi hg _
      change e = Spec.expField 23 8 bits at he'
      change f = Spec.fracField 23 bits at hf'
      rw [hf] at hf'
      subst hf'
      rw [← he'] at he r1 r2 hfield
      rw [show Spec.RoundsTo 23 8 = Spec.RoundsTo tF32.mbits tF32.ebits from rfl,
        pow2_rounds pair32 sizet64 e k n r1 r2 (fieldsOk32 _ _ r2 hfield) hi]
      have := allFrom_spec _ _ _ pow2Test32 e r1 (by omega)
      simpa [hfield, he] using this)
  exact ⟨txt, h1, by simpa [db32, tF32] using h2⟩

example : (1 : Nat) * 24 ∈ badPow32 ∧ 24 ∉ badField32 ∧ Spec.expField 23 8 (24 * 2 ^ 23) = 24 := by decide +kernel

/-- **C46 is false for ordinary `float` values.** `8589974528` (exponent field 160) is printed as `8589974000`, which
is closer to the `float` below. -/
theorem c46_float_lastdigit_violated :
    (printFlt tF32 db32 true .fixed {} (fun _ => 0) 0 (160 * 2 ^ 23 + 39)).map (fun r => load r.1 0 r.2) =
      some [56, 53, 56, 57, 57, 55, 52, 48, 48, 48] ∧
    Spec.magnitude 23 8 160 39 = 8589974528 ∧ ¬ Spec.RoundsTo 23 8 8589974000 160 39 := by
  have hm : Spec.magnitude 23 8 160 39 = 8589974528 := by
    norm_num [Spec.magnitude, Spec.significand, Spec.ulpExp, Spec.bias]
  refine ⟨by decide +kernel, hm, fun h => ?_⟩
  have := h 8589973504 ⟨2 ^ 23 + 38, 10, by norm_num, by norm_num [Spec.ulpExp, Spec.bias], by norm_num⟩
    (by rw [hm]; norm_num)
  rw [hm] at this
  norm_num [abs_of_nonneg, abs_of_nonpos] at this

/-- **C46, shortest, `float` (partial).** Outside the exponent fields in `badField32` no decimal number with fewer
digits than the printed one is read back as the number.  Missing: those fields; and that the digits are the closest
ones, which is false (`c46_float_closest_violated`). -/
theorem c46_float_shortest_partial (sizet64 : Bool) (fmt : Format) (fl : Flags) (m : Mem) (iter bits : Nat)
    (hfield : Spec.expField 23 8 bits ∉ badField32)
    (hletter : fl.upperE = fl.upper ∨ fmt ≠ .scientific ∨ Spec.absValue 23 8 bits ≠ 0) :
    ∃ txt, printFlt tF32 db32 sizet64 fmt fl m iter bits = some (store m iter txt, iter + txt.length) ∧
      Spec.IsDecFloat 23 8 (styleOf fmt) fl.showpos fl.upper fl.upperE fl.comma true (Spec.Shortest 23 8) bits txt := by
  obtain ⟨txt, h1, h2, h3⟩ := printFlt_eq pair32 sizet64 fmt fl m iter bits
    (fun h => fieldsOk32 _ _ h hfield) hletter
    (Spec.Shortest 23 8) (by
      intro e f k n he hf he2 hf2 hnz hi hg h10
      refine ⟨k, n, rfl, fun t j ht hr => good_fewest hg (h10 (by simp [db32])) t j ht ?_⟩
      exact inside_of_rounds 23 8 e f hf2 (significand_pos 23 e f hnz) _ hr)
  exact ⟨txt, h1, by simpa [db32, tF32] using h2⟩

example : Spec.expField 23 8 0x3E99999A ∉ badField32 ∧
    (printFlt tF32 db32 true .fixed {} (fun _ => 0) 0 0x3E99999A).map (fun r => load r.1 0 r.2) = some [48, 46, 51] := by
  decide +kernel

/-- The last digit of a `float` is not always the closest one: `16384.7734375` is printed as `16384.774`, although
`16384.773` has as many digits, is read back as the same number and is closer. -/
theorem c46_float_closest_violated :
    (printFlt tF32 db32 true .fixed {} (fun _ => 0) 0 (141 * 2 ^ 23 + 396)).map (fun r => load r.1 0 r.2) =
      some [49, 54, 51, 56, 52, 46, 55, 55, 52] ∧
    Spec.RoundsTo 23 8 (16384773 * (10 : ℚ) ^ (-3 : Int)) 141 396 ∧
    |16384773 * (10 : ℚ) ^ (-3 : Int) - Spec.magnitude 23 8 141 396| <
      |16384774 * (10 : ℚ) ^ (-3 : Int) - Spec.magnitude 23 8 141 396| := by
  have hm : Spec.magnitude 23 8 141 396 = 16384 + 7734375 / 10000000 := by
    norm_num [Spec.magnitude, Spec.significand, Spec.ulpExp, Spec.bias]
  refine ⟨by decide +kernel, rounds_of_inside 23 8 141 396 (by norm_num) (Or.inl (by norm_num)) _ ?_, ?_⟩
  · norm_num [InsideQ, Spec.significand, Spec.ulpExp, Spec.bias]
  · rw [hm, abs_of_nonpos (by norm_num), abs_of_nonneg (by norm_num)]
    norm_num

/-- The announced space is too small by one: the `float` with exponent field 173 and trailing significand 4780003,
negative, in the general format takes 16 characters; 15 are announced. -/
theorem c46_float_space_violated :
    (printFlt tF32 db32 true .general {} (fun _ => 0) 0 (2 ^ 31 + 173 * 2 ^ 23 + 4780003)).map
      (fun r => load r.1 0 r.2) = some [45, 49, 49, 48, 52, 54, 54, 51, 49, 54, 48, 48, 48, 48, 48, 48] ∧
    fltSize tF32 .general = 15 := by decide +kernel

end Verif.Float
