import Verif.Float.HexLemmas
import Mathlib.Tactic.LinearCombination
/-! # C47: hexadecimal floating point texts are exact -/
namespace Verif.Float
open Verif Verif.IntPrint

theorem hexValue_eq (mbits L d4 len F f lead : Nat) (e : Int) (mk : Nat) (hL : mbits + mk = 4 * L)
    (hd : d4 + len = L) (hF : F < 16 ^ len) (h : F * 16 ^ d4 = f * 2 ^ mk) :
    Spec.hexValue lead (padded 16 len F) e = ((lead * 2 ^ mbits + f : Nat) : ℚ) * (2 : ℚ) ^ (e - mbits) := by
  have hv : digitsValue 16 (lead :: padded 16 len F) = lead * 16 ^ len + F := by
    have : lead :: padded 16 len F = [lead] ++ padded 16 len F := rfl
    rw [this, digitsValue_append, padded_value 16 len F hF, padded_length]
    simp [digitsValue]
  unfold Spec.hexValue
  rw [hv, padded_length, zpow_sub₀ (by norm_num), zpow_natCast]
  have h16 : (16 : ℚ) ^ len * 16 ^ d4 = 2 ^ mbits * 2 ^ mk := by
    rw [← pow_add, ← pow_add, hL, show len + d4 = L by omega, pow_mul]; norm_num
  have h' : (F : ℚ) * 16 ^ d4 = f * 2 ^ mk := by exact_mod_cast h
  have p1 : (16 : ℚ) ^ len ≠ 0 := by positivity
  have p2 : (2 : ℚ) ^ mbits ≠ 0 := by positivity
  have p3 : (16 : ℚ) ^ d4 ≠ 0 := by positivity
  have p4 : (2 : ℚ) ^ mk ≠ 0 := by positivity
  have key : (F : ℚ) * 2 ^ mbits = f * 16 ^ len := by
    have : (F : ℚ) * 2 ^ mbits * (16 ^ d4 * 2 ^ mk) = f * 16 ^ len * (16 ^ d4 * 2 ^ mk) := by
      calc (F : ℚ) * 2 ^ mbits * (16 ^ d4 * 2 ^ mk) = (F * 16 ^ d4) * (2 ^ mbits * 2 ^ mk) := by ring
        _ = (f * 2 ^ mk) * (16 ^ len * 16 ^ d4) := by rw [h', h16]
        _ = _ := by ring
    exact mul_right_cancel₀ (mul_ne_zero p3 p4) this
  push_cast
  field_simp
  linear_combination key

theorem expBias (t : Trait) (h : 1 ≤ t.ebits) : 2 ^ t.ebits / 2 - 1 = Spec.bias t.ebits := by
  unfold Spec.bias
  have : 2 ^ t.ebits = 2 * 2 ^ (t.ebits - 1) := by rw [← pow_succ']; congr 1; omega
  omega

theorem magnitude_eq (mbits ebits e f : Nat) :
    Spec.magnitude mbits ebits e f =
      (((if e = 0 then 0 else 1) * 2 ^ mbits + f : Nat) : ℚ) *
        (2 : ℚ) ^ ((if e = 0 then 1 else (e : Int)) - Spec.bias ebits - mbits) := by
  unfold Spec.magnitude Spec.significand Spec.ulpExp
  by_cases h : e = 0 <;> simp [h]

theorem basePrefix16 (u : Bool) : basePrefix 16 u = [48, if u then 88 else 120] := by
  simp [basePrefix]

/-- The general statement: for every format with suitable parameters, every flag combination and every
representation whose exponent fits the announced number of exponent digits. -/
theorem printHex_eq (t : Trait) (hg : HexGood t) (f : Flags) (m : Mem) (iter bits : Nat)
    (hhi : Spec.expField t.mbits t.ebits bits ≠ 2 ^ t.ebits - 1 →
      ¬ (Spec.fracField t.mbits bits = 0 ∧ Spec.expField t.mbits t.ebits bits = 0) →
      ((if Spec.expField t.mbits t.ebits bits = 0 then 1 else (Spec.expField t.mbits t.ebits bits : Int)) -
        Spec.bias t.ebits).natAbs < 10 ^ t.e2hexdigits) :
    ∃ txt, printHex t f m iter bits = some (store m iter txt, iter + txt.length) ∧
      Spec.IsHexFloat t.mbits t.ebits f.showbase f.upperShow f.showpos f.upper (f.upper && decide (t.mw ≠ 128))
        (if Spec.absValue t.mbits t.ebits bits = 0 then f.upper else f.upperE) f.comma bits txt ∧
      txt.length ≤ 12 + (t.mbits + 3) / 4 := by
  have hb := expBias t hg.ebits
  have hf : Spec.fracField t.mbits bits < 2 ^ t.mbits := Nat.mod_lt _ (Nat.pow_pos (by omega))
  have hd4 := hg.div4
  have hfits := hg.fits
  unfold printHex
  simp only [punned_eq, hb, fpSign_eq, lit, hex0p0, basePrefix16]
  clear hb
  generalize hmk : ((t.mbits / 4 + 1) * 4 - t.mbits) % 4 = mk at *
  have hmk4 : mk < 4 := by omega
  unfold Spec.IsHexFloat Spec.absValue
  generalize hs : Spec.signText f.showpos (Spec.signBit t.mbits t.ebits bits) = st
  have hst : st.length ≤ 1 := by
    rw [← hs]; unfold Spec.signText
    split <;> [simp; split <;> simp]
  generalize Spec.expField t.mbits t.ebits bits = e at *
  generalize Spec.fracField t.mbits bits = fr at *
  by_cases hspec : e = 2 ^ t.ebits - 1
  · simp only [if_pos hspec]
    refine ⟨_, ?_, rfl, ?_⟩
    · rw [fpNan_eq, store_store_at _ _ _ _ _ rfl, List.length_append, Nat.add_assoc]
    · have : (Spec.specialText f.upper (decide (fr ≠ 0))).length = 3 := by
        unfold Spec.specialText; split <;> split <;> rfl
      rw [List.length_append, this]; omega
  · simp only [if_neg hspec]
    -- the optional prefix
    obtain ⟨pre, hpre, hprelen, hs2⟩ : ∃ pre : List Nat,
        (if f.showbase then [48, if f.upperShow then 88 else 120] else []) = pre ∧ pre.length ≤ 2 ∧
        (if f.showbase = true then
          (store (store m iter st) (iter + st.length) [48, if f.upperShow then 88 else 120],
           iter + st.length + [48, if f.upperShow then 88 else 120].length)
         else (store m iter st, iter + st.length)) =
        (store m iter (st ++ pre), iter + (st ++ pre).length) := by
      cases f.showbase
      · exact ⟨[], by simp, by simp, by simp⟩
      · refine ⟨[48, if f.upperShow then 88 else 120], by simp, by simp, ?_⟩
        simp [store_store_append, Nat.add_assoc]
    simp only [hs2, hpre]
    generalize hsp : st ++ pre = sp at *
    have hsplen : sp.length ≤ 3 := by rw [← hsp, List.length_append]; omega
    by_cases hz : fr = 0 ∧ e = 0
    · obtain ⟨rfl, rfl⟩ := hz
      simp only [and_self, if_true]
      have hmag : Spec.magnitude t.mbits t.ebits 0 0 = 0 := by simp [Spec.magnitude, Spec.significand]
      simp only [hmag, if_true]
      refine ⟨sp ++ (if f.upper then [48, 80, 43, 48] else [48, 112, 43, 48]), ?_, ⟨_, rfl, 0, [], 0, ?_, by omega,
        by simp, by simp, by simp [Spec.hexValue, digitsValue]⟩, ?_⟩
      · rw [store_store_at _ _ _ _ _ rfl]; simp [Nat.add_assoc]
      · have : decText 0 = [48] := by rw [decText_small 0 (by omega)]
        simp only [Spec.hexText, Int.natAbs_zero, this]
        cases f.upper <;> simp [digitChar]
      · rw [List.length_append]
        have : (if f.upper = true then [48, 80, 43, 48] else [48, 112, 43, 48] : List Nat).length = 4 := by
          split <;> rfl
        omega
    · have hebound := hhi hspec hz
      simp only [if_neg hz]
      have hnz : ¬ Spec.magnitude t.mbits t.ebits e fr = 0 := by
        unfold Spec.magnitude Spec.significand
        apply mul_ne_zero
        · by_cases he : e = 0
          · rw [if_pos he]; exact_mod_cast fun h => hz ⟨h, he⟩
          · rw [if_neg he]; exact Nat.cast_ne_zero.mpr (by positivity)
        · exact zpow_ne_zero _ (by norm_num)
      simp only [if_neg hnz]
      simp only [magnitude_eq]
      by_cases hfr : fr = 0
      · -- power of two
        subst hfr
        have he : e ≠ 0 := fun h => hz ⟨rfl, h⟩
        simp only [ne_eq, not_true_eq_false, if_false, Option.bind_some]
        rw [if_neg he, ← Int.add_neg_eq_sub] at hebound
        rw [hexExponent_eq _ hg.dig2 hg.dig5 _ _ _ hebound]
        refine ⟨sp ++ Spec.hexText (f.upper && decide (t.mw ≠ 128)) f.comma f.upperE 1 [] (e + -(Spec.bias t.ebits : Int)), ?_,
          ⟨_, rfl, 1, [], _, rfl, by omega, by simp, by simp, ?_⟩, ?_⟩
        · rw [store_store_at _ _ _ _ _ rfl, store_store_at _ _ _ _ _ (by simp [Nat.add_assoc]),
            store_store_at _ _ _ _ _ (by simp [Nat.add_assoc])]
          simp [Spec.hexText, digitChar, Nat.add_assoc]
          omega
        · simp only [Spec.hexValue, digitsValue, if_neg he]
          have : (e : Int) - Spec.bias t.ebits - t.mbits = (e + -(Spec.bias t.ebits : Int)) - t.mbits := by ring
          rw [this, zpow_sub₀ (by norm_num), zpow_natCast]
          simp
          field_simp
        · have hdl := (decText_len_le (e + -(Spec.bias t.ebits : Int)).natAbs t.e2hexdigits (by have := hg.dig2; omega)).mpr
            hebound
          have := hg.dig5
          simp [Spec.hexText]
          omega
      · simp only [ne_eq, hfr, not_false_eq_true, if_true]
        have hfrw : t.mw = 128 → fr < 2 ^ 128 := fun h => lt_of_lt_of_le hf (Nat.pow_le_pow_right (by omega) (by omega))
        rw [countrZero_eq _ _ hfr hfrw]
        obtain ⟨y, hy, hfy⟩ := ctz_spec fr hfr
        generalize ctz fr = c at *
        obtain ⟨L, hL⟩ : ∃ L, t.mbits + mk = 4 * L := ⟨(t.mbits + mk) / 4, by omega⟩
        have hM : fr * 2 ^ mk < 16 ^ L := by
          have : (16:Nat) ^ L = 2 ^ t.mbits * 2 ^ mk := by rw [← pow_add, hL, pow_mul]; norm_num
          rw [this]
          exact Nat.mul_lt_mul_of_pos_right hf (Nat.pow_pos (by omega))
        have hMe : fr * 2 ^ mk = 2 ^ (c + mk) * y := by
          conv => lhs; rw [hfy]
          rw [pow_add]; ring
        obtain ⟨k1, k2, k3, k4⟩ := digits_trim L _ _ hM y hy hMe
        have hsh : (fr <<< mk) % 2 ^ t.mw = fr * 2 ^ mk := by
          rw [Nat.shiftLeft_eq]
          apply Nat.mod_eq_of_lt
          calc fr * 2 ^ mk < 16 ^ L := hM
            _ = 2 ^ (4 * L) := by rw [pow_mul]; norm_num
            _ ≤ 2 ^ t.mw := Nat.pow_le_pow_right (by omega) (by omega)
        rw [hsh, show (t.mbits + mk) / 4 = L by omega]
        generalize (fr * 2 ^ mk) >>> ((c + mk) / 4 * 4) = F at *
        generalize hd : (c + mk) / 4 = d4 at *
        have hlen : 0 < L - d4 := by omega
        -- the leading digit and the point
        have hlead : (if e = 0 then hex0d f.comma (store m iter sp) (iter + sp.length)
            else hex1d f.comma (store m iter sp) (iter + sp.length)) =
            (store m iter (sp ++ [if e = 0 then 48 else 49, if f.comma then 44 else 46]), iter + sp.length + 2) := by
          by_cases he : e = 0 <;> cases f.comma <;>
            simp [he, hex0d, hex1d, lit, store_store_append]
        rw [hlead]
        have hgen : genMain t.mw 16 f.upper
            (store m iter (sp ++ [if e = 0 then 48 else 49, if f.comma then 44 else 46]))
            (iter + sp.length + 2 + (L - d4)) F (L - d4) =
            some (store m iter (sp ++ [if e = 0 then 48 else 49, if f.comma then 44 else 46] ++
              (padded 16 (L - d4) F).map (digitChar (f.upper && decide (t.mw ≠ 128))))) := by
          unfold genMain
          by_cases h128 : t.mw = 128
          · rw [if_pos h128, if_pos (by simp)]
            have := gen128Pow_eq 4 (by simp) (store m iter (sp ++ [if e = 0 then 48 else 49, if f.comma then 44 else 46]))
              (iter + sp.length + 2) F (L - d4) (by simpa using k2) (by
                have hF2 : F ≤ F * 16 ^ d4 := Nat.le_mul_of_pos_right _ (Nat.pow_pos (by omega))
                calc F ≤ F * 16 ^ d4 := hF2
                  _ = fr * 2 ^ mk := k3
                  _ < 16 ^ L := hM
                  _ = 2 ^ (4 * L) := by rw [pow_mul]; norm_num
                  _ ≤ 2 ^ 128 := Nat.pow_le_pow_right (by omega) (by omega))
            norm_num at this
            rw [this, store_store_at _ iter (iter + sp.length + 2) _ _ (by simp [Nat.add_assoc])]
            have hu : (f.upper && decide (t.mw ≠ 128)) = false := by simp [h128]
            rw [hu]
          · rw [if_neg h128, genWord_eq 16 (by omega) _ _ _ _ _ k2,
              store_store_at _ iter (iter + sp.length + 2) _ _ (by simp [Nat.add_assoc])]
            have hu : (f.upper && decide (t.mw ≠ 128)) = f.upper := by simp [h128]
            rw [hu]
        simp only [hgen, Option.map_some, Option.bind_some]
        have he2 : (if e = 0 then (e : Int) + -(Spec.bias t.ebits : Int) + 1 else e + -(Spec.bias t.ebits : Int)) =
            (if e = 0 then 1 else (e : Int)) - Spec.bias t.ebits := by
          by_cases he : e = 0
          · simp [he]; ring
          · simp [he]; ring
        rw [he2]
        rw [hexExponent_eq _ hg.dig2 hg.dig5 _ _ _ hebound]
        refine ⟨sp ++ Spec.hexText (f.upper && decide (t.mw ≠ 128)) f.comma f.upperE (if e = 0 then 0 else 1)
          (padded 16 (L - d4) F) ((if e = 0 then 1 else (e : Int)) - Spec.bias t.ebits), ?_,
          ⟨_, rfl, _, _, _, rfl, ?_, padded_lt _ _ _ (by omega), ?_, ?_⟩, ?_⟩
        · have hne : padded 16 (L - d4) F ≠ [] := by
            intro h
            have := congrArg List.length h
            simp at this; omega
          rw [store_store_at _ _ _ _ _ (by simp [Nat.add_assoc]),
            store_store_at _ _ _ _ _ (by simp [Nat.add_assoc]; omega)]
          have hc : digitChar (f.upper && decide (t.mw ≠ 128)) (if e = 0 then 0 else 1) = if e = 0 then 48 else 49 := by
            by_cases he : e = 0 <;> simp [he, digitChar]
          simp only [Spec.hexText, if_neg hne, hc]
          simp [Nat.add_assoc]
          omega
        · split <;> omega
        · rw [padded_getLast _ _ _ hlen]
          simpa using k4
        · exact hexValue_eq t.mbits L d4 (L - d4) F fr _ _ mk hL (by omega) k2 k3
        · have hdl := (decText_len_le ((if e = 0 then 1 else (e : Int)) - Spec.bias t.ebits).natAbs t.e2hexdigits
            (by have := hg.dig2; omega)).mpr hebound
          have := hg.dig5
          have hne : padded 16 (L - d4) F ≠ [] := by
            intro h
            have := congrArg List.length h
            simp at this; omega
          simp only [Spec.hexText, if_neg hne]
          simp
          omega

theorem hexGood16 : HexGood tF16 := ⟨by decide, by decide, by decide, by decide, by decide, by decide⟩
theorem hexGood32 : HexGood tF32 := ⟨by decide, by decide, by decide, by decide, by decide, by decide⟩
theorem hexGood64 : HexGood tF64 := ⟨by decide, by decide, by decide, by decide, by decide, by decide⟩
theorem hexGood128 : HexGood tF128 := ⟨by decide, by decide, by decide, by decide, by decide, by decide⟩
theorem hexGoodB : HexGood tBF16 := ⟨by decide, by decide, by decide, by decide, by decide, by decide⟩

/-- The announced space suffices. -/
theorem hexSize_ge (t : Trait) (showbase : Bool) (h : 12 + (t.mbits + 3) / 4 ≤ hexSize t false) :
    12 + (t.mbits + 3) / 4 ≤ hexSize t showbase := by
  refine le_trans h ?_
  unfold hexSize reserveSize
  cases showbase <;> simp

theorem expField_lt (mb eb bits : Nat) : Spec.expField mb eb bits < 2 ^ eb := Nat.mod_lt _ (Nat.pow_pos (by omega))

/-- The formats for which the exponent width of the traits is right. -/
def Supported (t : Trait) : Prop := t = tF16 ∨ t = tF32 ∨ t = tF64 ∨ t = tF128

theorem hexSize_val : hexSize tF16 false = 22 ∧ hexSize tF32 false = 26 ∧ hexSize tF64 false = 34 ∧
    hexSize tF128 false = 50 ∧ hexSize tBF16 false = 22 := by
  refine ⟨?_, ?_, ?_, ?_, ?_⟩ <;> decide +kernel

/-- **C47.** For every value of every supported format, infinities and not-a-numbers included, and all flags: the
printer is free of undefined behaviour, writes exactly one text within the announced space, and this text is the
sign followed by a hexadecimal constant whose *exact* value is the magnitude of the number.  (The case of digits and
of the exponent letter is the subject of the next theorems.) -/
theorem c47_hexfloat_exact (t : Trait) (ht : Supported t) (f : Flags) (m : Mem) (iter bits : Nat) :
    ∃ txt upperD upperP, printHex t f m iter bits = some (store m iter txt, iter + txt.length) ∧
      Spec.IsHexFloat t.mbits t.ebits f.showbase f.upperShow f.showpos f.upper upperD upperP f.comma bits txt ∧
      txt.length ≤ hexSize t f.showbase := by
  have hx := expField_lt t.mbits t.ebits bits
  obtain ⟨v1, v2, v3, v4, -⟩ := hexSize_val
  obtain ⟨txt, h1, h2, h3⟩ := printHex_eq t
    (by rcases ht with h | h | h | h <;> subst h
        exacts [hexGood16, hexGood32, hexGood64, hexGood128]) f m iter bits
    (by
      intro _ _
      generalize Spec.expField t.mbits t.ebits bits = e at *
      rcases ht with h | h | h | h <;> subst h <;> norm_num [tF16, tF32, tF64, tF128, Spec.bias] at hx ⊢ <;>
        split <;> omega)
  refine ⟨txt, _, _, h1, h2, le_trans h3 (hexSize_ge t _ ?_)⟩
  rcases ht with h | h | h | h <;> subst h
  · rw [v1]; decide
  · rw [v2]; decide
  · rw [v3]; decide
  · rw [v4]; decide

/-- **C47, letter cases.** For 16, 32 and 64 bit formats all digits are in the requested case, and the exponent letter
is too unless the number is zero. -/
theorem c47_hexfloat_case (t : Trait) (ht : Supported t) (f : Flags) (m : Mem) (iter bits : Nat)
    (h128 : t = tF128 → f.upper = false) (hz : f.upperE = f.upper ∨ Spec.absValue t.mbits t.ebits bits ≠ 0) :
    ∃ txt, printHex t f m iter bits = some (store m iter txt, iter + txt.length) ∧
      Spec.IsHexFloat t.mbits t.ebits f.showbase f.upperShow f.showpos f.upper f.upper f.upperE f.comma bits txt := by
  have hx := expField_lt t.mbits t.ebits bits
  obtain ⟨txt, h1, h2, h3⟩ := printHex_eq t
    (by rcases ht with h | h | h | h <;> subst h
        exacts [hexGood16, hexGood32, hexGood64, hexGood128]) f m iter bits
    (by
      intro _ _
      generalize Spec.expField t.mbits t.ebits bits = e at *
      rcases ht with h | h | h | h <;> subst h <;> norm_num [tF16, tF32, tF64, tF128, Spec.bias] at hx ⊢ <;>
        split <;> omega)
  refine ⟨txt, h1, ?_⟩
  have e1 : (f.upper && decide (t.mw ≠ 128)) = f.upper := by
    rcases ht with h | h | h | h
    · subst h; simp [tF16]
    · subst h; simp [tF32]
    · subst h; simp [tF64]
    · rw [h128 h]; rfl
  have e2 : (if Spec.absValue t.mbits t.ebits bits = 0 then f.upper else f.upperE) = f.upperE := by
    rcases hz with h | h
    · rw [h]; split <;> rfl
    · rw [if_neg h]
  rwa [e1, e2] at h2

/-- `-6.25` (`double`): sign, prefix, digits, exponent. -/
example : (printHex tF64 { showbase := true } (fun _ => 0) 0 (1 * 2 ^ 63 + 1025 * 2 ^ 52 + 9 * 2 ^ 48)).map
    (fun r => load r.1 0 r.2) = some [45, 48, 120, 49, 46, 57, 112, 43, 50] := by decide +kernel

/-- The hypotheses of `c47_hexfloat_case` are met by `0xA.Bp0` in upper case. -/
example : Supported tF64 ∧ (tF64 = tF128 → ({ upper := true, upperE := true } : Flags).upper = false) ∧
    (({ upper := true, upperE := true } : Flags).upperE = ({ upper := true, upperE := true } : Flags).upper ∨
      Spec.absValue tF64.mbits tF64.ebits 0x4025600000000000 ≠ 0) :=
  ⟨Or.inr (Or.inr (Or.inl rfl)), fun h => absurd (congrArg Trait.mw h) (by decide), Or.inl rfl⟩

/-- The exponent letter of zero ignores the flag for the exponent letter: `0p+0` although upper case was requested. -/
theorem c47_zero_letter_violated :
    (printHex tF64 { upperE := true } (fun _ => 0) 0 0).map (fun r => load r.1 0 r.2) = some [48, 112, 43, 48] := by
  decide +kernel

/-- Upper case digits are requested, but the 128-bit format prints `1.8p+0` style digits in lower case: here `1.a`. -/
theorem c47_float128_upper_violated :
    (printHex tF128 { upper := true, upperE := true } (fun _ => 0) 0 (16383 * 2 ^ 112 + 10 * 2 ^ 108)).map
      (fun r => load r.1 0 r.2) = some [49, 46, 97, 80, 43, 48] := by decide +kernel

/-- `bfloat16`: the traits announce two exponent digits although exponents reach 127; `2^127` reads behind the digit
table. -/
theorem c47_bfloat16_violated : printHex tBF16 {} (fun _ => 0) 0 (254 * 2 ^ 7) = none := by decide +kernel

/-- **C47 for `bfloat16` (partial).** The text is exact for zero, infinities, not-a-numbers and when the exponent has
at most two digits (biased exponent in `28..226`).  Missing: the numbers outside that range, where it fails
(`c47_bfloat16_violated`). -/
theorem c47_bfloat16_partial (f : Flags) (m : Mem) (iter bits : Nat)
    (h : Spec.expField 7 8 bits = 255 ∨ Spec.absValue 7 8 bits = 0 ∨
      (28 ≤ Spec.expField 7 8 bits ∧ Spec.expField 7 8 bits ≤ 226)) :
    ∃ txt upperP, printHex tBF16 f m iter bits = some (store m iter txt, iter + txt.length) ∧
      Spec.IsHexFloat 7 8 f.showbase f.upperShow f.showpos f.upper f.upper upperP f.comma bits txt ∧
      txt.length ≤ hexSize tBF16 f.showbase := by
  obtain ⟨-, -, -, -, v5⟩ := hexSize_val
  obtain ⟨txt, h1, h2, h3⟩ := printHex_eq tBF16 hexGoodB f m iter bits (by
    intro a b
    change Spec.expField 7 8 bits ≠ 2 ^ 8 - 1 at a
    change ¬ (Spec.fracField 7 bits = 0 ∧ Spec.expField 7 8 bits = 0) at b
    change ((if Spec.expField 7 8 bits = 0 then 1 else (Spec.expField 7 8 bits : Int)) - Spec.bias 8).natAbs < 10 ^ 2
    rcases h with h | h | h
    · exact absurd h (by simpa using a)
    · exfalso
      unfold Spec.absValue Spec.magnitude Spec.significand at h
      rcases mul_eq_zero.mp h with h | h
      · generalize Spec.expField 7 8 bits = e at *
        by_cases he : e = 0
        · rw [if_pos he] at h
          exact b ⟨by exact_mod_cast h, he⟩
        · rw [if_neg he] at h
          have : (2 ^ 7 + Spec.fracField 7 bits : Nat) = 0 := by exact_mod_cast h
          omega
      · exact absurd h (zpow_ne_zero _ (by norm_num))
    · rw [if_neg (by omega)]
      simp [Spec.bias]
      omega)
  refine ⟨txt, (if Spec.absValue 7 8 bits = 0 then f.upper else f.upperE), h1, ?_,
    le_trans h3 (hexSize_ge tBF16 _ (by rw [v5]; decide))⟩
  have e : (f.upper && decide (tBF16.mw ≠ 128)) = f.upper := by simp [tBF16]
  rw [e] at h2
  exact h2

example : Spec.expField 7 8 (130 * 2 ^ 7 + 5) = 130 := by decide

end Verif.Float
