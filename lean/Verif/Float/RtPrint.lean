import Verif.Float.RtMain
import Verif.Float.RtText
import Verif.Float.HexProps
/-! # The decimal printer as a whole -/
namespace Verif.Float
open Verif Verif.IntPrint

/-- A format and the constants of its conversion. -/
def Pair (t : Trait) (d : DB) : Prop := (t = tF64 ∧ d = db64) ∨ (t = tF32 ∧ d = db32)

theorem Pair.isT {t : Trait} {d : DB} (h : Pair t d) : IsT t := by
  rcases h with ⟨h, -⟩ | ⟨h, -⟩ <;> subst h
  · first | exact Or.inl rfl | exact Or.inr rfl
  · first | exact Or.inr rfl | exact Or.inl rfl

theorem Pair.isDB {t : Trait} {d : DB} (h : Pair t d) : IsDB d := by
  rcases h with ⟨-, h⟩ | ⟨-, h⟩ <;> subst h
  · exact Or.inl rfl
  · exact Or.inr rfl

theorem Pair.bits {t : Trait} {d : DB} (h : Pair t d) : t.mbits = d.mbits ∧ t.ebits = d.ebits := by
  rcases h with ⟨rfl, rfl⟩ | ⟨rfl, rfl⟩ <;> exact ⟨rfl, rfl⟩

theorem significand_lt (mb e f : Nat) (hf : f < 2 ^ mb) : Spec.significand mb e f < 2 ^ (mb + 1) := by
  have : 2 ^ (mb + 1) = 2 * 2 ^ mb := by ring
  unfold Spec.significand; split <;> omega

theorem significand_pos (mb e f : Nat) (h : ¬ (f = 0 ∧ e = 0)) : 1 ≤ Spec.significand mb e f := by
  have : 0 < 2 ^ mb := Nat.pow_pos (by norm_num)
  unfold Spec.significand; split <;> omega

/-- The upper bound contained in `Weak`. -/
theorem Weak.upper {m : Nat} {E : Int} {k : Nat} {n : Int} (h : Weak m E k n) :
    (k : ℚ) * (10 : ℚ) ^ n ≤ (2 * (m : ℚ) + 6 / 5) * (2 : ℚ) ^ (E - 1) := by
  have := (abs_le.mp h.near).2
  rw [two_half] at this
  linarith

/-- The lower bound contained in `Weak`. -/
theorem Weak.lower {m : Nat} {E : Int} {k : Nat} {n : Int} (h : Weak m E k n) :
    (2 * (m : ℚ) - 6 / 5) * (2 : ℚ) ^ (E - 1) ≤ (k : ℚ) * (10 : ℚ) ^ n := by
  have := (abs_le.mp h.near).1
  rw [two_half] at this
  linarith

/-- The decimal exponent of a number in the rounding interval is bounded by the largest number of the format. -/
theorem exp_bound {t : Trait} {d : DB} (hp : Pair t d) (e f k : Nat) (n : Int) (hf : f < 2 ^ t.mbits)
    (he : e < 2 ^ t.ebits - 1) (hk : 0 < k)
    (hin : Weak (Spec.significand t.mbits e f) (Spec.ulpExp t.mbits t.ebits e) k n) :
    n + (decText k).length - 1 ≤ t.e10max := by
  have hlen := decText_len_pos k
  have hk10 : 10 ^ ((decText k).length - 1) ≤ k := by
    by_contra hc
    push Not at hc
    by_cases h1 : (decText k).length - 1 = 0
    · rw [h1, pow_zero] at hc; omega
    · have := (decText_len_le k ((decText k).length - 1) (by omega)).mpr hc
      omega
  have h1 := hin.upper
  have hm := significand_lt t.mbits e f hf
  generalize Spec.significand t.mbits e f = s at *
  have hs : (2 * (s : ℚ) + 6 / 5) ≤ 2 ^ (t.mbits + 2) := by
    have : 2 * s + 2 ≤ 2 ^ (t.mbits + 2) := by
      have : 2 ^ (t.mbits + 2) = 2 * 2 ^ (t.mbits + 1) := by ring
      omega
    have h : (2 * (s : ℚ) + 2) ≤ 2 ^ (t.mbits + 2) := by exact_mod_cast this
    linarith
  have h2 : (10 : ℚ) ^ (n + (decText k).length - 1) ≤ (2 : ℚ) ^ ((t.mbits + 2 : Nat) + (Spec.ulpExp t.mbits t.ebits e - 1) : Int) := by
    calc (10 : ℚ) ^ (n + (decText k).length - 1)
        = (10 ^ ((decText k).length - 1) : Nat) * (10 : ℚ) ^ n := by
          push_cast
          rw [← zpow_natCast, ← zpow_add₀ (by norm_num)]
          congr 1; omega
      _ ≤ k * (10 : ℚ) ^ n := by
          apply mul_le_mul_of_nonneg_right _ (zpow_pos (by norm_num) _).le
          exact_mod_cast hk10
      _ ≤ (2 * (s : ℚ) + 6 / 5) * (2 : ℚ) ^ (Spec.ulpExp t.mbits t.ebits e - 1) := h1
      _ ≤ 2 ^ (t.mbits + 2) * (2 : ℚ) ^ (Spec.ulpExp t.mbits t.ebits e - 1) := by
          apply mul_le_mul_of_nonneg_right hs (zpow_pos (by norm_num) _).le
      _ = _ := by rw [zpow_add₀ (by norm_num), zpow_natCast]
  by_contra hc
  push Not at hc
  have h3 : (10 : ℚ) ^ ((t.e10max : Int) + 1) ≤ (10 : ℚ) ^ (n + (decText k).length - 1) :=
    zpow_le_zpow_right₀ (by norm_num) (by omega)
  have h4 : (2 : ℚ) ^ ((t.mbits + 2 : Nat) + (Spec.ulpExp t.mbits t.ebits e - 1) : Int) ≤
      (2 : ℚ) ^ ((2 ^ (t.ebits - 1) : Nat) : Int) := by
    apply zpow_le_zpow_right₀ (by norm_num)
    unfold Spec.ulpExp Spec.bias
    rcases hp with ⟨rfl, -⟩ | ⟨rfl, -⟩
    · norm_num [tF64] at *; split <;> omega
    · norm_num [tF32] at *; split <;> omega
  have h5 : (2 : ℚ) ^ ((2 ^ (t.ebits - 1) : Nat) : Int) < (10 : ℚ) ^ ((t.e10max : Int) + 1) := by
    rcases hp with ⟨rfl, -⟩ | ⟨rfl, -⟩
    · rw [zpow_natCast, show ((tF64.e10max : Int) + 1) = ((309 : Nat) : Int) from rfl, zpow_natCast]
      have : (2 : Nat) ^ 2 ^ (tF64.ebits - 1) < 10 ^ 309 := by decide +kernel
      exact_mod_cast this
    · rw [zpow_natCast, show ((tF32.e10max : Int) + 1) = ((39 : Nat) : Int) from rfl, zpow_natCast]
      have : (2 : Nat) ^ 2 ^ (tF32.ebits - 1) < 10 ^ 39 := by decide +kernel
      exact_mod_cast this
  linarith

/-- What the conversion delivers for every number, in the form needed by the text layer. -/
theorem dragonImpl_weak {t : Trait} {d : DB} (hp : Pair t d) (st : Bool) (f e : Nat) (hf : f < 2 ^ t.mbits)
    (he : e < 2 ^ t.ebits - 1) (hnz : ¬ (f = 0 ∧ e = 0)) :
    ∃ k n, dragonImpl d st f e = some (k, n) ∧
      Weak (Spec.significand t.mbits e f) (Spec.ulpExp t.mbits t.ebits e) k n ∧
      ((st || decide (d.w < 64)) = true → k % 10 ≠ 0) ∧ k < 2 ^ (t.mbits + 1) * 10 ∧
      -(if t.mw = 64 then 324 else 45 : Int) ≤ n ∧ n + (decText k).length - 1 ≤ t.e10max ∧
      (LastDigitOk d (Spec.ulpExp t.mbits t.ebits e) ∨
        (e ≠ 0 ∧ SmallInt t.mbits (Spec.ulpExp t.mbits t.ebits e) (Spec.significand t.mbits e f)) →
        Good (Spec.significand t.mbits e f) (Spec.ulpExp t.mbits t.ebits e) k n (d = db64)) := by
  obtain ⟨hb1, hb2⟩ := hp.bits
  rw [hb1] at hf
  rw [hb2] at he
  obtain ⟨Q, e10, h1, h2', h2, h3, h4⟩ := dragonMain_good d hp.isDB f e hf he hnz
  obtain ⟨k, n, g1, g2, g3⟩ := dragonImpl_spec d hp.isDB st f e Q e10 h2.pos h1
  have hg := weak_strip h2 g2
  rw [← hb1] at hf
  rw [← hb2] at he
  rw [← hb1, ← hb2] at hg h4 h2'
  rw [← hb1] at h3
  refine ⟨k, n, g1, hg, fun h => g3 (by simpa using h), lt_of_le_of_lt g2.le.1 h3, ?_,
    exp_bound hp e f k n hf he hg.pos hg, fun h => good_strip (h2' h) g2⟩
  have hle := g2.le.2
  unfold Spec.ulpExp Spec.bias mulLn2DivLn10 at h4
  rcases hp with ⟨rfl, rfl⟩ | ⟨rfl, rfl⟩
  · norm_num [tF64] at *; split at h4 <;> omega
  · norm_num [tF32] at *; split at h4 <;> omega

theorem digits_bound {t : Trait} {d : DB} (hp : Pair t d) {k : Nat} (h : k < 2 ^ (t.mbits + 1) * 10) : k < 10 ^ t.m10digits := by
  refine lt_of_lt_of_le h ?_
  rcases hp with ⟨rfl, rfl⟩ | ⟨rfl, rfl⟩ <;> norm_num [tF64, db64, tF32, db32]

/-- The same where the last digit is right. -/
theorem dragonImpl_good {t : Trait} {d : DB} (hp : Pair t d) (st : Bool) (f e : Nat) (hf : f < 2 ^ t.mbits)
    (he : e < 2 ^ t.ebits - 1) (hnz : ¬ (f = 0 ∧ e = 0))
    (hpar : LastDigitOk d (Spec.ulpExp t.mbits t.ebits e) ∨
      (e ≠ 0 ∧ SmallInt t.mbits (Spec.ulpExp t.mbits t.ebits e) (Spec.significand t.mbits e f))) :
    ∃ k n, dragonImpl d st f e = some (k, n) ∧
      Good (Spec.significand t.mbits e f) (Spec.ulpExp t.mbits t.ebits e) k n (d = db64) ∧
      ((st || decide (d.w < 64)) = true → k % 10 ≠ 0) ∧ k < 10 ^ t.m10digits ∧
      -(if t.mw = 64 then 324 else 45 : Int) ≤ n ∧ n + (decText k).length - 1 ≤ t.e10max := by
  obtain ⟨k, n, h1, -, h3, h4, h5, h6, h7⟩ := dragonImpl_weak hp st f e hf he hnz
  exact ⟨k, n, h1, h7 hpar, h3, digits_bound hp h4, h5, h6⟩

/-- The hypothesis on the fields under which the last digit is right. -/
def FieldsOk (t : Trait) (d : DB) (e f : Nat) : Prop :=
  LastDigitOk d (Spec.ulpExp t.mbits t.ebits e) ∨
    (e ≠ 0 ∧ SmallInt t.mbits (Spec.ulpExp t.mbits t.ebits e) (Spec.significand t.mbits e f))

/-- The general statement. -/
theorem printFlt_all {t : Trait} {d : DB} (hp : Pair t d) (st : Bool) (fmt : Format) (fl : Flags) (m : Mem)
    (iter bits : Nat)
    (hletter : fl.upperE = fl.upper ∨ fmt ≠ .scientific ∨ Spec.absValue t.mbits t.ebits bits ≠ 0)
    (good : ℚ → Nat → Nat → Prop)
    (hgood : ∀ e f k n, e = Spec.expField t.mbits t.ebits bits → f = Spec.fracField t.mbits bits →
      e < 2 ^ t.ebits - 1 → f < 2 ^ t.mbits → ¬ (f = 0 ∧ e = 0) → dragonImpl d st f e = some (k, n) →
      Weak (Spec.significand t.mbits e f) (Spec.ulpExp t.mbits t.ebits e) k n →
      (FieldsOk t d e f → Good (Spec.significand t.mbits e f) (Spec.ulpExp t.mbits t.ebits e) k n (d = db64)) →
      ((st || decide (d.w < 64)) = true → k % 10 ≠ 0) → good (k * (10 : ℚ) ^ n) e f) :
    ∃ txt, printFlt t d st fmt fl m iter bits = some (store m iter txt, iter + txt.length) ∧
      Spec.IsDecFloat t.mbits t.ebits (styleOf fmt) fl.showpos fl.upper fl.upperE fl.comma (st || decide (d.w < 64)) good
        bits txt ∧
      ((∀ k n, Spec.expField t.mbits t.ebits bits < 2 ^ t.ebits - 1 →
        ¬ (Spec.fracField t.mbits bits = 0 ∧ Spec.expField t.mbits t.ebits bits = 0) →
        dragonImpl d st (Spec.fracField t.mbits bits) (Spec.expField t.mbits t.ebits bits) = some (k, n) →
        RoomOk t fmt n (decText k).length ∨
          (fl.showpos = false ∧ Spec.signBit t.mbits t.ebits bits = false ∧
            n + (decText k).length ≤ t.m10digits + t.e10digits + 4)) → txt.length ≤ fltSize t fmt) := by
  have hf : Spec.fracField t.mbits bits < 2 ^ t.mbits := Nat.mod_lt _ (Nat.pow_pos (by omega))
  have he := expField_lt t.mbits t.ebits bits
  have h7 : 7 ≤ fltSize t fmt := by
    rcases hp with ⟨rfl, -⟩ | ⟨rfl, -⟩ <;> cases fmt <;> decide
  unfold printFlt
  simp only [punned_eq, fpSign_eq]
  unfold Spec.IsDecFloat
  have hst : (Spec.signText fl.showpos (Spec.signBit t.mbits t.ebits bits)).length ≤ 1 := by
    unfold Spec.signText
    split <;> [simp; split <;> simp]
  have hst0 : fl.showpos = false → Spec.signBit t.mbits t.ebits bits = false →
      (Spec.signText fl.showpos (Spec.signBit t.mbits t.ebits bits)).length = 0 := by
    intro h1 h2; rw [h1, h2]; rfl
  generalize Spec.signText fl.showpos (Spec.signBit t.mbits t.ebits bits) = sg at *
  generalize Spec.signBit t.mbits t.ebits bits = sb at *
  unfold Spec.absValue at hletter
  generalize Spec.expField t.mbits t.ebits bits = e at *
  generalize Spec.fracField t.mbits bits = f at *
  by_cases hspec : e = 2 ^ t.ebits - 1
  · simp only [if_pos hspec]
    refine ⟨_, ?_, rfl, ?_⟩
    · rw [fpNan_eq, store_store_at _ _ _ _ _ rfl, List.length_append, Nat.add_assoc]; rfl
    · intro _
      have : (Spec.specialText fl.upper (decide (f ≠ 0))).length = 3 := by
        unfold Spec.specialText; split <;> split <;> rfl
      rw [List.length_append, this]; omega
  · simp only [if_neg hspec]
    by_cases hz : f = 0 ∧ e = 0
    · simp only [if_pos hz]
      by_cases hsc : fmt = .scientific
      · have hu : fl.upperE = fl.upper := by
          rcases hletter with h | h | h
          · exact h
          · exact absurd hsc h
          · exfalso; apply h
            rw [hz.1, hz.2]; simp [Spec.magnitude, Spec.significand]
        subst hsc
        simp only [ne_eq, not_true_eq_false, if_false, dece0, lit, styleOf, if_true]
        refine ⟨_, ?_, rfl, ?_⟩
        · rw [store_store_at _ _ _ _ _ rfl, hu]
          cases fl.upper <;> simp [Nat.add_assoc]
        · intro _
          rw [List.length_append]
          simp only [List.length_cons, List.length_nil]
          omega
      · have hst' : styleOf fmt ≠ .scientific := by cases fmt <;> simp_all [styleOf]
        simp only [ne_eq, hsc, not_false_eq_true, if_true, if_neg hst']
        refine ⟨_, ?_, rfl, ?_⟩
        · rw [store_store_at _ _ _ _ _ rfl]; simp [Nat.add_assoc]
        · intro _
          rw [List.length_append]
          simp only [List.length_cons, List.length_nil]
          omega
    · simp only [if_neg hz]
      obtain ⟨k, n, h1, h2, h3, h4, h5, h6, h8⟩ := dragonImpl_weak hp st f e hf (by omega) hz
      have h4 := digits_bound hp h4
      rw [h1]
      simp only [Option.bind_eq_bind, Option.bind_some]
      obtain ⟨txt, g1, g2, g3, g4⟩ := decision_eq t hp.isT fmt fl.comma fl.upperE (st || decide (d.w < 64))
        (store m iter sg) (iter + sg.length) k n h2.pos h4 h5 h6 h3
      refine ⟨sg ++ txt, ?_, ⟨txt, _, rfl, g2, hgood e f k n rfl rfl (by omega) hf hz h1 h2 h8 h3⟩, ?_⟩
      · rw [g1, store_store_at _ _ _ _ _ rfl, List.length_append, Nat.add_assoc]
      · intro hroom
        rw [List.length_append]
        rcases hroom k n (by omega) hz rfl with hr | ⟨a, b, c⟩
        · have := g3 hr; omega
        · have := hst0 a b
          have := g4 c; omega

/-- The same where the last digit is right. -/
theorem printFlt_eq {t : Trait} {d : DB} (hp : Pair t d) (st : Bool) (fmt : Format) (fl : Flags) (m : Mem)
    (iter bits : Nat)
    (hpar : Spec.expField t.mbits t.ebits bits < 2 ^ t.ebits - 1 →
      FieldsOk t d (Spec.expField t.mbits t.ebits bits) (Spec.fracField t.mbits bits))
    (hletter : fl.upperE = fl.upper ∨ fmt ≠ .scientific ∨ Spec.absValue t.mbits t.ebits bits ≠ 0)
    (good : ℚ → Nat → Nat → Prop)
    (hgood : ∀ e f k n, e = Spec.expField t.mbits t.ebits bits → f = Spec.fracField t.mbits bits →
      e < 2 ^ t.ebits - 1 → f < 2 ^ t.mbits → ¬ (f = 0 ∧ e = 0) → dragonImpl d st f e = some (k, n) →
      Good (Spec.significand t.mbits e f) (Spec.ulpExp t.mbits t.ebits e) k n (d = db64) →
      ((st || decide (d.w < 64)) = true → k % 10 ≠ 0) → good (k * (10 : ℚ) ^ n) e f) :
    ∃ txt, printFlt t d st fmt fl m iter bits = some (store m iter txt, iter + txt.length) ∧
      Spec.IsDecFloat t.mbits t.ebits (styleOf fmt) fl.showpos fl.upper fl.upperE fl.comma (st || decide (d.w < 64)) good
        bits txt ∧
      ((∀ k n, Spec.expField t.mbits t.ebits bits < 2 ^ t.ebits - 1 →
        ¬ (Spec.fracField t.mbits bits = 0 ∧ Spec.expField t.mbits t.ebits bits = 0) →
        dragonImpl d st (Spec.fracField t.mbits bits) (Spec.expField t.mbits t.ebits bits) = some (k, n) →
        RoomOk t fmt n (decText k).length ∨
          (fl.showpos = false ∧ Spec.signBit t.mbits t.ebits bits = false ∧
            n + (decText k).length ≤ t.m10digits + t.e10digits + 4)) → txt.length ≤ fltSize t fmt) :=
  printFlt_all hp st fmt fl m iter bits hletter good fun e f k n he hf he2 hf2 hnz hi _ hg h10 =>
    hgood e f k n he hf he2 hf2 hnz hi (hg (by rw [he, hf]; exact hpar (by rw [← he]; exact he2))) h10

end Verif.Float
