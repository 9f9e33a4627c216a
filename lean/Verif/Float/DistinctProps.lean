import Verif.Float.DistinctText
/-! # C46: different numbers have different texts -/
namespace Verif.Float
open Verif Verif.IntPrint

theorem bits_of_fields (mb eb b b' : Nat) (h : b < 2 ^ (mb + eb + 1)) (h' : b' < 2 ^ (mb + eb + 1))
    (hs : Spec.signBit mb eb b = Spec.signBit mb eb b') (he : Spec.expField mb eb b = Spec.expField mb eb b')
    (hf : Spec.fracField mb b = Spec.fracField mb b') : b = b' := by
  have key : ∀ n, n < 2 ^ (mb + eb + 1) → n = Spec.fracField mb n + 2 ^ mb * (Spec.expField mb eb n + 2 ^ eb *
      (if Spec.signBit mb eb n then 1 else 0)) := by
    intro n hn
    unfold Spec.fracField Spec.expField Spec.signBit
    have h1 := Nat.mod_add_div n (2 ^ mb)
    have h2 := Nat.mod_add_div (n / 2 ^ mb) (2 ^ eb)
    have h3 : n / 2 ^ mb / 2 ^ eb = n / 2 ^ (mb + eb) := by rw [Nat.div_div_eq_div_mul, pow_add]
    have h4 : n / 2 ^ (mb + eb) < 2 := Nat.div_lt_of_lt_mul (by rw [← pow_succ]; exact hn)
    have h5 : (if (decide (n / 2 ^ (mb + eb) % 2 = 1)) = true then 1 else 0) = n / 2 ^ mb / 2 ^ eb := by
      rw [h3]
      simp only [decide_eq_true_eq]
      generalize n / 2 ^ (mb + eb) = q at h4
      have : q = 0 ∨ q = 1 := by omega
      rcases this with rfl | rfl <;> simp
    rw [h5, h2, h1]
  rw [key b h, key b' h', hs, he, hf]

theorem sign_split (p s s' : Bool) (a a' : List Nat) (ha : ∀ x, a.head? = some x → ¬ (x = 43 ∨ x = 45))
    (ha' : ∀ x, a'.head? = some x → ¬ (x = 43 ∨ x = 45)) (h : Spec.signText p s ++ a = Spec.signText p s' ++ a') :
    s = s' ∧ a = a' := by
  have hs : ∀ s, ∀ x ∈ Spec.signText p s, x = 43 ∨ x = 45 := by intro s; cases p <;> cases s <;> simp [Spec.signText]
  obtain ⟨g1, g2⟩ := split_unique (fun x => x = 43 ∨ x = 45) _ _ _ _ (hs s) (hs s') ha ha' h
  refine ⟨?_, g2⟩
  cases p <;> cases s <;> cases s' <;> simp_all [Spec.signText]

theorem decNumeral_head (c uE : Bool) (int frac : List Nat) (ex : Option Int) (h0 : int ≠ []) :
    (Spec.decNumeral c uE int frac ex).head? = int.head?.map (digitChar false) := by
  rw [decNumeral_parts]
  cases int with
  | nil => exact absurd rfl h0
  | cons d t => simp

/-- The text of a number, without its sign, in the three cases. -/
theorem body_cases {mb eb : Nat} {st : Spec.Style} {p u uE c tr : Bool} {bits : Nat} {txt : List Nat}
    (h : Spec.IsDecFloat mb eb st p u uE c tr (Spec.RoundsTo mb eb) bits txt)
    (hn : ¬ (Spec.expField mb eb bits = 2 ^ eb - 1 ∧ Spec.fracField mb bits ≠ 0)) :
    ∃ body, txt = Spec.signText p (Spec.signBit mb eb bits) ++ body ∧
      ((body = Spec.specialText u false ∧ Spec.expField mb eb bits = 2 ^ eb - 1 ∧ Spec.fracField mb bits = 0) ∨
        (body = (if st = .scientific then [48, if uE then 69 else 101, 43, 48] else [48]) ∧
          Spec.expField mb eb bits = 0 ∧ Spec.fracField mb bits = 0) ∨
        (∃ x, Spec.IsDecText st c uE tr x body ∧ Spec.RoundsTo mb eb x (Spec.expField mb eb bits) (Spec.fracField mb bits) ∧
          ¬ (Spec.fracField mb bits = 0 ∧ Spec.expField mb eb bits = 0))) := by
  unfold Spec.IsDecFloat at h
  split at h
  · rename_i he
    have hf : Spec.fracField mb bits = 0 := by by_contra hc; exact hn ⟨he, hc⟩
    refine ⟨_, h, Or.inl ⟨by simp [hf], he, hf⟩⟩
  split at h
  · rename_i hz
    exact ⟨_, h, Or.inr (Or.inl ⟨rfl, hz.2, hz.1⟩)⟩
  · rename_i hz
    obtain ⟨body, x, h1, h2, h3⟩ := h
    exact ⟨body, h1, Or.inr (Or.inr ⟨x, h2, h3, hz⟩)⟩

theorem text_head {st : Spec.Style} {c uE tr : Bool} {x : ℚ} {body : List Nat} (h : Spec.IsDecText st c uE tr x body) :
    ∃ d, body.head? = some d ∧ IsDig d := by
  obtain ⟨int, frac, ex, rfl, h0, hd, -⟩ := h
  rw [decNumeral_head _ _ _ _ _ h0]
  cases int with
  | nil => exact absurd rfl h0
  | cons d t =>
    refine ⟨digitChar false d, rfl, ?_⟩
    exact dig_map [d] (by intro y hy; rw [List.mem_singleton] at hy; subst hy; exact hd _ (by simp)) _ (by simp)

/-- The text of a zero is not the text of another number. -/
theorem zero_not_text {mb eb : Nat} {st : Spec.Style} {c uE tr : Bool} {x : ℚ} {body : List Nat} {e f : Nat}
    (h : Spec.IsDecText st c uE tr x body) (hr : Spec.RoundsTo mb eb x e f) (hz : ¬ (f = 0 ∧ e = 0)) :
    body ≠ (if st = .scientific then [48, if uE then 69 else 101, 43, 48] else [48]) := by
  intro hb
  obtain ⟨int, frac, ex, rfl, h0, hd, h1, h2, h3, h4, h5, h6⟩ := h
  by_cases hst : st = .scientific
  · rw [if_pos hst] at hb
    obtain ⟨g1, g2⟩ := h2 (h4 hst)
    have hh := decNumeral_head c uE int frac ex h0
    rw [hb] at hh
    obtain ⟨d, rfl⟩ := List.length_eq_one_iff.mp g1
    have hd' := hd d (by simp)
    simp only [List.head?_cons, Option.map_some, Option.some.injEq] at hh
    unfold digitChar at hh
    rw [if_pos hd'] at hh
    exact g2 (by rw [show d = 0 by omega])
  · rw [if_neg hst] at hb
    have hz' : Spec.decNumeral c uE [0] [] none = [48] := by simp [Spec.decNumeral, digitChar]
    rw [← hz'] at hb
    obtain ⟨rfl, rfl, rfl⟩ := decNumeral_inj c uE _ _ _ _ _ _ hd (by simp) hb
    have hx : x = 0 := by rw [← h6]; simp [Spec.decValue, digitsValue]
    rw [hx] at hr
    have := rounds_zero mb eb e f hr
    unfold Spec.magnitude at this
    rcases mul_eq_zero.mp this with h | h
    · have h : Spec.significand mb e f = 0 := by exact_mod_cast h
      have := significand_pos mb e f hz
      omega
    · exact absurd h (zpow_ne_zero _ (by norm_num))

/-- Equal texts, equal numbers. -/
theorem isDecFloat_inj {mb eb : Nat} {st : Spec.Style} {p u uE c tr : Bool} {b b' : Nat} {txt : List Nat} (heb : 0 < eb)
    (hb : b < 2 ^ (mb + eb + 1)) (hb' : b' < 2 ^ (mb + eb + 1))
    (hn : ¬ (Spec.expField mb eb b = 2 ^ eb - 1 ∧ Spec.fracField mb b ≠ 0))
    (hn' : ¬ (Spec.expField mb eb b' = 2 ^ eb - 1 ∧ Spec.fracField mb b' ≠ 0))
    (h : Spec.IsDecFloat mb eb st p u uE c tr (Spec.RoundsTo mb eb) b txt)
    (h' : Spec.IsDecFloat mb eb st p u uE c tr (Spec.RoundsTo mb eb) b' txt) : b = b' := by
  obtain ⟨y, e1, c1⟩ := body_cases h hn
  obtain ⟨y', e2, c2⟩ := body_cases h' hn'
  have hfl : ∀ n, Spec.fracField mb n < 2 ^ mb := fun n => Nat.mod_lt _ (Nat.pow_pos (by norm_num))
  have hsp : (Spec.specialText u false).head? = some 73 ∨ (Spec.specialText u false).head? = some 105 := by
    cases u <;> simp [Spec.specialText]
  have hzh : (if st = .scientific then [48, if uE then 69 else 101, 43, 48] else [48] : List Nat).head? = some 48 := by
    split <;> rfl
  have hd1 : ∀ {z : List Nat} {n : Nat}, ((z = Spec.specialText u false ∧ Spec.expField mb eb n = 2 ^ eb - 1 ∧ Spec.fracField mb n = 0) ∨
        (z = (if st = .scientific then [48, if uE then 69 else 101, 43, 48] else [48]) ∧
          Spec.expField mb eb n = 0 ∧ Spec.fracField mb n = 0) ∨
        (∃ x, Spec.IsDecText st c uE tr x z ∧ Spec.RoundsTo mb eb x (Spec.expField mb eb n) (Spec.fracField mb n) ∧
          ¬ (Spec.fracField mb n = 0 ∧ Spec.expField mb eb n = 0))) →
        ∀ x, z.head? = some x → ¬ (x = 43 ∨ x = 45) := by
    intro z n hc x hx
    rcases hc with ⟨rfl, -⟩ | ⟨rfl, -⟩ | ⟨q, hq, -⟩
    · rcases hsp with g | g <;> rw [g, Option.some.injEq] at hx <;> omega
    · rw [hzh, Option.some.injEq] at hx; omega
    · obtain ⟨d, g1, g2⟩ := text_head hq
      rw [g1, Option.some.injEq] at hx
      unfold IsDig at g2; omega
  have hnd : ∀ {z : List Nat} {x : ℚ}, Spec.IsDecText st c uE tr x z → z ≠ Spec.specialText u false := by
    intro z x hz e
    obtain ⟨d, g1, g2⟩ := text_head hz
    rw [e] at g1
    unfold IsDig at g2
    rcases hsp with g | g <;> rw [g, Option.some.injEq] at g1 <;> omega
  have hne : Spec.specialText u false ≠ (if st = .scientific then [48, if uE then 69 else 101, 43, 48] else [48] : List Nat) := by
    intro e
    rw [← e] at hzh
    rcases hsp with g | g <;> rw [g, Option.some.injEq] at hzh <;> omega
  obtain ⟨hs, rfl⟩ := sign_split p _ _ y y' (hd1 c1) (hd1 c2) (e1.symm.trans e2)
  have fin : Spec.expField mb eb b = Spec.expField mb eb b' → Spec.fracField mb b = Spec.fracField mb b' → b = b' :=
    bits_of_fields mb eb b b' hb hb' hs
  rcases c1 with ⟨r1, r2, r3⟩ | ⟨r1, r2, r3⟩ | ⟨x, r1, r2, r3⟩ <;>
    rcases c2 with ⟨s1, s2, s3⟩ | ⟨s1, s2, s3⟩ | ⟨x', s1, s2, s3⟩
  · exact fin (r2.trans s2.symm) (r3.trans s3.symm)
  · exact absurd (r1.symm.trans s1) hne
  · exact absurd r1 (hnd s1)
  · exact absurd (s1.symm.trans r1) hne
  · exact fin (r2.trans s2.symm) (r3.trans s3.symm)
  · exact absurd r1 (zero_not_text s1 s2 s3)
  · exact absurd s1 (hnd r1)
  · exact absurd s1 (zero_not_text r1 r2 r3)
  · obtain ⟨i1, f1, x1, q1, -, d1, -, -, -, -, -, v1⟩ := r1
    obtain ⟨i2, f2, x2, q2, -, d2, -, -, -, -, -, v2⟩ := s1
    obtain ⟨rfl, rfl, rfl⟩ := decNumeral_inj c uE _ _ _ _ _ _ d1 d2 (q1.symm.trans q2)
    rw [← v1] at r2
    rw [← v2] at s2
    obtain ⟨k1, k2⟩ := rounds_unique mb eb _ _ _ _ _ (hfl _) (hfl _) r2 s2
    exact fin k1 k2

theorem same_text {m m' : Mem} {i i' : Nat} {t t' : List Nat} {r r' : Mem × Nat} (hr : r = (store m i t, i + t.length))
    (hr' : r' = (store m' i' t', i' + t'.length)) (h : load r.1 i (r.2 - i) = load r'.1 i' (r'.2 - i')) : t = t' := by
  subst hr hr'
  simp only [Nat.add_sub_cancel_left] at h
  rwa [load_store, load_store] at h

/-- A representation is that of a not-a-number. -/
def isNaN (mb eb bits : Nat) : Prop := Spec.expField mb eb bits = 2 ^ eb - 1 ∧ Spec.fracField mb bits ≠ 0

/-- **C46, different numbers, different texts, `double` (partial).** Whatever the format and the flags: two `double`s that are no
not-a-numbers and are printed as the same text, wherever, are the same; `-0` and `0` differ as well.  Missing: the powers of
two in `badPow64`, which are read back as a neighbour. -/
theorem c46_double_distinct_partial (sizet64 : Bool) (fmt : Format) (fl : Flags) (m m' : Mem) (iter iter' b b' : Nat)
    (hb : b < 2 ^ 64) (hb' : b' < 2 ^ 64) (hn : ¬ isNaN 52 11 b) (hn' : ¬ isNaN 52 11 b')
    (hpow : ¬ (Spec.fracField 52 b = 0 ∧ Spec.expField 52 11 b ∈ badPow64))
    (hpow' : ¬ (Spec.fracField 52 b' = 0 ∧ Spec.expField 52 11 b' ∈ badPow64))
    (hletter : fl.upperE = fl.upper) (r r' : Mem × Nat) (hr : printFlt tF64 db64 sizet64 fmt fl m iter b = some r)
    (hr' : printFlt tF64 db64 sizet64 fmt fl m' iter' b' = some r')
    (h : load r.1 iter (r.2 - iter) = load r'.1 iter' (r'.2 - iter')) : b = b' := by
  obtain ⟨t, h1, h2, -⟩ := c46_double_partial sizet64 fmt fl m iter b hpow (Or.inl hletter)
  obtain ⟨t', h1', h2', -⟩ := c46_double_partial sizet64 fmt fl m' iter' b' hpow' (Or.inl hletter)
  rw [hr, Option.some.injEq] at h1
  rw [hr', Option.some.injEq] at h1'
  have := same_text h1 h1' h
  subst this
  exact isDecFloat_inj (by norm_num) hb hb' hn hn' h2 h2'

/-- The hypotheses are met by the neighbours `0.3` and `0.30000000000000004`, and by both zeros. -/
example : (0x3FD3333333333333 < 2 ^ 64 ∧ ¬ isNaN 52 11 0x3FD3333333333333 ∧
      ¬ (Spec.fracField 52 0x3FD3333333333333 = 0 ∧ Spec.expField 52 11 0x3FD3333333333333 ∈ badPow64)) ∧
    (0x3FD3333333333334 < 2 ^ 64 ∧ ¬ isNaN 52 11 0x3FD3333333333334 ∧
      ¬ (Spec.fracField 52 0x3FD3333333333334 = 0 ∧ Spec.expField 52 11 0x3FD3333333333334 ∈ badPow64)) ∧
    ¬ isNaN 52 11 (2 ^ 63) ∧ Spec.expField 52 11 0 ∉ badPow64 := by
  refine ⟨⟨by decide, ?_, by decide +kernel⟩, ⟨by decide, ?_, by decide +kernel⟩, ?_, by decide +kernel⟩ <;>
    (unfold isNaN; decide +kernel)

/-- **C46, different numbers, different texts, `float` (partial).** Missing: the numbers with an exponent field in
`badField32` and the powers of two in `badPow32`. -/
theorem c46_float_distinct_partial (sizet64 : Bool) (fmt : Format) (fl : Flags) (m m' : Mem) (iter iter' b b' : Nat)
    (hb : b < 2 ^ 32) (hb' : b' < 2 ^ 32) (hn : ¬ isNaN 23 8 b) (hn' : ¬ isNaN 23 8 b')
    (hfield : Spec.expField 23 8 b ∉ badField32) (hfield' : Spec.expField 23 8 b' ∉ badField32)
    (hpow : ¬ (Spec.fracField 23 b = 0 ∧ Spec.expField 23 8 b ∈ badPow32))
    (hpow' : ¬ (Spec.fracField 23 b' = 0 ∧ Spec.expField 23 8 b' ∈ badPow32))
    (hletter : fl.upperE = fl.upper) (r r' : Mem × Nat) (hr : printFlt tF32 db32 sizet64 fmt fl m iter b = some r)
    (hr' : printFlt tF32 db32 sizet64 fmt fl m' iter' b' = some r')
    (h : load r.1 iter (r.2 - iter) = load r'.1 iter' (r'.2 - iter')) : b = b' := by
  obtain ⟨t, h1, h2, -⟩ := c46_float_partial sizet64 fmt fl m iter b hfield hpow (Or.inl hletter)
  obtain ⟨t', h1', h2', -⟩ := c46_float_partial sizet64 fmt fl m' iter' b' hfield' hpow' (Or.inl hletter)
  rw [hr, Option.some.injEq] at h1
  rw [hr', Option.some.injEq] at h1'
  have := same_text h1 h1' h
  subst this
  exact isDecFloat_inj (by norm_num) hb hb' hn hn' h2 h2'

/-- The hypotheses are met by `0.1f` and the next number. -/
example : (¬ isNaN 23 8 0x3DCCCCCD ∧ Spec.expField 23 8 0x3DCCCCCD ∉ badField32 ∧ Spec.fracField 23 0x3DCCCCCD ≠ 0) ∧
    (¬ isNaN 23 8 0x3DCCCCCE ∧ Spec.expField 23 8 0x3DCCCCCE ∉ badField32 ∧ Spec.fracField 23 0x3DCCCCCE ≠ 0) := by
  unfold isNaN; decide +kernel

/-- **Two numbers with the same text.** `2^-24` and the `double` below it are both printed as `5.960464477539062e-08`. -/
theorem c46_double_distinct_violated : (0x3E6FFFFFFFFFFFFF : Nat) ≠ 0x3E70000000000000 ∧
    (printFlt tF64 db64 true .general {} (fun _ => 0) 0 0x3E6FFFFFFFFFFFFF).map (fun r => load r.1 0 r.2) =
      some [53, 46, 57, 54, 48, 52, 54, 52, 52, 55, 55, 53, 51, 57, 48, 54, 50, 101, 45, 48, 56] ∧
    (printFlt tF64 db64 true .general {} (fun _ => 0) 0 0x3E70000000000000).map (fun r => load r.1 0 r.2) =
      some [53, 46, 57, 54, 48, 52, 54, 52, 52, 55, 55, 53, 51, 57, 48, 54, 50, 101, 45, 48, 56] := by decide +kernel

end Verif.Float
