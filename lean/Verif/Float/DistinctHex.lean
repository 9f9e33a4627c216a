import Verif.Float.DistinctProps
/-! # C47: different numbers have different hexadecimal texts -/
namespace Verif.Float
open Verif Verif.IntPrint

/-- Characters of hexadecimal digits. -/
def IsHexDig (c : Nat) : Prop := (48 ≤ c ∧ c ≤ 57) ∨ (65 ≤ c ∧ c ≤ 70) ∨ (97 ≤ c ∧ c ≤ 102)

theorem hexDig_char (u : Bool) (d : Nat) (h : d < 16) : IsHexDig (digitChar u d) := by
  unfold IsHexDig digitChar
  split
  · omega
  · cases u <;> simp <;> omega

theorem hexDig_map (u : Bool) (l : List Nat) (h : ∀ d ∈ l, d < 16) : ∀ c ∈ l.map (digitChar u), IsHexDig c := by
  intro c hc
  rw [List.mem_map] at hc
  obtain ⟨d, hd, rfl⟩ := hc
  exact hexDig_char u d (h d hd)

theorem digitChar_inj16 (u : Bool) (d d' : Nat) (h : d < 16) (h' : d' < 16) (e : digitChar u d = digitChar u d') : d = d' := by
  unfold digitChar at e
  cases u <;> simp at e <;> split at e <;> split at e <;> omega

theorem map_hexDig_inj (u : Bool) : ∀ (l l' : List Nat), (∀ d ∈ l, d < 16) → (∀ d ∈ l', d < 16) →
    l.map (digitChar u) = l'.map (digitChar u) → l = l' := by
  intro l
  induction l with
  | nil => intro l' _ _ h; cases l' <;> simp_all
  | cons x t ih =>
    intro l' h1 h2 h
    cases l' with
    | nil => simp at h
    | cons y w =>
      simp only [List.map_cons, List.cons.injEq] at h
      rw [ih w (fun d hd => h1 d (List.mem_cons_of_mem _ hd)) (fun d hd => h2 d (List.mem_cons_of_mem _ hd)) h.2,
        digitChar_inj16 u x y (h1 x (by simp)) (h2 y (by simp)) h.1]

theorem decText_inj (n n' : Nat) (h : decText n = decText n') : n = n' := by
  have i := numeral_isNumeral (b := 10) (by norm_num) n
  have i' := numeral_isNumeral (b := 10) (by norm_num) n'
  have := map_dig_inj _ _ i.digits_lt i'.digits_lt h
  rw [← i.value, this, i'.value]

theorem hexText_inj (u c uP : Bool) (lead lead' : Nat) (frac frac' : List Nat) (e e' : Int) (hl : lead ≤ 1) (hl' : lead' ≤ 1)
    (hf : ∀ d ∈ frac, d < 16) (hf' : ∀ d ∈ frac', d < 16)
    (h : Spec.hexText u c uP lead frac e = Spec.hexText u c uP lead' frac' e') : lead = lead' ∧ frac = frac' ∧ e = e' := by
  unfold Spec.hexText at h
  simp only [List.cons_append, List.nil_append, List.append_assoc, List.cons.injEq] at h
  obtain ⟨h1, h2⟩ := h
  refine ⟨digitChar_inj16 u _ _ (by omega) (by omega) h1, ?_⟩
  have fin : ∀ (q q' : Int), ((if uP then 80 else 112) :: (if q < 0 then 45 else 43) :: decText q.natAbs : List Nat) =
      (if uP then 80 else 112) :: (if q' < 0 then 45 else 43) :: decText q'.natAbs → q = q' := by
    intro q q' hq
    simp only [List.cons.injEq, true_and] at hq
    obtain ⟨hs, hd⟩ := hq
    have hn := decText_inj _ _ hd
    have hsg : q < 0 ↔ q' < 0 := by
      by_cases p : q < 0 <;> by_cases r : q' < 0 <;> simp only [p, r, if_true, if_false] at hs ⊢ <;> omega
    omega
  have hp : ∀ x, x = (if uP then 80 else 112 : Nat) → ¬ IsHexDig x := by
    rintro x rfl
    unfold IsHexDig
    cases uP <;> simp
  have hpc : (if c then 44 else 46 : Nat) ≠ if uP then 80 else 112 := by cases c <;> cases uP <;> simp
  by_cases p : frac = []
  · by_cases q : frac' = []
    · rw [if_pos p, if_pos q] at h2
      exact ⟨by rw [p, q], fin _ _ (by simpa using h2)⟩
    · rw [if_pos p, if_neg q] at h2
      simp only [List.nil_append, List.cons_append, List.cons.injEq] at h2
      exact absurd h2.1.symm hpc
  · by_cases q : frac' = []
    · rw [if_neg p, if_pos q] at h2
      simp only [List.nil_append, List.cons_append, List.cons.injEq] at h2
      exact absurd h2.1 hpc
    · rw [if_neg p, if_neg q] at h2
      simp only [List.cons_append, List.cons.injEq, true_and] at h2
      obtain ⟨k1, k2⟩ := split_unique IsHexDig _ _ _ _ (hexDig_map u _ hf) (hexDig_map u _ hf')
        (by intro x hx; exact hp x (by simpa using hx.symm)) (by intro x hx; exact hp x (by simpa using hx.symm)) h2
      exact ⟨map_hexDig_inj u _ _ hf hf' k1, fin _ _ k2⟩

/-- Equal hexadecimal texts, equal numbers. -/
theorem isHexFloat_inj {mb eb : Nat} {sb us p u uD uP c : Bool} {b b' : Nat} {txt : List Nat}
    (hb : b < 2 ^ (mb + eb + 1)) (hb' : b' < 2 ^ (mb + eb + 1)) (hn : ¬ isNaN mb eb b) (hn' : ¬ isNaN mb eb b')
    (h : Spec.IsHexFloat mb eb sb us p u uD uP c b txt) (h' : Spec.IsHexFloat mb eb sb us p u uD uP c b' txt) : b = b' := by
  have hfl : ∀ n, Spec.fracField mb n < 2 ^ mb := fun n => Nat.mod_lt _ (Nat.pow_pos (by norm_num))
  have cases : ∀ n, ¬ isNaN mb eb n → Spec.IsHexFloat mb eb sb us p u uD uP c n txt →
      ∃ body, txt = Spec.signText p (Spec.signBit mb eb n) ++ body ∧
        ((body = Spec.specialText u false ∧ Spec.expField mb eb n = 2 ^ eb - 1 ∧ Spec.fracField mb n = 0) ∨
          (∃ y, body = (if sb then [48, if us then 88 else 120] else []) ++ y ∧ Spec.IsHexText uD c uP (Spec.absValue mb eb n) y)) := by
    intro n hnn hx
    unfold Spec.IsHexFloat at hx
    split at hx
    · rename_i he
      have hf : Spec.fracField mb n = 0 := by by_contra hc; exact hnn ⟨he, hc⟩
      exact ⟨_, hx, Or.inl ⟨by simp [hf], he, hf⟩⟩
    · obtain ⟨body, h1, h2⟩ := hx
      exact ⟨_, by rw [h1, List.append_assoc], Or.inr ⟨body, rfl, h2⟩⟩
  have hsp : (Spec.specialText u false).head? = some 73 ∨ (Spec.specialText u false).head? = some 105 := by
    cases u <;> simp [Spec.specialText]
  have hhead : ∀ (y : List Nat) (v : ℚ), Spec.IsHexText uD c uP v y →
      ∃ d, ((if sb then [48, if us then 88 else 120] else []) ++ y : List Nat).head? = some d ∧ 48 ≤ d ∧ d ≤ 49 := by
    intro y v hy
    obtain ⟨lead, frac, e, rfl, hl, -⟩ := hy
    cases sb with
    | true => exact ⟨48, by simp, by omega, by omega⟩
    | false =>
      refine ⟨digitChar uD lead, by simp [Spec.hexText], ?_⟩
      unfold digitChar
      rw [if_pos (by omega)]
      omega
  obtain ⟨z, e1, c1⟩ := cases b hn h
  obtain ⟨z', e2, c2⟩ := cases b' hn' h'
  have hns : ∀ (w : List Nat) (n : Nat), ((w = Spec.specialText u false ∧ Spec.expField mb eb n = 2 ^ eb - 1 ∧ Spec.fracField mb n = 0) ∨
          (∃ y, w = (if sb then [48, if us then 88 else 120] else []) ++ y ∧ Spec.IsHexText uD c uP (Spec.absValue mb eb n) y)) →
      ∀ x, w.head? = some x → ¬ (x = 43 ∨ x = 45) := by
    intro w n hc x hx
    rcases hc with ⟨rfl, -⟩ | ⟨y, rfl, hy⟩
    · rcases hsp with g | g <;> rw [g, Option.some.injEq] at hx <;> omega
    · obtain ⟨d, g1, g2⟩ := hhead y _ hy
      rw [g1, Option.some.injEq] at hx
      omega
  obtain ⟨hs, rfl⟩ := sign_split p _ _ z z' (hns _ _ c1) (hns _ _ c2) (e1.symm.trans e2)
  have hno : ∀ (y : List Nat) (v : ℚ), Spec.IsHexText uD c uP v y →
      Spec.specialText u false ≠ (if sb then [48, if us then 88 else 120] else []) ++ y := by
    intro y v hy e
    obtain ⟨d, g1, g2⟩ := hhead y _ hy
    rw [← e] at g1
    rcases hsp with g | g <;> rw [g, Option.some.injEq] at g1 <;> omega
  rcases c1 with ⟨r1, r2, r3⟩ | ⟨y, r1, r2⟩ <;> rcases c2 with ⟨s1, s2, s3⟩ | ⟨y', s1, s2⟩
  · exact bits_of_fields mb eb b b' hb hb' hs (r2.trans s2.symm) (r3.trans s3.symm)
  · exact absurd (r1.symm.trans s1) (hno _ _ s2)
  · exact absurd (s1.symm.trans r1) (hno _ _ r2)
  · have hy : y = y' := List.append_cancel_left (r1.symm.trans s1)
    subst hy
    obtain ⟨l1, f1, x1, q1, a1, d1, -, v1⟩ := r2
    obtain ⟨l2, f2, x2, q2, a2, d2, -, v2⟩ := s2
    obtain ⟨rfl, rfl, rfl⟩ := hexText_inj uD c uP _ _ _ _ _ _ a1 a2 d1 d2 (q1.symm.trans q2)
    obtain ⟨k1, k2⟩ := mag_inj mb eb _ _ _ _ (hfl b) (hfl b') (v1.symm.trans v2)
    exact bits_of_fields mb eb b b' hb hb' hs k1 k2

theorem printHex_letters (t : Trait) (ht : Supported t) (f : Flags) (hl : f.upperE = f.upper) (m : Mem) (iter bits : Nat) :
    ∃ txt, printHex t f m iter bits = some (store m iter txt, iter + txt.length) ∧
      Spec.IsHexFloat t.mbits t.ebits f.showbase f.upperShow f.showpos f.upper (f.upper && decide (t.mw ≠ 128)) f.upper f.comma
        bits txt := by
  have hx := expField_lt t.mbits t.ebits bits
  obtain ⟨txt, h1, h2, -⟩ := printHex_eq t
    (by rcases ht with h | h | h | h <;> subst h
        exacts [hexGood16, hexGood32, hexGood64, hexGood128]) f m iter bits
    (by
      intro _ _
      generalize Spec.expField t.mbits t.ebits bits = e at *
      rcases ht with h | h | h | h <;> subst h <;> norm_num [tF16, tF32, tF64, tF128, Spec.bias] at hx ⊢ <;>
        split <;> omega)
  refine ⟨txt, h1, ?_⟩
  rw [hl, ite_self] at h2
  exact h2

/-- **C47, different numbers, different texts.** For every supported format and all flags with the exponent letter in the case of the
digits: two numbers that are no not-a-numbers and are printed as the same text, wherever, are the same (`-0` and `0` differ
as well). -/
theorem c47_hexfloat_distinct (t : Trait) (ht : Supported t) (f : Flags)
    (hl : f.upperE = f.upper) (m m' : Mem) (iter iter' b b' : Nat)
    (hb : b < 2 ^ (t.mbits + t.ebits + 1)) (hb' : b' < 2 ^ (t.mbits + t.ebits + 1)) (hn : ¬ isNaN t.mbits t.ebits b)
    (hn' : ¬ isNaN t.mbits t.ebits b') (r r' : Mem × Nat) (hr : printHex t f m iter b = some r)
    (hr' : printHex t f m' iter' b' = some r') (h : load r.1 iter (r.2 - iter) = load r'.1 iter' (r'.2 - iter')) : b = b' := by
  obtain ⟨s, h1, h2⟩ := printHex_letters t ht f hl m iter b
  obtain ⟨s', h1', h2'⟩ := printHex_letters t ht f hl m' iter' b'
  rw [hr, Option.some.injEq] at h1
  rw [hr', Option.some.injEq] at h1'
  have := same_text h1 h1' h
  subst this
  exact isHexFloat_inj hb hb' hn hn' h2 h2'

/-- The hypotheses are met by `1.0` and the next `double`, by the smallest subnormal and by both zeros. -/
example : Supported tF64 ∧ ¬ isNaN 52 11 0x3FF0000000000000 ∧ ¬ isNaN 52 11 0x3FF0000000000001 ∧ ¬ isNaN 52 11 1 ∧
    ¬ isNaN 52 11 0 ∧ ¬ isNaN 52 11 (2 ^ 63) := by
  refine ⟨Or.inr (Or.inr (Or.inl rfl)), ?_⟩
  unfold isNaN; decide +kernel

end Verif.Float
