import Verif.Arith.Lemmas2
/-! The shift-and-subtract loop of `udivmod`. -/
namespace Verif.Arith

/-- The number written in two words. -/
def two (w l h : Nat) : Nat := l + 2 ^ w * h

theorem two_lt {w l h : Nat} (hl : l < 2 ^ w) (hh : h < 2 ^ w) : two w l h < 2 ^ w * 2 ^ w := by
  unfold two
  calc l + 2 ^ w * h < 2 ^ w + 2 ^ w * h := by omega
    _ = 2 ^ w * (h + 1) := by ring
    _ ≤ 2 ^ w * 2 ^ w := Nat.mul_le_mul_left _ hh

theorem two_inj {w l h l' h' : Nat} (hl : l < 2 ^ w) (hl' : l' < 2 ^ w) (e : two w l h = two w l' h') : l = l' ∧ h = h' := by
  unfold two at e
  have e1 := congrArg (· % 2 ^ w) e
  have e2 := congrArg (· / 2 ^ w) e
  simp only [Nat.add_mul_mod_self_left, Nat.mod_eq_of_lt hl, Nat.mod_eq_of_lt hl'] at e1
  simp only [Nat.add_mul_div_left _ _ (pow_pos' w), Nat.div_eq_of_lt hl, Nat.div_eq_of_lt hl', Nat.zero_add] at e2
  exact ⟨e1, e2⟩

/-- A two-word subtraction. -/
theorem sub2 (w al ah bl bh : Nat) (hal : al < 2 ^ w) (hah : ah < 2 ^ w) (hbl : bl < 2 ^ w) (hbh : bh < 2 ^ w) :
    let c := decide (al < bl + 0)
    let l := (al + 2 * 2 ^ w - bl - 0) % 2 ^ w
    let h := (ah + 2 * 2 ^ w - bh - c.toNat) % 2 ^ w
    let k := decide (ah < bh + c.toNat)
    k = decide (two w al ah < two w bl bh) ∧ l < 2 ^ w ∧ h < 2 ^ w ∧
      two w l h + two w bl bh = two w al ah + 2 ^ w * 2 ^ w * k.toNat := by
  intro c l h k
  have hp := pow_pos' w
  have hl : l < 2 ^ w := Nat.mod_lt _ hp
  have hh : h < 2 ^ w := Nat.mod_lt _ hp
  have hcle := bool_le c
  have el : l + bl = al + 2 ^ w * c.toNat := by
    show (al + 2 * 2 ^ w - bl - 0) % 2 ^ w + bl = al + 2 ^ w * (decide (al < bl + 0)).toNat
    by_cases hlt : al < bl
    · rw [show al + 2 * 2 ^ w - bl - 0 = (al + 2 ^ w - bl) + 2 ^ w by omega, Nat.add_mod_right,
        Nat.mod_eq_of_lt (by omega : al + 2 ^ w - bl < 2 ^ w)]
      simp [hlt]; omega
    · rw [show al + 2 * 2 ^ w - bl - 0 = (al - bl) + 2 ^ w * 2 by omega, Nat.add_mul_mod_self_left,
        Nat.mod_eq_of_lt (by omega : al - bl < 2 ^ w)]
      simp [hlt]; omega
  have eh : h + bh + c.toNat = ah + 2 ^ w * k.toNat := by
    show (ah + 2 * 2 ^ w - bh - c.toNat) % 2 ^ w + bh + c.toNat = ah + 2 ^ w * (decide (ah < bh + c.toNat)).toNat
    clear el
    clear_value c
    generalize c.toNat = c at *
    by_cases hlt : ah < bh + c
    · rw [show ah + 2 * 2 ^ w - bh - c = (ah + 2 ^ w - bh - c) + 2 ^ w by omega, Nat.add_mod_right,
        Nat.mod_eq_of_lt (by omega : ah + 2 ^ w - bh - c < 2 ^ w)]
      simp [hlt]; omega
    · rw [show ah + 2 * 2 ^ w - bh - c = (ah - bh - c) + 2 ^ w * 2 by omega, Nat.add_mul_mod_self_left,
        Nat.mod_eq_of_lt (by omega : ah - bh - c < 2 ^ w)]
      simp [hlt]; omega
  clear_value c l h k
  have key : two w l h + two w bl bh = two w al ah + 2 ^ w * 2 ^ w * k.toNat := by
    unfold two
    have : 2 ^ w * (h + bh + c.toNat) = 2 ^ w * (ah + 2 ^ w * k.toNat) := by rw [eh]
    linarith
  refine ⟨?_, hl, hh, key⟩
  have b1 := two_lt hl hh
  have b2 := two_lt hbl hbh
  have b3 := two_lt hal hah
  generalize two w l h = X at *
  generalize two w bl bh = Y at *
  generalize two w al ah = Z at *
  generalize 2 ^ w * 2 ^ w = M at *
  cases k
  · simp at key ⊢; omega
  · simp at key ⊢; omega

/-- A two-word addition. -/
theorem add2 (w al ah bl bh : Nat) :
    let c := decide (2 ^ w ≤ al + bl + 0)
    let l := (al + bl + 0) % 2 ^ w
    let h := (ah + bh + c.toNat) % 2 ^ w
    al < 2 ^ w → bl < 2 ^ w → ah < 2 ^ w → bh < 2 ^ w →
    l < 2 ^ w ∧ h < 2 ^ w ∧ two w l h = (two w al ah + two w bl bh) % (2 ^ w * 2 ^ w) := by
  intro c l h hal hbl hah hbh
  have hp := pow_pos' w
  have hl : l < 2 ^ w := Nat.mod_lt _ hp
  have hh : h < 2 ^ w := Nat.mod_lt _ hp
  have el : al + bl = l + 2 ^ w * c.toNat := by
    show al + bl = (al + bl + 0) % 2 ^ w + 2 ^ w * (decide (2 ^ w ≤ al + bl + 0)).toNat
    by_cases hlt : 2 ^ w ≤ al + bl
    · rw [show al + bl + 0 = (al + bl - 2 ^ w) + 2 ^ w by omega, Nat.add_mod_right,
        Nat.mod_eq_of_lt (by omega : al + bl - 2 ^ w < 2 ^ w)]
      have : decide (2 ^ w ≤ al + bl - 2 ^ w + 2 ^ w) = true := by simp
      rw [this]; simp; omega
    · rw [Nat.mod_eq_of_lt (by omega : al + bl + 0 < 2 ^ w)]
      have : decide (2 ^ w ≤ al + bl + 0) = false := by simp; omega
      rw [this]; simp
  have eh := Nat.mod_add_div (ah + bh + c.toNat) (2 ^ w)
  refine ⟨hl, hh, ?_⟩
  have e : two w al ah + two w bl bh = two w l h + 2 ^ w * 2 ^ w * ((ah + bh + c.toNat) / 2 ^ w) := by
    show al + 2 ^ w * ah + (bl + 2 ^ w * bh) = l + 2 ^ w * ((ah + bh + c.toNat) % 2 ^ w) + _
    clear_value c l h
    have : 2 ^ w * ((ah + bh + c.toNat) % 2 ^ w + 2 ^ w * ((ah + bh + c.toNat) / 2 ^ w)) = 2 ^ w * (ah + bh + c.toNat) := by
      rw [eh]
    generalize (ah + bh + c.toNat) % 2 ^ w = x at *
    generalize (ah + bh + c.toNat) / 2 ^ w = y at *
    linarith
  rw [e, Nat.add_mul_mod_self_left, Nat.mod_eq_of_lt (two_lt hl hh)]

/-- One word of an addition and of a subtraction. -/
def add1 (w a b : Nat) (c : Bool) : Nat × Bool := ((a + b + c.toNat) % 2 ^ w, decide (2 ^ w ≤ a + b + c.toNat))
def sub1 (w a b : Nat) (c : Bool) : Nat × Bool := ((a + 2 * 2 ^ w - b - c.toNat) % 2 ^ w, decide (a < b + c.toNat))

theorem sub2' (w al ah bl bh : Nat) (hal : al < 2 ^ w) (hah : ah < 2 ^ w) (hbl : bl < 2 ^ w) (hbh : bh < 2 ^ w) :
    let x := sub1 w al bl false
    let y := sub1 w ah bh x.2
    y.2 = decide (two w al ah < two w bl bh) ∧ x.1 < 2 ^ w ∧ y.1 < 2 ^ w ∧
      two w x.1 y.1 + two w bl bh = two w al ah + 2 ^ w * 2 ^ w * y.2.toNat := sub2 w al ah bl bh hal hah hbl hbh

theorem add2' (w al ah bl bh : Nat) (hal : al < 2 ^ w) (hbl : bl < 2 ^ w) (hah : ah < 2 ^ w) (hbh : bh < 2 ^ w) :
    let x := add1 w al bl false
    let y := add1 w ah bh x.2
    x.1 < 2 ^ w ∧ y.1 < 2 ^ w ∧ two w x.1 y.1 = (two w al ah + two w bl bh) % (2 ^ w * 2 ^ w) :=
  add2 w al ah bl bh hal hbl hah hbh

theorem addc_eq (w : Nat) (plain : Bool) (hw : 0 < w) (a b : Nat) (cin : Bool) (ha : a < 2 ^ w) (hb : b < 2 ^ w) :
    (if plain then addcPlain w else addcBuiltin w) a b cin =
      add1 w a b cin := by
  cases plain
  · exact addcBuiltin_eq w a b cin ha hb
  · exact addcPlain_eq w a b cin ha hb hw

theorem subc_eq (w : Nat) (plain : Bool) (hw : 0 < w) (a b : Nat) (cin : Bool) (ha : a < 2 ^ w) (hb : b < 2 ^ w) :
    (if plain then subcPlain w else subcBuiltin w) a b cin =
      sub1 w a b cin := by
  cases plain
  · exact subcBuiltin_eq w a b cin ha hb
  · exact subcPlain_eq w a b cin ha hb hw

theorem and_mask (w x : Nat) (c : Bool) (hx : x < 2 ^ w) : x &&& ((2 ^ w - c.toNat) % 2 ^ w) = if c then x else 0 := by
  cases c
  · simp
  · simp only [Bool.toNat_true, if_true]
    rw [Nat.mod_eq_of_lt (by have := pow_pos' w; omega : 2 ^ w - 1 < 2 ^ w), Nat.and_two_pow_sub_one_eq_mod,
      Nat.mod_eq_of_lt hx]

/-- Words that fit. -/
def DivSt.Ok (w : Nat) (s : DivSt) : Prop := s.nl < 2 ^ w ∧ s.nh < 2 ^ w ∧ s.dl < 2 ^ w ∧ s.dh < 2 ^ w ∧ s.q < 2 ^ w

theorem half2 (w dl dh : Nat) (hw : 0 < w) (hdl : dl < 2 ^ w) (hdh : dh < 2 ^ w) :
    shiftRight w dl dh 1 < 2 ^ w ∧ two w (shiftRight w dl dh 1) (dh / 2) = two w dl dh / 2 := by
  unfold shiftRight
  rw [if_neg (by decide)]
  have e : 2 ^ w = 2 * 2 ^ (w - 1) := by rw [← pow_succ']; congr 1; omega
  have h1 : dl / 2 ^ 1 < 2 ^ (w - 1) := by rw [pow_one]; rw [e] at hdl; omega
  have h2 : dh * 2 ^ (w - 1) % 2 ^ w = dh % 2 * 2 ^ (w - 1) := by
    rw [e, Nat.mul_mod_mul_right]
  rw [h2, mul_or _ _ _ h1, pow_one]
  unfold two
  rw [e]
  generalize 2 ^ (w - 1) = M at *
  rw [pow_one] at h1
  have hm : dh % 2 = 0 ∨ dh % 2 = 1 := by omega
  have hdm := Nat.mod_add_div dh 2
  constructor
  · rcases hm with h | h <;> rw [h] <;> omega
  · have e2 : M * (dh % 2) + 2 * M * (dh / 2) = M * dh := by
      conv_rhs => rw [← hdm]
      ring
    have e3 : (dl + 2 * M * dh) / 2 = dl / 2 + M * dh := by
      rw [Nat.mul_assoc, Nat.add_mul_div_left _ _ (by decide : 0 < 2)]
    rw [e3, ← e2]; ring

theorem divBody_eq (w : Nat) (plain : Bool) (hw : 0 < w) (s : DivSt) (hs : s.Ok w) :
    (divBody w plain s).Ok w ∧
    two w (divBody w plain s).dl (divBody w plain s).dh = two w s.dl s.dh / 2 ∧
    (two w s.dl s.dh ≤ two w s.nl s.nh →
      two w (divBody w plain s).nl (divBody w plain s).nh = two w s.nl s.nh - two w s.dl s.dh ∧
      (divBody w plain s).q = (2 * s.q + 1) % 2 ^ w) ∧
    (two w s.nl s.nh < two w s.dl s.dh →
      two w (divBody w plain s).nl (divBody w plain s).nh = two w s.nl s.nh ∧
      (divBody w plain s).q = (2 * s.q) % 2 ^ w) := by
  obtain ⟨h1, h2, h3, h4, h5⟩ := hs
  unfold divBody
  simp only
  rw [subc_eq w plain hw _ _ _ h1 h3]
  rw [subc_eq w plain hw _ _ _ h2 h4]
  obtain ⟨a1, a2, a3, a4⟩ := sub2' w s.nl s.nh s.dl s.dh h1 h2 h3 h4
  generalize sub1 w s.nl s.dl false = X at *
  generalize sub1 w s.nh s.dh X.2 = Y at *
  generalize X.1 = L at *
  generalize Y.1 = H at *
  generalize Y.2 = k at *
  rw [and_mask w _ k h3, and_mask w _ k h4]
  have t1 : (if k = true then s.dl else 0) < 2 ^ w := by split; exact h3; exact pow_pos' w
  have t2 : (if k = true then s.dh else 0) < 2 ^ w := by split; exact h4; exact pow_pos' w
  rw [addc_eq w plain hw _ _ _ a2 t1, addc_eq w plain hw _ _ _ a3 t2, addc_eq w plain hw _ _ _ h5 h5]
  obtain ⟨b1, b2, b3⟩ := add2' w L H (if k = true then s.dl else 0) (if k = true then s.dh else 0) a2 t1 a3 t2
  obtain ⟨d1, d2⟩ := half2 w s.dl s.dh hw h3 h4
  have hp := pow_pos' w
  refine ⟨⟨b1, b2, d1, ?_, Nat.mod_lt _ hp⟩, d2, ?_, ?_⟩
  · show s.dh / 2 < 2 ^ w
    omega
  · intro hle
    have hk0 : k = false := by rw [a1]; simp; exact hle
    subst hk0
    simp only [Bool.not_false, Bool.toNat_true, Bool.toNat_false, Nat.mul_zero, Nat.add_zero] at *
    refine ⟨?_, by simp only [add1, Bool.toNat_true]; rw [show s.q + s.q + 1 = 2 * s.q + 1 by omega]⟩
    simp only [Bool.false_eq_true, if_false] at b3 ⊢
    rw [b3, show two w 0 0 = 0 by simp [two], Nat.add_zero, Nat.mod_eq_of_lt (two_lt a2 a3)]
    omega
  · intro hlt
    have hk1 : k = true := by rw [a1]; simp; exact hlt
    subst hk1
    simp only [Bool.not_true, Bool.toNat_true, Bool.toNat_false, Nat.mul_one, Nat.add_zero] at *
    refine ⟨?_, by simp only [add1, Bool.toNat_false]; rw [show s.q + s.q + 0 = 2 * s.q by omega]⟩
    simp only [if_true] at b3 ⊢
    rw [b3, a4, Nat.add_mod_right, Nat.mod_eq_of_lt (two_lt h1 h2)]

/-- The loop run `k+1` times with the divisor shifted by `k`. -/
theorem divLoop_eq (w : Nat) (plain : Bool) (hw : 0 < w) (d : Nat) (hd : 0 < d) : ∀ k (s : DivSt), s.Ok w →
    two w s.dl s.dh = d * 2 ^ k → two w s.nl s.nh < d * 2 ^ (k + 1) → s.q * 2 ^ (k + 1) + two w s.nl s.nh / d < 2 ^ w →
    (divLoop w plain (k + 1) s).Ok w ∧
    (divLoop w plain (k + 1) s).q = s.q * 2 ^ (k + 1) + two w s.nl s.nh / d ∧
    two w (divLoop w plain (k + 1) s).nl (divLoop w plain (k + 1) s).nh = two w s.nl s.nh % d := by
  intro k
  induction k with
  | zero =>
    intro s hs hD hN hq
    obtain ⟨o, _, h1, h2⟩ := divBody_eq w plain hw s hs
    simp only [divLoop]
    refine ⟨o, ?_⟩
    simp only [pow_zero, Nat.mul_one, Nat.zero_add, pow_one] at hD hN hq ⊢
    rw [hD] at h1 h2
    generalize two w s.nl s.nh = N at *
    by_cases hle : d ≤ N
    · obtain ⟨e1, e2⟩ := h1 hle
      have hdv : N / d = 1 := by
        rw [Nat.div_eq_iff hd]; omega
      rw [hdv] at hq ⊢
      rw [e1, e2, Nat.mod_eq_of_lt (by omega)]
      refine ⟨by omega, ?_⟩
      rw [Nat.mod_eq_sub_mod hle, Nat.mod_eq_of_lt (by omega)]
    · obtain ⟨e1, e2⟩ := h2 (by omega)
      have hdv : N / d = 0 := Nat.div_eq_of_lt (by omega)
      rw [hdv] at hq ⊢
      rw [e1, e2, Nat.mod_eq_of_lt (by omega)]
      exact ⟨by omega, (Nat.mod_eq_of_lt (by omega)).symm⟩
  | succ k ih =>
    intro s hs hD hN hq
    obtain ⟨o, e0, h1, h2⟩ := divBody_eq w plain hw s hs
    rw [divLoop]
    have eD : d * 2 ^ (k + 1) / 2 = d * 2 ^ k := by
      rw [pow_succ, ← Nat.mul_assoc, Nat.mul_div_cancel _ (by decide)]
    rw [hD, eD] at e0
    rw [hD] at h1 h2
    have ep : 2 ^ (k + 1 + 1) = 2 * 2 ^ (k + 1) := by rw [pow_succ']
    rw [ep] at hq hN ⊢
    have hqm : s.q * (2 * 2 ^ (k + 1)) = 2 * s.q * 2 ^ (k + 1) := by ring
    have hdm : d * (2 * 2 ^ (k + 1)) = 2 * (d * 2 ^ (k + 1)) := by ring
    rw [hqm] at hq ⊢
    rw [hdm] at hN
    have hP : 0 < 2 ^ (k + 1) := pow_pos' _
    generalize two w s.nl s.nh = N at *
    by_cases hle : d * 2 ^ (k + 1) ≤ N
    · obtain ⟨e1, e2⟩ := h1 hle
      have hdv : (N - d * 2 ^ (k + 1)) / d + 2 ^ (k + 1) = N / d := by
        conv_rhs => rw [show N = (N - d * 2 ^ (k + 1)) + d * 2 ^ (k + 1) by omega, Nat.add_mul_div_left _ _ hd]
      have hmod : (N - d * 2 ^ (k + 1)) % d = N % d := by
        conv_rhs => rw [show N = (N - d * 2 ^ (k + 1)) + d * 2 ^ (k + 1) by omega, Nat.add_mul_mod_self_left]
      have hqlt : 2 * s.q + 1 < 2 ^ w := by
        have : (2 * s.q + 1) * 1 ≤ (2 * s.q + 1) * 2 ^ (k + 1) := Nat.mul_le_mul_left _ hP
        rw [Nat.mul_one, Nat.add_mul (2 * s.q) 1 (2 ^ (k + 1))] at this
        clear e2 h1 h2 hqm hdm ep eD hD e0
        generalize 2 ^ (k + 1) = P at *
        generalize 2 * s.q * P = Z at *
        generalize d * P = Z2 at *
        generalize (N - Z2) / d = Z3 at *
        omega
      rw [Nat.mod_eq_of_lt hqlt] at e2
      obtain ⟨i1, i2, i3⟩ := ih (divBody w plain s) o e0 (by rw [e1]; omega) (by rw [e1, e2, Nat.add_mul, Nat.one_mul]; omega)
      refine ⟨i1, ?_, ?_⟩
      · rw [i2, e1, e2, Nat.add_mul, Nat.one_mul]; omega
      · rw [i3, e1, hmod]
    · obtain ⟨e1, e2⟩ := h2 (by omega)
      have hqlt : 2 * s.q < 2 ^ w := by
        have : (2 * s.q) * 1 ≤ (2 * s.q) * 2 ^ (k + 1) := Nat.mul_le_mul_left _ hP
        rw [Nat.mul_one] at this
        generalize 2 * s.q * 2 ^ (k + 1) = Z at *
        generalize N / d = Z3 at *
        omega
      rw [Nat.mod_eq_of_lt hqlt] at e2
      obtain ⟨i1, i2, i3⟩ := ih (divBody w plain s) o e0 (by rw [e1]; omega) (by rw [e1, e2]; omega)
      refine ⟨i1, ?_, ?_⟩
      · rw [i2, e1, e2]
      · rw [i3, e1]

theorem shiftLeft_two (w dl dh s : Nat) (hs : s < w) (hdl : dl < 2 ^ w) (hdh : dh * 2 ^ s < 2 ^ w) :
    dl * 2 ^ s % 2 ^ w < 2 ^ w ∧ shiftLeft w dl dh s < 2 ^ w ∧
      two w (dl * 2 ^ s % 2 ^ w) (shiftLeft w dl dh s) = two w dl dh * 2 ^ s := by
  have hp := pow_pos' w
  unfold shiftLeft
  have hpw : 2 ^ w = 2 ^ (w - s) * 2 ^ s := by rw [← pow_add]; congr 1; omega
  have hdv : dl / 2 ^ (w - s) < 2 ^ s := by
    rw [Nat.div_lt_iff_lt_mul (pow_pos' _), Nat.mul_comm, ← hpw]; exact hdl
  have e : (if s = 0 then dh else (dh * 2 ^ s % 2 ^ w) ||| (dl / 2 ^ (w - s))) = dl / 2 ^ (w - s) + 2 ^ s * dh := by
    by_cases h0 : s = 0
    · subst h0; simp [Nat.div_eq_of_lt hdl]
    · rw [if_neg h0, Nat.mod_eq_of_lt hdh, mul_or _ _ _ hdv]
  rw [e]
  refine ⟨Nat.mod_lt _ hp, ?_, ?_⟩
  · have : dh + 1 ≤ 2 ^ (w - s) := by
      rw [hpw] at hdh
      exact Nat.lt_of_mul_lt_mul_right hdh
    calc dl / 2 ^ (w - s) + 2 ^ s * dh < 2 ^ s + 2 ^ s * dh := by omega
      _ = (dh + 1) * 2 ^ s := by ring
      _ ≤ 2 ^ (w - s) * 2 ^ s := Nat.mul_le_mul_right _ this
      _ = 2 ^ w := hpw.symm
  · unfold two
    have h1 : dl * 2 ^ s % 2 ^ w = dl % 2 ^ (w - s) * 2 ^ s := by rw [hpw, Nat.mul_mod_mul_right]
    rw [h1]
    have := Nat.mod_add_div dl (2 ^ (w - s))
    conv_rhs => rw [← this]
    generalize dl % 2 ^ (w - s) = x at *
    generalize dl / 2 ^ (w - s) = y at *
    rw [hpw]; ring

/-- Division of two words by two words. -/
theorem udivmod_eq (h : Nat) (plain : Bool) (nl nh dl dh : Nat) (hh : 0 < h) (hnl : nl < 2 ^ (2 * h)) (hnh : nh < 2 ^ (2 * h))
    (hdl : dl < 2 ^ (2 * h)) (hdh : dh < 2 ^ (2 * h)) (hd : 0 < two (2 * h) dl dh) :
    ∃ ql qh rl rh, udivmod h plain nl nh dl dh = some (ql, qh, rl, rh) ∧
      ql < 2 ^ (2 * h) ∧ qh < 2 ^ (2 * h) ∧ rl < 2 ^ (2 * h) ∧ rh < 2 ^ (2 * h) ∧
      two (2 * h) ql qh = two (2 * h) nl nh / two (2 * h) dl dh ∧ two (2 * h) rl rh = two (2 * h) nl nh % two (2 * h) dl dh := by
  have hw : 0 < 2 * h := by omega
  unfold udivmod
  simp only
  generalize hwdef : 2 * h = w at *
  have hp := pow_pos' w
  by_cases h1 : nh < dh ∨ (dh = nh ∧ nl < dl)
  · rw [if_pos h1]
    refine ⟨0, 0, nl, nh, rfl, hp, hp, hnl, hnh, ?_⟩
    have hlt : two w nl nh < two w dl dh := by
      unfold two
      rcases h1 with h1 | ⟨h1, h2⟩
      · have : 2 ^ w * (nh + 1) ≤ 2 ^ w * dh := Nat.mul_le_mul_left _ h1
        rw [Nat.mul_add] at this
        omega
      · rw [h1]; omega
    rw [Nat.div_eq_of_lt hlt, Nat.mod_eq_of_lt hlt]
    exact ⟨by simp [two], rfl⟩
  · rw [if_neg h1]
    by_cases h2 : dh = 0
    · rw [if_pos h2]
      subst h2
      have hdl0 : 0 < dl := by simpa [two] using hd
      have eD : two w dl 0 = dl := by simp [two]
      rw [eD]
      have gen : ∀ u1, u1 < dl → udivBigBySmall h u1 nl dl = some ((u1 * 2 ^ w + nl) / dl, (u1 * 2 ^ w + nl) % dl) := by
        intro u1 hu
        have := udivBigBySmall_eq h u1 nl dl hh (by rw [hwdef]; exact hdl) hu (by rw [hwdef]; exact hnl)
        rw [hwdef] at this
        exact this
      have qlt : ∀ u1, u1 < dl → (u1 * 2 ^ w + nl) / dl < 2 ^ w := by
        intro u1 hu
        rw [Nat.div_lt_iff_lt_mul hdl0]
        calc u1 * 2 ^ w + nl < (u1 + 1) * 2 ^ w := by rw [Nat.add_mul]; omega
          _ ≤ dl * 2 ^ w := Nat.mul_le_mul_right _ hu
          _ = 2 ^ w * dl := Nat.mul_comm _ _
      by_cases h3 : nh < dl
      · rw [if_pos h3, gen nh h3]
        refine ⟨_, _, _, _, rfl, qlt nh h3, hp, lt_trans (Nat.mod_lt _ hdl0) hdl, hp, ?_⟩
        simp only [two, Nat.mul_zero, Nat.add_zero]
        rw [show nl + 2 ^ w * nh = nh * 2 ^ w + nl by ring]
        exact ⟨rfl, rfl⟩
      · have hml := Nat.mod_lt nh hdl0
        rw [if_neg h3, if_neg (by omega), gen _ hml]
        have hqh : nh / dl < 2 ^ w := lt_of_le_of_lt (Nat.div_le_self _ _) hnh
        refine ⟨_, _, _, _, rfl, qlt _ hml, hqh, lt_trans (Nat.mod_lt _ hdl0) hdl, hp, ?_⟩
        have e : two w nl nh = (nh % dl * 2 ^ w + nl) + dl * (2 ^ w * (nh / dl)) := by
          unfold two
          have := Nat.mod_add_div nh dl
          conv_lhs => rw [← this]
          ring
        rw [e, Nat.add_mul_div_left _ _ hdl0, Nat.add_mul_mod_self_left]
        simp only [two, Nat.mul_zero, Nat.add_zero]
        exact ⟨trivial, trivial⟩
    · rw [if_neg h2]
      have hge : dh ≤ nh := by omega
      obtain ⟨c1, c2, c3⟩ := clz_spec w dh (by omega) hdh
      obtain ⟨k1, k2, k3⟩ := clz_spec w nh (by omega) hnh
      have hcle : clz w nh ≤ clz w dh := by
        by_contra hcon
        have : 2 ^ (clz w dh + 1) ≤ 2 ^ clz w nh := Nat.pow_le_pow_right (by decide) (by omega)
        have h4 : dh * 2 ^ (clz w dh + 1) ≤ nh * 2 ^ clz w nh := Nat.mul_le_mul hge this
        have e : 2 ^ w = 2 * 2 ^ (w - 1) := by rw [← pow_succ']; congr 1; omega
        rw [pow_succ, ← Nat.mul_assoc] at h4
        omega
      generalize clz w dh = cd at *
      generalize clz w nh = cn at *
      have hsw : cd - cn < w := by omega
      have hds : dh * 2 ^ (cd - cn) < 2 ^ w :=
        lt_of_le_of_lt (Nat.mul_le_mul_left _ (Nat.pow_le_pow_right (by decide) (by omega))) c1
      obtain ⟨s1, s2, s3⟩ := shiftLeft_two w dl dh (cd - cn) hsw hdl hds
      have hN : two w nl nh < two w dl dh * 2 ^ (cd - cn + 1) := by
        -- compare after multiplying by 2^cn
        have hcnp := pow_pos' cn
        apply Nat.lt_of_mul_lt_mul_right (a := 2 ^ cn)
        have a1 : two w nl nh * 2 ^ cn < 2 ^ w * 2 ^ w := by
          have : nh + 1 ≤ 2 ^ (w - cn) := by
            have hpw : 2 ^ w = 2 ^ (w - cn) * 2 ^ cn := by rw [← pow_add]; congr 1; omega
            rw [hpw] at k1
            exact Nat.lt_of_mul_lt_mul_right k1
          calc two w nl nh * 2 ^ cn < (2 ^ w * (nh + 1)) * 2 ^ cn := by
                apply Nat.mul_lt_mul_of_pos_right _ hcnp
                unfold two; rw [Nat.mul_add]; omega
            _ ≤ (2 ^ w * 2 ^ (w - cn)) * 2 ^ cn := Nat.mul_le_mul_right _ (Nat.mul_le_mul_left _ this)
            _ = 2 ^ w * 2 ^ w := by rw [Nat.mul_assoc, ← pow_add, show w - cn + cn = w by omega]
        have a2 : 2 ^ w * 2 ^ w ≤ two w dl dh * 2 ^ (cd - cn + 1) * 2 ^ cn := by
          have e : 2 ^ w = 2 * 2 ^ (w - 1) := by rw [← pow_succ']; congr 1; omega
          calc 2 ^ w * 2 ^ w ≤ 2 ^ w * (2 * (dh * 2 ^ cd)) := by
                apply Nat.mul_le_mul_left
                omega
            _ = (2 ^ w * dh) * 2 ^ (cd - cn + 1) * 2 ^ cn := by
                rw [Nat.mul_assoc (2 ^ w * dh), ← pow_add, show cd - cn + 1 + cn = cd + 1 by omega]; ring
            _ ≤ _ := by
                apply Nat.mul_le_mul_right
                apply Nat.mul_le_mul_right
                unfold two; omega
        omega
      have hq : 0 * 2 ^ (cd - cn + 1) + two w nl nh / two w dl dh < 2 ^ w := by
        rw [Nat.zero_mul, Nat.zero_add]
        have : two w nl nh / two w dl dh < 2 ^ (cd - cn + 1) := by
          rw [Nat.div_lt_iff_lt_mul hd, Nat.mul_comm]; exact hN
        exact lt_of_lt_of_le this (Nat.pow_le_pow_right (by decide) (by omega))
      obtain ⟨o, r1, r2⟩ := divLoop_eq w plain hw (two w dl dh) hd (cd - cn)
        { nl := nl, nh := nh, dl := dl * 2 ^ (cd - cn) % 2 ^ w, dh := shiftLeft w dl dh (cd - cn), q := 0 }
        ⟨hnl, hnh, s1, s2, hp⟩ s3 hN hq
      obtain ⟨o1, o2, _, _, o5⟩ := o
      refine ⟨_, _, _, _, rfl, o5, hp, o1, o2, ?_, r2⟩
      rw [r1]
      simp [two]

end Verif.Arith
