import Verif.Float.HexLemmas
import Verif.Float.RtModel
/-! # The text of a decimal number `m10·10^e10` -/
namespace Verif.Float
open Verif Verif.IntPrint

/-- Digits printed one place to the right, the integer part moved back, the point put in. -/
theorem store_shift (m : Mem) (p : Nat) (a b : List Nat) (c : Nat) :
    store (store (store m (p + 1) (a ++ b)) p a) (p + a.length) [c] = store m p (a ++ c :: b) := by
  rw [store_store_append]
  funext x
  simp only [store_apply]
  by_cases h1 : p ≤ x
  · obtain ⟨i, rfl⟩ : ∃ i, x = p + i := ⟨x - p, by omega⟩
    rw [if_pos h1, if_pos h1, show p + i - p = i by omega]
    by_cases h2 : i < a.length
    · rw [List.getElem?_append_left h2, List.getElem?_append_left h2]
      simp [h2]
    · by_cases h3 : i = a.length
      · subst h3
        simp
      · have h4 : a.length + 1 ≤ i := by omega
        rw [List.getElem?_eq_none (by simp; omega), Option.getD_none, if_pos (by omega),
          List.getElem?_append_right (by omega), List.getElem?_append_right (by omega),
          show p + i - (p + 1) - a.length = i - a.length - 1 by omega]
        obtain ⟨k, hk⟩ : ∃ k, i - a.length = k + 1 := ⟨i - a.length - 1, by omega⟩
        rw [hk]; simp
  · rw [if_neg h1, if_neg h1, if_neg (by omega)]

theorem load_store_prefix (m : Mem) (p : Nat) (a b : List Nat) : load (store m p (a ++ b)) p a.length = a := by
  apply List.ext_getElem
  · simp [load]
  · intro i h1 h2
    simp only [load, List.getElem_map, List.getElem_range, store_apply]
    rw [if_pos (by omega), show p + i - p = i by omega, List.getElem?_append_left h2, List.getElem?_eq_getElem h2]
    rfl

theorem store_head (m : Mem) (p a : Nat) (b : List Nat) : store m p (a :: b) p = a := by
  simp [store_apply]

/-- The exponent writer with indentation. -/
theorem prtExponent_indent (mx : Nat) (h : mx = 2 ∨ mx = 3) (m : Mem) (iter u : Nat) (hu : u < 10 ^ mx) :
    prtExponent mx true m iter u =
      some (store m iter ((if u < 10 then [48] else []) ++ decText u),
        iter + ((if u < 10 then [48] else []) ++ decText u).length) := by
  have two : u < 100 → hundredFlt m iter u = some (store m iter ((if u < 10 then [48] else []) ++ decText u),
        iter + ((if u < 10 then [48] else []) ++ decText u).length) := by
    intro h100
    rw [hundredFlt_eq _ _ _ h100]
    by_cases h10 : u < 10
    · rw [if_pos h10, decText_small u h10]
      have : (padded 10 2 u).map (digitChar false) = [48, 48 + u] := by
        have a1 : u / 10 % 10 = 0 := by omega
        have a2 : u % 10 = u := by omega
        simp [padded, a1, a2, digitChar, h10]
      rw [this]; rfl
    · rw [if_neg h10, decText_padded 1 u (by norm_num; omega) (by norm_num; omega)]
      simp
  rcases h with rfl | rfl
  · simp only [prtExponent, if_true]
    exact two (by norm_num at hu; omega)
  · norm_num at hu
    simp only [prtExponent, if_true]
    by_cases h100 : u ≥ 100
    · rw [if_pos h100, store_one_hundred m iter u h100 hu, if_neg (by omega), List.nil_append]
    · rw [if_neg h100]; exact two (by omega)

/-- The exponent part. -/
def expPart (upperE : Bool) (e : Int) : List Nat :=
  [if upperE then 69 else 101, if e < 0 then 45 else 43] ++ (if e.natAbs < 10 then [48] else []) ++ decText e.natAbs

theorem fpE_eq (t : Trait) (ht : t.e10digits = 2 ∨ t.e10digits = 3) (upperE : Bool) (m : Mem) (iter : Nat) (e : Int)
    (he : e.natAbs < 10 ^ t.e10digits) :
    fpE t upperE m iter e = some (store m iter (expPart upperE e), iter + (expPart upperE e).length) := by
  have h1000 : 10 ^ t.e10digits ≤ 1000 := by rcases ht with h | h <;> rw [h] <;> norm_num
  unfold fpE expPart
  simp only []
  rw [absBits_eq e (by omega), prtExponent_indent _ ht _ _ _ he, store_store_at _ _ _ _ _ (by simp),
    store_store_at _ _ _ _ _ (by simp)]
  simp [Nat.add_assoc, Nat.add_comm]
  omega

theorem expPart_length (upperE : Bool) (e : Int) (k : Nat) (hk : 2 ≤ k) (he : e.natAbs < 10 ^ k) :
    (expPart upperE e).length ≤ 2 + k := by
  unfold expPart
  have h1 := (decText_len_le e.natAbs k (by omega)).mpr he
  by_cases h : e.natAbs < 10
  · rw [if_pos h, decText_small _ h]; simp; omega
  · rw [if_neg h]; simp; omega

theorem fillZeros_eq (m : Mem) (iter n : Nat) :
    fillZeros m iter n = (store m iter (List.replicate n 48), iter + n) := by
  induction n generalizing m iter with
  | zero => simp [fillZeros]
  | succ n ih =>
    rw [fillZeros, ih, store_store_at _ _ _ _ _ (by simp)]
    simp [List.replicate_succ]
    omega

/-- The two formats with round-trip printing. -/
def IsT (t : Trait) : Prop := t = tF64 ∨ t = tF32

/-- Most decimal digits of the significand. -/
def maxDig (t : Trait) : Nat := t.m10digits

theorem ryuLen_eq (t : Trait) (ht : IsT t) (m10 : Nat) (h : m10 < 10 ^ t.m10digits) :
    ryuLen t.mw m10 = (decText m10).length := by
  unfold ryuLen
  rw [decText, List.length_map]
  rcases ht with rfl | rfl
  · exact chainLen10_eq 17 m10 (by norm_num) h
  · exact chainLen10_eq 9 m10 (by norm_num) h

theorem ryuMainLen_eq (t : Trait) (ht : IsT t) (m : Mem) (iter m10 : Nat) (h : m10 < 10 ^ t.m10digits) :
    ryuMainLen t.mw m iter m10 (decText m10).length = some (store m iter (decText m10)) := by
  unfold ryuMainLen
  rcases ht with rfl | rfl
  · have h' : m10 < 10 ^ 17 := h
    rw [if_pos (show tF64.mw = 64 from rfl)]
    exact jeaMainLen64_ryu m iter m10 h'
  · have h' : m10 < 10 ^ (8 + 1) := h
    have h32 : m10 < 2 ^ 32 := lt_trans h' (by norm_num)
    rw [if_neg (show ¬ tF32.mw = 64 by norm_num [tF32]), jeaMainLen32, if_pos rfl]
    exact jeaHash_eq 8 (by norm_num) m iter m10 h' h32

/-- Digits of the significand. -/
abbrev dg (m10 : Nat) : List Nat := numeral 10 m10

theorem dg_cons (m10 : Nat) : ∃ h t, dg m10 = h :: t := by
  cases hd : dg m10 with
  | nil => exact absurd hd (numeral_ne_nil _ _)
  | cons h t => exact ⟨h, t, rfl⟩

theorem pt (comma : Bool) : point comma = if comma then 44 else 46 := rfl

theorem sciCommon_eq (t : Trait) (ht : IsT t) (comma : Bool) (m : Mem) (iter m10 : Nat) (h : m10 < 10 ^ t.m10digits) :
    sciCommon t.mw comma m iter m10 (decText m10).length =
      some (store m iter ([(dg m10).head!].map (digitChar false) ++ point comma :: (dg m10).tail.map (digitChar false)),
        iter + 1 + (decText m10).length) := by
  unfold sciCommon
  rw [ryuMainLen_eq t ht _ _ _ h]
  obtain ⟨x, l, hd⟩ := dg_cons m10
  have hdt : decText m10 = [digitChar false x] ++ l.map (digitChar false) := by
    unfold decText; rw [show numeral 10 m10 = x :: l from hd]; rfl
  simp only [Option.bind_eq_bind, Option.bind_some, hd, hdt]
  have := store_shift m iter [digitChar false x] (l.map (digitChar false)) (point comma)
  simp only [List.length_singleton] at this
  rw [show store m (iter + 1) ([digitChar false x] ++ l.map (digitChar false)) (iter + 1) = digitChar false x from
    store_head _ _ _ _, this]
  rfl

/-- Text in scientific form. -/
def sciText (comma upperE : Bool) (m10 : Nat) (e : Int) : List Nat :=
  Spec.decNumeral comma upperE [(dg m10).head!] (dg m10).tail (some e)

theorem sciText_eq (comma upperE : Bool) (m10 : Nat) (e : Int) :
    sciText comma upperE m10 e =
      (if m10 < 10 then [48 + m10] else
        [(dg m10).head!].map (digitChar false) ++ point comma :: (dg m10).tail.map (digitChar false)) ++
      expPart upperE e := by
  unfold sciText Spec.decNumeral expPart
  by_cases h : m10 < 10
  · rw [if_pos h]
    have : dg m10 = [m10] := numeral_small h
    simp [this, digitChar, h]
  · rw [if_neg h]
    have h1 : (dg m10).tail ≠ [] := by
      rw [show dg m10 = numeral 10 (m10 / 10) ++ [m10 % 10] from numeral_step (by norm_num) (by omega)]
      cases hd : numeral 10 (m10 / 10) with
      | nil => exact absurd hd (numeral_ne_nil _ _)
      | cons a l => simp
    rw [if_neg h1]
    simp [pt]

theorem sciText_length (comma upperE : Bool) (m10 : Nat) (e : Int) :
    (sciText comma upperE m10 e).length ≤ (decText m10).length + 1 + (expPart upperE e).length := by
  rw [sciText_eq]
  obtain ⟨x, l, hd⟩ := dg_cons m10
  have hl : (decText m10).length = l.length + 1 := by
    unfold decText; rw [show numeral 10 m10 = x :: l from hd]; simp
  by_cases h : m10 < 10
  · rw [if_pos h]; simp; omega
  · rw [if_neg h, hd]; simp; omega

theorem sciText_length_eq (comma upperE : Bool) (m10 : Nat) (e : Int) (he : e.natAbs < 1000) :
    (sciText comma upperE m10 e).length =
      (if (decText m10).length = 1 then 1 else (decText m10).length + 1) + if e.natAbs < 100 then 4 else 5 := by
  rw [sciText_eq, List.length_append]
  obtain ⟨x, l, hd⟩ := dg_cons m10
  have hl : (decText m10).length = l.length + 1 := by
    unfold decText; rw [show numeral 10 m10 = x :: l from hd]; simp
  have h1 : (expPart upperE e).length = if e.natAbs < 100 then 4 else 5 := by
    unfold expPart
    have h2 := decText_len_le e.natAbs 2 (by norm_num)
    have h3 := (decText_len_le e.natAbs 3 (by norm_num)).mpr he
    have h4 := decText_len_le e.natAbs 1 (by norm_num)
    have h5 := decText_len_pos e.natAbs
    norm_num at h2 h4
    by_cases h : e.natAbs < 10
    · rw [if_pos h, if_pos (show e.natAbs < 100 by omega)]; simp; omega
    · rw [if_neg h]; simp; split <;> omega
  rw [h1]
  congr 1
  by_cases h : m10 < 10
  · have := (decText_len_le m10 1 (by norm_num)).mpr (by simpa using h)
    rw [if_pos h, if_pos (by omega)]; rfl
  · have : ¬ (decText m10).length ≤ 1 := fun h1 => h (by simpa using (decText_len_le m10 1 (by norm_num)).mp h1)
    rw [if_neg h, if_neg (by omega), hd]; simp; omega

theorem sciDecision_eq (t : Trait) (ht : IsT t) (comma upperE : Bool) (m : Mem) (iter m10 : Nat) (e10 : Int)
    (h : m10 < 10 ^ t.m10digits) (he : (e10 + (decText m10).length - 1).natAbs < 10 ^ t.e10digits) :
    sciDecision t comma upperE m iter m10 e10 =
      some (store m iter (sciText comma upperE m10 (e10 + (decText m10).length - 1)),
        iter + (sciText comma upperE m10 (e10 + (decText m10).length - 1)).length) := by
  have hed : t.e10digits = 2 ∨ t.e10digits = 3 := by rcases ht with rfl | rfl <;> simp [tF64, tF32]
  unfold sciDecision
  rw [sciText_eq]
  by_cases h10 : m10 < 10
  · have h1 : (decText m10).length = 1 := by rw [decText_small m10 h10]; rfl
    have he' : e10 + ((1 : Nat) : Int) - 1 = e10 := by push_cast; ring
    rw [h1, he'] at he ⊢
    rw [if_pos h10, if_pos h10, fpE_eq t hed _ _ _ _ he, store_store_at _ _ _ _ _ (by simp)]
    simp [Nat.add_assoc]
    omega
  · rw [if_neg h10, if_neg h10]
    have hw : m10 < 2 ^ t.mw := by rcases ht with rfl | rfl <;> norm_num [tF64, tF32] at * <;> omega
    have hb : t.mw = 8 ∨ t.mw = 16 ∨ t.mw = 32 ∨ t.mw = 64 ∨ t.mw = 128 := by
      rcases ht with rfl | rfl <;> simp [tF64, tF32]
    rw [jeaMain_eq t.mw hb m (iter + 1) m10 hw]
    unfold Printed
    simp only [Option.bind_eq_bind, Option.bind_some]
    obtain ⟨x, l, hd⟩ := dg_cons m10
    have hdt : decText m10 = [digitChar false x] ++ l.map (digitChar false) := by
      unfold decText; rw [show numeral 10 m10 = x :: l from hd]; rfl
    have he2 : e10 + (((iter + 1 + (decText m10).length - (iter + 1) : Nat) : Int) - 1) =
        e10 + (decText m10).length - 1 := by
      rw [show iter + 1 + (decText m10).length - (iter + 1) = (decText m10).length by omega]; ring
    rw [he2]
    have hs := store_shift m iter [digitChar false x] (l.map (digitChar false)) (point comma)
    simp only [List.length_singleton] at hs
    have hst : store (store (store m (iter + 1) (decText m10)) iter
        [store m (iter + 1) (decText m10) (iter + 1)]) (iter + 1) [point comma] =
        store m iter ([(dg m10).head!].map (digitChar false) ++ point comma :: (dg m10).tail.map (digitChar false)) := by
      rw [hdt, show store m (iter + 1) ([digitChar false x] ++ l.map (digitChar false)) (iter + 1) = digitChar false x
        from store_head _ _ _ _, hs, hd]
      rfl
    rw [hst, fpE_eq t hed _ _ _ _ he, store_store_at _ _ _ _ _ (by rw [hd, hdt]; simp; omega)]
    congr 2
    rw [hd, hdt]; simp; omega

/-- Text in fixed form. -/
def fixText (comma : Bool) (m10 : Nat) (e10 : Int) : List Nat :=
  let n : Int := (dg m10).length
  if n ≤ e10 + n - 1 then Spec.decNumeral comma false (dg m10 ++ List.replicate e10.toNat 0) [] none
  else if 0 ≤ e10 + n - 1 then
    Spec.decNumeral comma false ((dg m10).take (e10 + n).toNat) ((dg m10).drop (e10 + n).toNat) none
  else Spec.decNumeral comma false [0] (List.replicate (-(e10 + n)).toNat 0 ++ dg m10) none

theorem dg_length (m10 : Nat) : (dg m10).length = (decText m10).length := by simp [decText]

theorem fixedCase0_eq (t : Trait) (ht : IsT t) {comma : Bool} (m : Mem) (iter m10 : Nat) (e10 : Int)
    (h : m10 < 10 ^ t.m10digits) (he : 1 ≤ e10) (he2 : e10 < 1000) :
    fixedCase0 t.mw m iter m10 (decText m10).length (e10 + (decText m10).length - 1) =
      some (store m iter (Spec.decNumeral comma false (dg m10 ++ List.replicate e10.toNat 0) [] none),
        iter + (Spec.decNumeral comma false (dg m10 ++ List.replicate e10.toNat 0) [] none).length) := by
  unfold fixedCase0
  rw [ryuMainLen_eq t ht _ _ _ h]
  simp only [Option.bind_eq_bind, Option.bind_some]
  have : toU32 (e10 + (decText m10).length - 1 + 1 - (decText m10).length) = e10.toNat := by
    unfold toU32; omega
  rw [this, fillZeros_eq, store_store_at _ _ _ _ _ rfl]
  have hd : digitChar false 0 = 48 := rfl
  simp [Spec.decNumeral, decText, hd, Nat.add_assoc]

theorem fixedCase1_eq (t : Trait) (ht : IsT t) (comma : Bool) (m : Mem) (iter m10 : Nat) (e10 : Int)
    (h : m10 < 10 ^ t.m10digits) (he : e10 ≤ 0) (he2 : 0 ≤ e10 + (decText m10).length - 1) :
    fixedCase1 t.mw comma m iter m10 (decText m10).length (e10 + (decText m10).length - 1) =
      some (store m iter (Spec.decNumeral comma false ((dg m10).take (e10 + (dg m10).length).toNat)
          ((dg m10).drop (e10 + (dg m10).length).toNat) none),
        iter + (Spec.decNumeral comma false ((dg m10).take (e10 + (dg m10).length).toNat)
          ((dg m10).drop (e10 + (dg m10).length).toNat) none).length) := by
  have hn10 : (decText m10).length ≤ 17 := by
    have : m10 < 10 ^ 17 := lt_of_lt_of_le h (by rcases ht with rfl | rfl <;> norm_num [tF64, tF32])
    exact (decText_len_le m10 17 (by norm_num)).mpr this
  unfold fixedCase1
  rw [dg_length]
  simp only []
  by_cases h0 : ((decText m10).length : Int) = e10 + (decText m10).length - 1 + 1
  · rw [if_pos h0, ryuMainLen_eq t ht _ _ _ h]
    have e0 : e10 = 0 := by omega
    subst e0
    have hN : ((0 : Int) + (decText m10).length).toNat = (dg m10).length := by rw [dg_length]; omega
    rw [hN, List.take_length, List.drop_length]
    simp [Spec.decNumeral, decText]
  · rw [if_neg h0, ryuMainLen_eq t ht _ _ _ h]
    have hk : toU32 (e10 + (decText m10).length - 1 + 1) = (e10 + (decText m10).length).toNat := by
      unfold toU32; omega
    simp only [Option.bind_eq_bind, Option.bind_some, hk]
    generalize hkk : (e10 + (decText m10).length).toNat = k
    have hklt : k < (dg m10).length := by rw [dg_length]; omega
    have hsplit : decText m10 = ((dg m10).take k).map (digitChar false) ++ ((dg m10).drop k).map (digitChar false) := by
      rw [← List.map_append, List.take_append_drop]; rfl
    have hlen : (((dg m10).take k).map (digitChar false)).length = k := by
      rw [List.length_map, List.length_take]; omega
    have hload : load (store m (iter + 1) (decText m10)) (iter + 1) k = ((dg m10).take k).map (digitChar false) := by
      rw [hsplit]
      have := load_store_prefix m (iter + 1) (((dg m10).take k).map (digitChar false))
        (((dg m10).drop k).map (digitChar false))
      rwa [hlen] at this
    rw [hload]
    have hs := store_shift m iter (((dg m10).take k).map (digitChar false)) (((dg m10).drop k).map (digitChar false))
      (point comma)
    rw [hlen, ← hsplit] at hs
    rw [hs]
    have hne : (dg m10).drop k ≠ [] := by
      intro h1
      have := congrArg List.length h1
      rw [List.length_drop, List.length_nil] at this
      omega
    have hl := dg_length m10
    simp only [Spec.decNumeral, if_neg hne, ← pt]
    congr 2
    · simp
    · simp only [List.length_append, List.length_cons, hlen, List.length_map, List.length_drop, List.length_nil]
      omega

theorem fixedCase2_eq (t : Trait) (ht : IsT t) (comma : Bool) (m : Mem) (iter m10 : Nat) (e10 : Int)
    (h : m10 < 10 ^ t.m10digits) (he : -1000 < e10) (he2 : e10 + (decText m10).length - 1 < 0) :
    fixedCase2 t.mw comma m iter m10 (decText m10).length (e10 + (decText m10).length - 1) =
      some (store m iter (Spec.decNumeral comma false [0] (List.replicate (-(e10 + (dg m10).length)).toNat 0 ++ dg m10)
          none),
        iter + (Spec.decNumeral comma false [0] (List.replicate (-(e10 + (dg m10).length)).toNat 0 ++ dg m10)
          none).length) := by
  unfold fixedCase2 zeroPoint lit
  rw [dg_length]
  have hk : toU32 (-(e10 + (decText m10).length - 1) - 1) = (-(e10 + (decText m10).length)).toNat := by
    unfold toU32; omega
  simp only [Option.bind_eq_bind, hk, fillZeros_eq, ryuMainLen_eq t ht _ _ _ h, Option.bind_some]
  rw [store_store_at _ _ _ _ _ rfl, store_store_at _ _ _ _ _ (by simp [Nat.add_assoc])]
  have hne : List.replicate (-(e10 + (decText m10).length)).toNat 0 ++ dg m10 ≠ [] := by
    intro h1
    exact numeral_ne_nil 10 m10 (List.append_eq_nil_iff.mp h1).2
  have hd : digitChar false 0 = 48 := rfl
  simp only [Spec.decNumeral, if_neg hne]
  cases comma <;> simp [decText, hd, Nat.add_assoc, Nat.add_comm, dg] <;> omega

theorem fixedDecision_eq (t : Trait) (ht : IsT t) (comma : Bool) (m : Mem) (iter m10 : Nat) (e10 : Int)
    (h : m10 < 10 ^ t.m10digits) (he1 : -1000 < e10) (he2 : e10 < 1000) :
    fixedDecision t.mw comma m iter m10 e10 =
      some (store m iter (fixText comma m10 e10), iter + (fixText comma m10 e10).length) := by
  unfold fixedDecision fixText
  rw [ryuLen_eq t ht m10 h]
  simp only []
  by_cases h1 : ((decText m10).length : Int) ≤ e10 + (decText m10).length - 1
  · have h1' : ((dg m10).length : Int) ≤ e10 + (dg m10).length - 1 := by rw [dg_length]; exact h1
    rw [if_pos h1, if_pos h1']
    exact fixedCase0_eq t ht m iter m10 e10 h (by omega) he2
  · have h1' : ¬ ((dg m10).length : Int) ≤ e10 + (dg m10).length - 1 := by rw [dg_length]; exact h1
    rw [if_neg h1, if_neg h1']
    by_cases h2 : 0 ≤ e10 + (decText m10).length - 1
    · have h2' : 0 ≤ e10 + (dg m10).length - 1 := by rw [dg_length]; exact h2
      rw [if_pos ⟨h2, by omega⟩, if_pos h2']
      exact fixedCase1_eq t ht comma m iter m10 e10 h (by omega) h2
    · have h2' : ¬ 0 ≤ e10 + (dg m10).length - 1 := by rw [dg_length]; exact h2
      rw [if_neg (by tauto), if_neg h2']
      exact fixedCase2_eq t ht comma m iter m10 e10 h he1 (by omega)

/-- Lengths of the fixed form. -/
theorem fixText_length (comma : Bool) (m10 : Nat) (e10 : Int) :
    ((fixText comma m10 e10).length : Int) ≤
      max (max (e10 + (decText m10).length) ((decText m10).length + 1)) (2 - e10) ∧
    (e10 ≤ 0 → 0 ≤ e10 + (decText m10).length - 1 → (fixText comma m10 e10).length ≤ (decText m10).length + 1) ∧
    (e10 ≤ 0 → e10 + (decText m10).length - 1 < 0 → ((fixText comma m10 e10).length : Int) = 2 - e10) ∧
    (1 ≤ e10 → ((fixText comma m10 e10).length : Int) = e10 + (decText m10).length) := by
  have hl := dg_length m10
  have key1 : 1 ≤ e10 → ((fixText comma m10 e10).length : Int) = e10 + (decText m10).length := by
    intro he
    unfold fixText
    simp only []
    rw [if_pos (by omega)]
    simp [Spec.decNumeral, hl]
    omega
  have key2 : e10 ≤ 0 → 0 ≤ e10 + (decText m10).length - 1 →
      (fixText comma m10 e10).length ≤ (decText m10).length + 1 := by
    intro he he2
    unfold fixText
    simp only []
    rw [if_neg (by omega), if_pos (by rw [hl]; omega)]
    simp only [Spec.decNumeral]
    split <;> simp <;> omega
  have key3 : e10 ≤ 0 → e10 + (decText m10).length - 1 < 0 → ((fixText comma m10 e10).length : Int) = 2 - e10 := by
    intro he he2
    unfold fixText
    simp only []
    rw [if_neg (by omega), if_neg (by rw [hl]; omega)]
    have hne : List.replicate (-(e10 + (dg m10).length)).toNat 0 ++ dg m10 ≠ [] := by
      intro h1
      exact numeral_ne_nil 10 m10 (List.append_eq_nil_iff.mp h1).2
    simp only [Spec.decNumeral, if_neg hne]
    simp
    omega
  refine ⟨?_, key2, key3, key1⟩
  by_cases h1 : 1 ≤ e10
  · have := key1 h1; omega
  · by_cases h2 : 0 ≤ e10 + (decText m10).length - 1
    · have := key2 (by omega) h2; omega
    · have := key3 (by omega) (by omega); omega

/-- The shorter form, as the `decimal` format estimates it. -/
theorem decDecision_eq (t : Trait) (ht : IsT t) (comma upperE : Bool) (m : Mem) (iter m10 : Nat) (e10 : Int)
    (h : m10 < 10 ^ t.m10digits) (he1 : -1000 < e10) (he2 : e10 < 1000)
    (he : (e10 + (decText m10).length - 1).natAbs < 10 ^ t.e10digits) :
    ∃ txt, decDecision t comma upperE m iter m10 e10 = some (store m iter txt, iter + txt.length) ∧
      ((txt = sciText comma upperE m10 (e10 + (decText m10).length - 1) ∧ txt.length ≤ (fixText comma m10 e10).length) ∨
        (txt = fixText comma m10 e10 ∧ txt.length ≤ (decText m10).length + 5 ∧
          txt.length ≤ (sciText comma upperE m10 (e10 + (decText m10).length - 1)).length)) := by
  have hed : t.e10digits = 2 ∨ t.e10digits = 3 := by rcases ht with rfl | rfl <;> simp [tF64, tF32]
  have hn10 : (decText m10).length ≤ 17 := by
    have : m10 < 10 ^ 17 := lt_of_lt_of_le h (by rcases ht with rfl | rfl <;> norm_num [tF64, tF32])
    exact (decText_len_le m10 17 (by norm_num)).mpr this
  have hpos := decText_len_pos m10
  have hsci : ((decimalCommon t.mw comma m iter m10 (decText m10).length).bind fun p =>
      fpE t upperE p.1 p.2 (e10 + (decText m10).length - 1)) =
      some (store m iter (sciText comma upperE m10 (e10 + (decText m10).length - 1)),
        iter + (sciText comma upperE m10 (e10 + (decText m10).length - 1)).length) := by
    unfold decimalCommon
    rw [sciText_eq]
    by_cases h1 : (decText m10).length = 1
    · have h10 : m10 < 10 := by
        have := (decText_len_le m10 1 (by norm_num)).mp (by omega)
        simpa using this
      rw [if_pos h1, if_pos h10, Option.bind_some]
      simp only []
      rw [fpE_eq t hed _ _ _ _ he, store_store_at _ _ _ _ _ (by simp)]
      simp [Nat.add_assoc]
      omega
    · have h10 : ¬ m10 < 10 := by
        intro h10
        have := (decText_len_le m10 1 (by norm_num)).mpr (by simpa using h10)
        omega
      rw [if_neg h1, if_neg h10, sciCommon_eq t ht _ _ _ _ h, Option.bind_some]
      simp only []
      obtain ⟨x, l, hd⟩ := dg_cons m10
      have hdt : decText m10 = [digitChar false x] ++ l.map (digitChar false) := by
        unfold decText; rw [show numeral 10 m10 = x :: l from hd]; rfl
      rw [fpE_eq t hed _ _ _ _ he, store_store_at _ _ _ _ _ (by rw [hd, hdt]; simp; omega)]
      congr 2
      rw [hd, hdt]; simp; omega
  obtain ⟨-, l2, l3, l1⟩ := fixText_length comma m10 e10
  unfold decDecision
  rw [ryuLen_eq t ht m10 h]
  simp only [Option.bind_eq_bind]
  have hl := dg_length m10
  generalize hs : (if (decText m10).length = 1 then (decText m10).length + 3 else (decText m10).length + 5) = sl
  have hsl : sl ≤ (decText m10).length + 5 := by rw [← hs]; split <;> omega
  have hsx := sciText_length_eq comma upperE m10 (e10 + (decText m10).length - 1)
    (lt_of_lt_of_le he (by rcases hed with h | h <;> rw [h] <;> norm_num))
  have hsx1 : sl ≤ (sciText comma upperE m10 (e10 + (decText m10).length - 1)).length := by
    rw [hsx, ← hs]; split <;> split <;> omega
  have hsx2 : ∀ x, sl < x → ((e10 + (decText m10).length - 1).natAbs < 100 ∨ 30 ≤ x) →
      (sciText comma upperE m10 (e10 + (decText m10).length - 1)).length ≤ x := by
    intro x h1 h2
    rw [hsx]
    rw [← hs] at h1
    split at h1 <;> rename_i h3
    · rw [if_pos h3]; split <;> omega
    · rw [if_neg h3]; split <;> omega
  by_cases h1 : ((decText m10).length : Int) ≤ e10 + (decText m10).length - 1
  · simp only [if_pos h1, if_true]
    have h4 : toU32 (e10 + (decText m10).length - 1 + 1) = (e10 + (decText m10).length).toNat := by
      unfold toU32; omega
    have h3 := l1 (by omega)
    rw [h4]
    split
    · rename_i h2
      refine ⟨_, hsci, Or.inl ⟨rfl, ?_⟩⟩
      have := hsx2 _ h2 (by omega)
      omega
    · rename_i h2
      refine ⟨_, fixedCase0_eq t ht (comma := comma) m iter m10 e10 h (by omega) he2, Or.inr ⟨?_, ?_⟩⟩
      · unfold fixText; simp only []; rw [if_pos (by omega)]
      · unfold fixText at h3
        simp only [] at h3
        rw [if_pos (by omega)] at h3
        omega
  · simp only [if_neg h1]
    by_cases h2 : 0 ≤ e10 + (decText m10).length - 1
    · have h2' : 0 ≤ e10 + ((decText m10).length : Int) - 1 ∧ e10 + ((decText m10).length : Int) - 1 < (decText m10).length :=
        ⟨h2, by omega⟩
      simp only [if_pos h2', Nat.reduceEqDiff, if_false, if_true]
      have hfl : (if ((decText m10).length : Int) = e10 + ((decText m10).length : Int) - 1 + 1 then
        toU32 (((decText m10).length : Int) + 2) - 1 else toU32 (((decText m10).length : Int) + 2)) ≤ sl := by
        rw [← hs]; unfold toU32; split <;> split <;> omega
      generalize (if ((decText m10).length : Int) = e10 + ((decText m10).length : Int) - 1 + 1 then
        toU32 (((decText m10).length : Int) + 2) - 1 else toU32 (((decText m10).length : Int) + 2)) = fl at *
      split
      · omega
      · refine ⟨_, fixedCase1_eq t ht comma m iter m10 e10 h (by omega) h2, Or.inr ⟨?_, ?_⟩⟩
        · unfold fixText; simp only []; rw [if_neg (by omega), if_pos (by omega)]
        · have h3 := l2 (by omega) h2
          unfold fixText at h3
          simp only [] at h3
          rw [if_neg (by omega), if_pos (by omega)] at h3
          have : (decText m10).length + 1 ≤ sl := by rw [← hs]; split <;> omega
          omega
    · have h2' : ¬ (0 ≤ e10 + ((decText m10).length : Int) - 1 ∧
          e10 + ((decText m10).length : Int) - 1 < (decText m10).length) := fun h => h2 h.1
      simp only [if_neg h2', Nat.reduceEqDiff, if_false, if_true]
      have h4 : (toU32 (-(e10 + (decText m10).length - 1)) + (decText m10).length + 1) % 2 ^ 32 =
          (2 - e10).toNat := by
        unfold toU32; omega
      have h3 := l3 (by omega) (by omega)
      rw [h4]
      split
      · rename_i h5
        refine ⟨_, hsci, Or.inl ⟨rfl, ?_⟩⟩
        have := hsx2 _ h5 (by omega)
        omega
      · rename_i h5
        refine ⟨_, fixedCase2_eq t ht comma m iter m10 e10 h he1 (by omega), Or.inr ⟨?_, ?_⟩⟩
        · unfold fixText; simp only []; rw [if_neg (by omega), if_neg (by omega)]
        · unfold fixText at h3
          simp only [] at h3
          rw [if_neg (by omega), if_neg (by omega)] at h3
          omega

/-- The style of a format. -/
def styleOf : Format → Spec.Style
  | .general => .general
  | .scientific => .scientific
  | .fixed => .fixed
  | .decimal => .decimal

theorem dg_digits (m10 : Nat) : (∀ d ∈ dg m10, d < 10) ∧ digitsValue 10 (dg m10) = m10 :=
  ⟨(numeral_isNumeral (by norm_num) m10).digits_lt, (numeral_isNumeral (by norm_num) m10).value⟩

theorem dg_head (m10 : Nat) (h : 0 < m10) : (dg m10).head? ≠ some 0 := by
  intro h0
  have h1 := (numeral_isNumeral (b := 10) (by norm_num) m10).no_leading_zero h0
  have h2 := (dg_digits m10).2
  rw [show dg m10 = [0] from h1] at h2
  simp [digitsValue] at h2
  omega

/-- The last digit. -/
theorem dg_last (m10 : Nat) : (dg m10).getLast? = some (m10 % 10) := by
  unfold dg
  rw [numeral]
  split
  · rw [Nat.mod_eq_of_lt (by omega)]; rfl
  · simp

theorem sciText_is (comma upperE trim : Bool) (m10 : Nat) (e10 : Int) (hp : 0 < m10) (st : Spec.Style) (hst : st ≠ .fixed)
    (htrim : trim = true → m10 % 10 ≠ 0) :
    Spec.IsDecText st comma upperE trim (m10 * (10 : ℚ) ^ e10)
      (sciText comma upperE m10 (e10 + (decText m10).length - 1)) := by
  obtain ⟨x, l, hd⟩ := dg_cons m10
  have hx : x ≠ 0 := by
    intro h0
    apply dg_head m10 hp
    rw [hd, h0]; rfl
  obtain ⟨hlt, hval⟩ := dg_digits m10
  have hl := dg_length m10
  rw [hd] at hlt hval hl
  refine ⟨[x], l, some (e10 + (decText m10).length - 1), ?_, by simp, hlt, by simp [hx], by simp [hx], by simp [hst], by simp,
    ?_, ?_⟩
  · unfold sciText; rw [hd]; rfl
  · intro ht h0
    have h1 := dg_last m10
    rw [hd] at h1
    obtain ⟨y, l', rfl⟩ : ∃ y l', l = y :: l' := by
      cases l with
      | nil => simp at h0
      | cons y l' => exact ⟨y, l', rfl⟩
    rw [List.getLast?_cons_cons, h0] at h1
    exact htrim ht (by simpa using h1.symm)
  · unfold Spec.decValue
    rw [show [x] ++ l = x :: l from rfl, hval, ← hl, Option.getD_some]
    have : e10 + ((x :: l).length : Int) - 1 = e10 + (l.length : Int) := by simp; ring
    rw [this, zpow_add₀ (by norm_num), zpow_natCast]
    field_simp

theorem digitsValue_zeros (n : Nat) (l : List Nat) : digitsValue 10 (List.replicate n 0 ++ l) = digitsValue 10 l := by
  induction n with
  | zero => rfl
  | succ n ih =>
    rw [List.replicate_succ, List.cons_append]
    unfold digitsValue at *
    simpa using ih

theorem digitsValue_shift (n : Nat) (l : List Nat) :
    digitsValue 10 (l ++ List.replicate n 0) = digitsValue 10 l * 10 ^ n := by
  rw [digitsValue_append, List.length_replicate]
  have : digitsValue 10 (List.replicate n 0) = 0 := by
    have := digitsValue_zeros n []
    rw [List.append_nil] at this
    rw [this]; rfl
  omega

theorem fixText_is (comma upperE trim : Bool) (m10 : Nat) (e10 : Int) (hp : 0 < m10) (st : Spec.Style)
    (hst : st ≠ .scientific) (htrim : trim = true → m10 % 10 ≠ 0) :
    Spec.IsDecText st comma upperE trim (m10 * (10 : ℚ) ^ e10) (fixText comma m10 e10) := by
  obtain ⟨hlt, hval⟩ := dg_digits m10
  have hhd := dg_head m10 hp
  have hne : dg m10 ≠ [] := numeral_ne_nil _ _
  have hlen : 0 < (dg m10).length := numeral_length_pos _ _
  unfold fixText
  simp only []
  by_cases h1 : ((dg m10).length : Int) ≤ e10 + (dg m10).length - 1
  · rw [if_pos h1]
    refine ⟨dg m10 ++ List.replicate e10.toNat 0, [], none, rfl, by simp [hne], ?_, ?_, by simp, by simp, by simp [hst],
      by simp, ?_⟩
    · intro d hd
      rw [List.append_nil, List.mem_append] at hd
      rcases hd with hd | hd
      · exact hlt d hd
      · rw [List.mem_replicate] at hd; omega
    · rw [head?_append_ne _ _ hne]
      intro h; exact absurd h hhd
    · unfold Spec.decValue
      rw [List.append_nil, digitsValue_shift, hval]
      have : (10 : ℚ) ^ e10 = 10 ^ e10.toNat := by
        rw [← zpow_natCast]; congr 1; omega
      rw [this]; simp
  · rw [if_neg h1]
    by_cases h2 : 0 ≤ e10 + (dg m10).length - 1
    · rw [if_pos h2]
      refine ⟨_, _, none, rfl, ?_, ?_, ?_, by simp, by simp, by simp [hst], ?_, ?_⟩
      · intro h
        have := congrArg List.length h
        rw [List.length_take, List.length_nil] at this
        omega
      · rw [List.take_append_drop]; exact hlt
      · intro h
        exfalso
        apply hhd
        obtain ⟨x, l, hd⟩ := dg_cons m10
        rw [hd] at h ⊢
        obtain ⟨k, hk⟩ : ∃ k, (e10 + ((x :: l).length : Nat)).toNat = k + 1 :=
          ⟨(e10 + ((x :: l).length : Nat)).toNat - 1, by rw [hd] at h2; omega⟩
        rw [hk, List.take_succ_cons] at h
        simpa using h
      · intro ht h0
        apply htrim ht
        have h3 := dg_last m10
        rw [← List.take_append_drop (e10 + (dg m10).length).toNat (dg m10), List.getLast?_append, h0] at h3
        simpa using h3.symm
      · unfold Spec.decValue
        rw [List.take_append_drop, hval, List.length_drop, Option.getD_none, zpow_zero, mul_one]
        have : (10 : ℚ) ^ e10 = (10 ^ ((dg m10).length - (e10 + (dg m10).length).toNat))⁻¹ := by
          rw [← zpow_natCast, ← zpow_neg]; congr 1; omega
        rw [this, div_eq_mul_inv]
    · rw [if_neg h2]
      refine ⟨_, _, none, rfl, by simp, ?_, by simp, by simp, by simp, by simp [hst], ?_, ?_⟩
      · intro d hd
        rw [List.mem_append, List.mem_append, List.mem_replicate, List.mem_singleton] at hd
        rcases hd with hd | hd | hd
        · omega
        · omega
        · exact hlt d hd
      · intro ht h0
        apply htrim ht
        have h3 := dg_last m10
        rw [List.getLast?_append, h3] at h0
        simpa using h0
      · unfold Spec.decValue
        have e1 : [0] ++ (List.replicate (-(e10 + (dg m10).length)).toNat 0 ++ dg m10) =
            List.replicate (1 + (-(e10 + (dg m10).length)).toNat) 0 ++ dg m10 := by
          rw [List.replicate_add, List.append_assoc]; rfl
        rw [e1, digitsValue_zeros, hval, List.length_append, List.length_replicate, Option.getD_none, zpow_zero, mul_one]
        have : (10 : ℚ) ^ e10 = (10 ^ ((-(e10 + (dg m10).length)).toNat + (dg m10).length))⁻¹ := by
          rw [← zpow_natCast, ← zpow_neg]; congr 1; omega
        rw [this, div_eq_mul_inv]

/-- What callers allocate is enough, except for `float` in the `general` format with large exponents. -/
def RoomOk (t : Trait) (fmt : Format) (e10 : Int) (len : Nat) : Prop :=
  fmt = .general → e10 < 7 → -5 < e10 → e10 + len ≤ t.m10digits + t.e10digits + 3

theorem decision_eq (t : Trait) (ht : IsT t) (fmt : Format) (comma upperE trim : Bool) (m : Mem) (iter m10 : Nat) (e10 : Int)
    (hp : 0 < m10) (h : m10 < 10 ^ t.m10digits) (he1 : -(if t.mw = 64 then 324 else 45 : Int) ≤ e10)
    (he2 : e10 + (decText m10).length - 1 ≤ t.e10max) (htrim : trim = true → m10 % 10 ≠ 0) :
    ∃ txt, decision t fmt comma upperE m iter m10 e10 = some (store m iter txt, iter + txt.length) ∧
      Spec.IsDecText (styleOf fmt) comma upperE trim (m10 * (10 : ℚ) ^ e10) txt ∧
      (RoomOk t fmt e10 (decText m10).length → 1 + txt.length ≤ fltSize t fmt) ∧
      (e10 + (decText m10).length ≤ t.m10digits + t.e10digits + 4 → txt.length ≤ fltSize t fmt) := by
  have hpos := decText_len_pos m10
  have hdig : (decText m10).length ≤ t.m10digits :=
    (decText_len_le m10 _ (by rcases ht with rfl | rfl <;> norm_num [tF64, tF32])).mpr h
  have hr1 : -1000 < e10 := by split at he1 <;> omega
  have hmax : t.e10max < 1000 := by rcases ht with rfl | rfl <;> norm_num [tF64, tF32]
  have hr2 : e10 < 1000 := by omega
  have hexp : (e10 + (decText m10).length - 1).natAbs < 10 ^ t.e10digits := by
    rcases ht with rfl | rfl
    · norm_num [tF64] at *; omega
    · norm_num [tF32] at *; omega
  have hk2 : 2 ≤ t.e10digits := by rcases ht with rfl | rfl <;> norm_num [tF64, tF32]
  have hsl := sciText_length comma upperE m10 (e10 + (decText m10).length - 1)
  have hel := expPart_length upperE _ t.e10digits hk2 hexp
  obtain ⟨f1, f2, f3, f4⟩ := fixText_length comma m10 e10
  cases fmt with
  | general =>
    unfold decision
    simp only []
    by_cases hg : -5 < e10 ∧ e10 < 7
    · rw [if_pos hg]
      refine ⟨_, fixedDecision_eq t ht comma m iter m10 e10 h hr1 hr2, fixText_is _ _ _ _ _ hp _ (by simp [styleOf]) htrim, ?_, ?_⟩
      · intro hroom
        have := hroom rfl hg.2 hg.1
        unfold fltSize
        simp only []
        rcases ht with rfl | rfl <;> simp only [tF64, tF32] at * <;> omega
      · intro hroom
        unfold fltSize
        simp only []
        rcases ht with rfl | rfl <;> simp only [tF64, tF32] at * <;> omega
    · rw [if_neg hg]
      refine ⟨_, sciDecision_eq t ht comma upperE m iter m10 e10 h hexp, sciText_is _ _ _ _ _ hp _ (by simp [styleOf]) htrim, ?_, ?_⟩
      all_goals
        intro _
        unfold fltSize
        simp only []
        omega
  | scientific =>
    refine ⟨_, sciDecision_eq t ht comma upperE m iter m10 e10 h hexp, sciText_is _ _ _ _ _ hp _ (by simp [styleOf]) htrim, ?_, ?_⟩
    all_goals
      intro _
      unfold fltSize
      simp only []
      omega
  | fixed =>
    refine ⟨_, fixedDecision_eq t ht comma m iter m10 e10 h hr1 hr2, fixText_is _ _ _ _ _ hp _ (by simp [styleOf]) htrim, ?_, ?_⟩
    all_goals
      intro _
      unfold fltSize
      simp only []
      rcases ht with rfl | rfl
      · norm_num [tF64] at *; omega
      · norm_num [tF32] at *; omega
  | decimal =>
    obtain ⟨txt, h1, h2⟩ := decDecision_eq t ht comma upperE m iter m10 e10 h hr1 hr2 hexp
    refine ⟨txt, h1, ?_, ?_, ?_⟩
    · rcases h2 with ⟨rfl, -⟩ | ⟨rfl, -⟩
      · exact sciText_is _ _ _ _ _ hp _ (by simp [styleOf]) htrim
      · exact fixText_is _ _ _ _ _ hp _ (by simp [styleOf]) htrim
    all_goals
      intro _
      unfold fltSize
      simp only []
      rcases h2 with ⟨rfl, -⟩ | ⟨-, h2, -⟩
      · omega
      · rcases ht with rfl | rfl <;> simp only [tF64, tF32] at * <;> omega

end Verif.Float
