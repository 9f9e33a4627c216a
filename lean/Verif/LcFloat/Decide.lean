import Verif.LcFloat.Text
import Verif.Float.RtProps
/-! # The choice of the form, and the space -/
namespace Verif.LcFloat
open Verif Verif.IntPrint Verif.Float Verif.Lc

theorem decimalCommon_fpE (t : Trait) (ht : IsT t) (comma upperE : Bool) (m : Mem) (iter m10 : Nat) (e : Int)
    (h : m10 < 10 ^ t.m10digits) (he : e.natAbs < 10 ^ t.e10digits) :
    ((decimalCommon t.mw comma m iter m10 (decText m10).length).bind fun p => fpE t upperE p.1 p.2 e) =
      some (store m iter (sciText comma upperE m10 e), iter + (sciText comma upperE m10 e).length) := by
  have hed : t.e10digits = 2 ∨ t.e10digits = 3 := by rcases ht with rfl | rfl <;> simp [tF64, tF32]
  unfold decimalCommon
  rw [sciText_eq]
  by_cases h1 : (decText m10).length = 1
  · have h10 : m10 < 10 := by
      have := (decText_len_le m10 1 (by norm_num)).mp (by omega)
      simpa using this
    rw [if_pos h1, if_pos h10, Option.bind_some]
    simp only []
    rw [fpE_eq t hed _ _ _ _ he, store_store_at _ _ _ _ _ (by simp)]
    simp [Nat.add_assoc]
    omega
  · have h10 : ¬ m10 < 10 := by
      intro h10
      have := (decText_len_le m10 1 (by norm_num)).mpr (by simpa using h10)
      have := decText_len_pos m10
      omega
    rw [if_neg h1, if_neg h10, sciCommon_eq t ht _ _ _ _ h, Option.bind_some]
    simp only []
    obtain ⟨x, l, hd⟩ := dg_cons m10
    have hdt : decText m10 = [digitChar false x] ++ l.map (digitChar false) := by
      unfold decText; rw [show numeral 10 m10 = x :: l from hd]; rfl
    rw [fpE_eq t hed _ _ _ _ he, store_store_at _ _ _ _ _ (by rw [hd, hdt]; simp; omega)]
    congr 2
    rw [hd, hdt]; simp; omega

theorem lcDecimalCommon_fpE (t : Trait) (ht : IsT t) (dp : List Nat) (upperE : Bool) (m : Mem) (iter m10 : Nat) (e : Int)
    (he : e.natAbs < 10 ^ t.e10digits) :
    ((lcDecimalCommon dp m iter m10 (decText m10).length).bind fun p => fpE t upperE p.1 p.2 e) =
      some (store m iter (sciLc dp upperE m10 e), iter + (sciLc dp upperE m10 e).length) := by
  have hed : t.e10digits = 2 ∨ t.e10digits = 3 := by rcases ht with rfl | rfl <;> simp [tF64, tF32]
  unfold lcDecimalCommon sciLc
  by_cases h1 : (decText m10).length = 1
  · have h10 : m10 < 10 := by
      have := (decText_len_le m10 1 (by norm_num)).mp (by omega)
      simpa using this
    rw [if_pos h1, if_pos h10, Option.bind_some]
    simp only []
    rw [fpE_eq t hed _ _ _ _ he, store_store_at _ _ _ _ _ (by simp)]
    simp [Nat.add_assoc]
    omega
  · have h10 : ¬ m10 < 10 := by
      intro h10
      have := (decText_len_le m10 1 (by norm_num)).mpr (by simpa using h10)
      have := decText_len_pos m10
      omega
    rw [if_neg h1, if_neg h10, dgsCommon_eq, Option.bind_some]
    simp only []
    rw [fpE_eq t hed _ _ _ _ he, store_store_at _ _ _ _ _ rfl]
    simp only [List.length_append, Nat.add_assoc]

/-- The decimal format: the same form with and without a locale. -/
theorem lcDec_eq (t : Trait) (ht : IsT t) (nu : LcNum) (upperE : Bool) (m : Mem) (iter m10 : Nat) (e10 : Int)
    (h : m10 < 10 ^ t.m10digits) (he1 : -1000 < e10) (he2 : e10 < 1000)
    (he : (e10 + (decText m10).length - 1).natAbs < 10 ^ t.e10digits)
    (hroom : e10 ≤ 5 → (decText m10).length + e10 ≤ t.m10digits + t.e10digits + 2) :
    ∃ plain txt, decDecision t false upperE m iter m10 e10 = some (store m iter plain, iter + plain.length) ∧
      lcDecDecision t nu upperE m iter m10 e10 = some (store m iter txt, iter + txt.length) ∧
      ((plain = sciText false upperE m10 (e10 + (decText m10).length - 1) ∧
          txt = sciLc nu.dp upperE m10 (e10 + (decText m10).length - 1)) ∨
        (plain = fixText false m10 e10 ∧ (∃ int tail int', FixShape nu m10 e10 txt int tail int') ∧ e10 ≤ 5 ∧
          -e10 ≤ (decText m10).length + 3)) := by
  have hn10 : (decText m10).length ≤ 17 := by
    have : m10 < 10 ^ 17 := lt_of_lt_of_le h (by rcases ht with rfl | rfl <;> norm_num [tF64, tF32])
    exact (decText_len_le m10 17 (by norm_num)).mpr this
  have hpos := decText_len_pos m10
  have hs1 := decimalCommon_fpE t ht false upperE m iter m10 (e10 + (decText m10).length - 1) h he
  have hs2 := lcDecimalCommon_fpE t ht nu.dp upperE m iter m10 (e10 + (decText m10).length - 1) he
  have hl := dg_length m10
  unfold decDecision lcDecDecision
  rw [ryuLen_eq t ht m10 h]
  simp only [Option.bind_eq_bind]
  generalize hs : (if (decText m10).length = 1 then (decText m10).length + 3 else (decText m10).length + 5) = sl
  have hsl : sl ≤ (decText m10).length + 5 := by rw [← hs]; split <;> omega
  by_cases h1 : ((decText m10).length : Int) ≤ e10 + (decText m10).length - 1
  · simp only [if_pos h1, if_true]
    have h4 : toU32 (e10 + (decText m10).length - 1 + 1) = (e10 + (decText m10).length).toNat := by
      unfold toU32; omega
    rw [h4]
    by_cases h2 : sl < (e10 + (decText m10).length).toNat
    · rw [if_pos h2, if_pos h2]
      exact ⟨_, _, hs1, hs2, Or.inl ⟨rfl, rfl⟩⟩
    · rw [if_neg h2, if_neg h2]
      obtain ⟨txt, int, tail, int', k1, k2⟩ := lcCase0_eq t ht nu (t.m10digits + t.e10digits + 2) m iter m10 e10 h (by omega) he2
        (by have := hroom (by omega); push_cast; omega)
      refine ⟨_, txt, fixedCase0_eq t ht (comma := false) m iter m10 e10 h (by omega) he2, k1, Or.inr
        ⟨?_, ⟨_, _, _, k2⟩, by omega, by omega⟩⟩
      unfold fixText; simp only []; rw [if_pos (by omega)]
  · simp only [if_neg h1]
    by_cases h2 : 0 ≤ e10 + (decText m10).length - 1
    · have h2' : 0 ≤ e10 + ((decText m10).length : Int) - 1 ∧ e10 + ((decText m10).length : Int) - 1 < (decText m10).length :=
        ⟨h2, by omega⟩
      simp only [if_pos h2', Nat.reduceEqDiff, if_false, if_true]
      generalize (if ((decText m10).length : Int) = e10 + ((decText m10).length : Int) - 1 + 1 then
        toU32 (((decText m10).length : Int) + 2) - 1 else toU32 (((decText m10).length : Int) + 2)) = fl
      by_cases h3 : sl < fl
      · rw [if_pos h3, if_pos h3]
        exact ⟨_, _, hs1, hs2, Or.inl ⟨rfl, rfl⟩⟩
      · rw [if_neg h3, if_neg h3]
        obtain ⟨txt, int, tail, int', k1, k2⟩ := lcCase1_eq t ht nu m iter m10 e10 h (by omega) h2
        refine ⟨_, txt, fixedCase1_eq t ht false m iter m10 e10 h (by omega) h2, k1, Or.inr
          ⟨?_, ⟨_, _, _, k2⟩, by omega, by omega⟩⟩
        unfold fixText; simp only []; rw [if_neg (by omega), if_pos (by omega)]
    · have h2' : ¬ (0 ≤ e10 + ((decText m10).length : Int) - 1 ∧
          e10 + ((decText m10).length : Int) - 1 < (decText m10).length) := fun h => h2 h.1
      simp only [if_neg h2', Nat.reduceEqDiff, if_false, if_true]
      have h4 : (toU32 (-(e10 + (decText m10).length - 1)) + (decText m10).length + 1) % 2 ^ 32 =
          (2 - e10).toNat := by
        unfold toU32; omega
      rw [h4]
      by_cases h3 : sl < (2 - e10).toNat
      · rw [if_pos h3, if_pos h3]
        exact ⟨_, _, hs1, hs2, Or.inl ⟨rfl, rfl⟩⟩
      · rw [if_neg h3, if_neg h3]
        obtain ⟨txt, int, tail, int', k1, k2⟩ := lcCase2_eq nu m iter m10 e10 he1 (by omega)
        refine ⟨_, txt, fixedCase2_eq t ht false m iter m10 e10 h he1 (by omega), k1, Or.inr
          ⟨?_, ⟨_, _, _, k2⟩, by omega, by omega⟩⟩
        unfold fixText; simp only []; rw [if_neg (by omega), if_neg (by omega)]

/-! ## Number of separators -/

theorem grouped_count {g sep ds txt : List Nat} (h : Grouped g sep ds txt) :
    ∃ k, (∀ j < k, groupSize g j ≠ 0) ∧ (groupSum g k < ds.length ∨ k = 0) ∧ txt.length ≤ ds.length + k * sep.length := by
  induction h with
  | nil => exact ⟨0, by simp, Or.inr rfl, by simp⟩
  | plain d ds txt hb h ih =>
    obtain ⟨k, h1, h2, h3⟩ := ih
    refine ⟨k, h1, ?_, by simp only [List.length_cons]; omega⟩
    rcases h2 with h2 | h2
    · left; simp only [List.length_cons]; omega
    · exact Or.inr h2
  | sep d ds txt hb h ih =>
    obtain ⟨k, h1, h2, h3⟩ := ih
    obtain ⟨j, hj, he⟩ := hb
    refine ⟨j + 1, fun i hi => hj i (by omega), Or.inl (by simp only [List.length_cons]; omega), ?_⟩
    have hk : k ≤ j := by
      rcases h2 with h2 | h2
      · by_contra hc
        have := groupSum_mono g (show j + 1 ≤ k by omega)
        omega
      · omega
    have := Nat.mul_le_mul_right sep.length hk
    simp only [List.length_cons, List.length_append, Nat.succ_mul]
    omega

theorem grouped_length2 {g sep ds txt : List Nat} (h : Grouped g sep ds txt) (h1 : 1 ∉ g) :
    txt.length ≤ ds.length + ds.length / 2 * sep.length := by
  obtain ⟨k, a, b, c⟩ := grouped_count h
  have hsz : ∀ j, groupSize g j ≠ 0 → 2 ≤ groupSize g j := by
    intro j hj
    have : groupSize g j ∈ g := by
      unfold groupSize at hj ⊢
      rcases hg : g[j]? with _ | x
      · rw [hg] at hj
        rw [Option.getD_none] at hj ⊢
        rcases hl : g.getLast? with _ | y
        · rw [hl] at hj; simp at hj
        · rw [Option.getD_some]
          exact List.mem_of_getLast? hl
      · rw [Option.getD_some]
        exact List.mem_of_getElem? hg
    have : groupSize g j ≠ 1 := fun h => h1 (h ▸ this)
    omega
  have hsum : ∀ k, (∀ j < k, groupSize g j ≠ 0) → 2 * k ≤ groupSum g k := by
    intro k
    induction k with
    | zero => intro _; simp
    | succ k ih =>
      intro hk
      have := ih fun j hj => hk j (by omega)
      have := hsz k (hk k (by omega))
      simp only [groupSum]
      omega
  have hk : k ≤ ds.length / 2 := by
    have := hsum k a
    rcases b with b | b <;> omega
  have := Nat.mul_le_mul_right sep.length hk
  omega

/-- The text in fixed form: at most this long. -/
theorem fixShape_length {nu : LcNum} {m10 : Nat} {e10 : Int} {txt int tail int' : List Nat}
    (h : FixShape nu m10 e10 txt int tail int') :
    txt.length ≤ int.length + (int.length - 1) * nu.sep.length + (withPoint nu.dp tail).length := by
  rw [h.text, List.length_append]
  have := grouped_length h.grp (by intro h0; have := h.pos; rw [h0] at this; simp at this)
  omega

theorem fixShape_length2 {nu : LcNum} {m10 : Nat} {e10 : Int} {txt int tail int' : List Nat}
    (h : FixShape nu m10 e10 txt int tail int') (h1 : 1 ∉ nu.grouping) :
    txt.length ≤ int.length + int.length / 2 * nu.sep.length + (withPoint nu.dp tail).length := by
  rw [h.text, List.length_append]
  have := grouped_length2 h.grp h1
  omega

/-- When callers allocate enough: always in the fixed and the scientific format; in the others when the separator has at most one
character or there are no groups of one digit. -/
def Roomy (fmt : Format) (nu : LcNum) : Prop :=
  fmt = .fixed ∨ fmt = .scientific ∨ (nu.dp ≠ [] ∧ (nu.sep.length ≤ 1 ∨ 1 ∉ nu.grouping))

theorem room_small (t : Trait) (ht : IsT t) (nu : LcNum) (m10 : Nat) (e10 : Int) (txt int tail int' : List Nat)
    (h : FixShape nu m10 e10 txt int tail int') (hdig : (decText m10).length ≤ t.m10digits) (he : e10 < 7)
    (he2 : -e10 ≤ (decText m10).length + 3) (hdp : nu.dp ≠ []) (hr : nu.sep.length ≤ 1 ∨ 1 ∉ nu.grouping) :
    1 + txt.length ≤ 3 + t.e10digits + (t.m10digits + 3) + nu.dp.length + (t.m10digits + 3) * nu.sep.length := by
  have hdp1 : 1 ≤ nu.dp.length := List.length_pos_iff.mpr hdp
  have hl := fixShape_length h
  have hpos := h.pos
  rcases h.len with ⟨a, b, c⟩ | ⟨a, b, c⟩
  · rw [c, withPoint_nil, List.length_nil] at hl
    have hint : int.length ≤ t.m10digits + 6 := by omega
    rcases hr with hr | hr
    · have : nu.sep.length = 0 ∨ nu.sep.length = 1 := by omega
      rcases this with h0 | h0 <;> rw [h0] at hl ⊢ <;> rcases ht with rfl | rfl <;> simp only [tF64, tF32] at * <;> omega
    · have hl2 := fixShape_length2 h hr
      rw [c, withPoint_nil, List.length_nil] at hl2
      have : int.length / 2 * nu.sep.length ≤ (t.m10digits + 3) * nu.sep.length :=
        Nat.mul_le_mul_right _ (by rcases ht with rfl | rfl <;> simp only [tF64, tF32] at * <;> omega)
      have : 2 ≤ t.e10digits := by rcases ht with rfl | rfl <;> simp only [tF64, tF32] <;> omega
      omega
  · have : (int.length - 1) * nu.sep.length ≤ (t.m10digits + 3) * nu.sep.length :=
      Nat.mul_le_mul_right _ (by omega)
    have : 2 ≤ t.e10digits := by rcases ht with rfl | rfl <;> simp only [tF64, tF32] <;> omega
    omega

theorem room_fixed (t : Trait) (ht : IsT t) (nu : LcNum) (m10 : Nat) (e10 : Int) (txt int tail int' : List Nat)
    (h : FixShape nu m10 e10 txt int tail int') (hdig : (decText m10).length ≤ t.m10digits)
    (he1 : -(if t.mw = 64 then 324 else 45 : Int) ≤ e10) (he2 : e10 + (decText m10).length - 1 ≤ t.e10max) :
    1 + txt.length ≤ 2 + (t.e10max + t.m10digits - 1) + nu.dp.length + (t.e10max + t.m10digits - 1) * nu.sep.length := by
  have hl := fixShape_length h
  have hpos := h.pos
  have hpm := decText_len_pos m10
  have hint : int.length - 1 ≤ t.e10max + t.m10digits - 1 := by
    rcases h.len with ⟨a, b, c⟩ | ⟨a, b, c⟩ <;> rcases ht with rfl | rfl <;> simp only [tF64, tF32] at * <;> omega
  have := Nat.mul_le_mul_right nu.sep.length hint
  rcases h.len with ⟨a, b, c⟩ | ⟨a, b, c⟩
  · rw [c, withPoint_nil, List.length_nil] at hl
    rcases ht with rfl | rfl <;> simp only [tF64, tF32] at * <;> omega
  · rcases ht with rfl | rfl
    · simp only [tF64, tF32, if_true] at *; omega
    · norm_num [tF32] at *; omega

/-- The general statement about the text of `m10·10^e10`. -/
theorem lcDecision_eq (t : Trait) (ht : IsT t) (fmt : Format) (nu : LcNum) (upperE : Bool) (m : Mem) (iter m10 : Nat)
    (e10 : Int) (h : m10 < 10 ^ t.m10digits) (he1 : -(if t.mw = 64 then 324 else 45 : Int) ≤ e10)
    (he2 : e10 + (decText m10).length - 1 ≤ t.e10max)
    (hroom : fmt = .decimal → e10 ≤ 5 → (decText m10).length + e10 ≤ t.m10digits + t.e10digits + 2) :
    ∃ plain txt, decision t fmt false upperE m iter m10 e10 = some (store m iter plain, iter + plain.length) ∧
      lcDecision t fmt nu upperE m iter m10 e10 = some (store m iter txt, iter + txt.length) ∧
      Loc0 nu.grouping nu.sep nu.dp plain txt ∧ (Roomy fmt nu → 1 + txt.length ≤ lcSize t fmt nu) := by
  have hpos := decText_len_pos m10
  have hdig : (decText m10).length ≤ t.m10digits :=
    (decText_len_le m10 _ (by rcases ht with rfl | rfl <;> norm_num [tF64, tF32])).mpr h
  have hr1 : -1000 < e10 := by split at he1 <;> omega
  have hmax : t.e10max < 1000 := by rcases ht with rfl | rfl <;> norm_num [tF64, tF32]
  have hr2 : e10 < 1000 := by omega
  have hexp : (e10 + (decText m10).length - 1).natAbs < 10 ^ t.e10digits := by
    rcases ht with rfl | rfl
    · norm_num [tF64] at *; omega
    · norm_num [tF32] at *; omega
  have hk2 : 2 ≤ t.e10digits := by rcases ht with rfl | rfl <;> norm_num [tF64, tF32]
  have hel := expPart_length upperE _ t.e10digits hk2 hexp
  have hsl := sciLc_length nu.dp upperE m10 (e10 + (decText m10).length - 1)
  have hsci := sciDecision_eq t ht false upperE m iter m10 e10 h hexp
  have hlsci := lcSciDecision_eq t ht nu.dp upperE m iter m10 e10 h hexp
  have hloc := sciLc_loc nu.grouping nu.sep nu.dp upperE m10 (e10 + (decText m10).length - 1)
  have hfix := fixedDecision_eq t ht false m iter m10 e10 h hr1 hr2
  have fixLoc : ∀ txt int tail int', FixShape nu m10 e10 txt int tail int' →
      Loc0 nu.grouping nu.sep nu.dp (fixText false m10 e10) txt :=
    fun txt int tail int' k => ⟨int, tail, int', k.plain, k.dig, k.head, k.grp, k.text⟩
  cases fmt with
  | general =>
    unfold decision lcDecision
    simp only []
    by_cases hg : -5 < e10 ∧ e10 < 7
    · rw [if_pos hg, if_pos hg]
      obtain ⟨txt, int, tail, int', k1, k2⟩ := lcFixedDecision_eq t ht nu m iter m10 e10 h hr1 hr2 he2
      refine ⟨_, txt, hfix, k1, fixLoc _ _ _ _ k2, ?_⟩
      intro hr
      rcases hr with hr | hr | ⟨hr1, hr2⟩
      · simp at hr
      · simp at hr
      · exact room_small t ht nu m10 e10 txt int tail int' k2 hdig hg.2 (by omega) hr1 hr2
    · rw [if_neg hg, if_neg hg]
      refine ⟨_, _, hsci, hlsci, hloc, ?_⟩
      intro _
      simp only [lcSize]
      omega
  | scientific =>
    refine ⟨_, _, hsci, hlsci, hloc, ?_⟩
    intro _
    simp only [lcSize, fltSize]
    omega
  | fixed =>
    obtain ⟨txt, int, tail, int', k1, k2⟩ := lcFixedDecision_eq t ht nu m iter m10 e10 h hr1 hr2 he2
    exact ⟨_, txt, hfix, k1, fixLoc _ _ _ _ k2, fun _ => room_fixed t ht nu m10 e10 txt int tail int' k2 hdig he1 he2⟩
  | decimal =>
    obtain ⟨plain, txt, k1, k2, k3⟩ := lcDec_eq t ht nu upperE m iter m10 e10 h hr1 hr2 hexp (hroom rfl)
    refine ⟨plain, txt, k1, k2, ?_⟩
    rcases k3 with ⟨rfl, rfl⟩ | ⟨rfl, ⟨int, tail, int', k⟩, k4, k5⟩
    · refine ⟨hloc, ?_⟩
      intro _
      simp only [lcSize]
      omega
    · refine ⟨fixLoc _ _ _ _ k, ?_⟩
      intro hr
      rcases hr with hr | hr | ⟨hr1, hr2⟩
      · simp at hr
      · simp at hr
      · exact room_small t ht nu m10 e10 txt int tail int' k hdig (by omega) k5 hr1 hr2

end Verif.LcFloat
