import Verif.LcFloat.Group
import Verif.Float.RtText
/-! # The texts with a locale -/
namespace Verif.LcFloat
open Verif Verif.IntPrint Verif.Float Verif.Lc

theorem decText_eq_padded (n : Nat) : (padded 10 (decText n).length n).map (digitChar false) = decText n := by
  have hpos := decText_len_pos n
  obtain ⟨k, hk⟩ : ∃ k, (decText n).length = k + 1 := ⟨_, (Nat.succ_pred_eq_of_pos hpos).symm⟩
  have h1 : n < 10 ^ (k + 1) := (decText_len_le n (k + 1) (by omega)).mp (by omega)
  have h2 : k = 0 ∨ 10 ^ k ≤ n := by
    rcases Nat.eq_zero_or_pos k with h | h
    · exact Or.inl h
    · right
      by_contra hc
      have := (decText_len_le n k h).mpr (by omega)
      omega
  rw [hk]
  unfold decText
  rw [numeral_eq_padded (by norm_num) k n h1 h2]

theorem mainImpl_eq (m : Mem) (p m10 : Nat) :
    mainImpl m (p + (decText m10).length) m10 (decText m10).length = some (store m p (decText m10)) := by
  unfold mainImpl
  rw [genWord_eq 10 (by norm_num) false m p m10 (decText m10).length
    ((decText_len_le m10 _ (decText_len_pos m10)).mp (le_refl _)), decText_eq_padded]

theorem putPoint_eq (dp : List Nat) (m : Mem) (p : Nat) : putPoint dp m p = store m p dp := by
  unfold putPoint
  split
  · rename_i h
    match dp, h with
    | [a], _ => rfl
  · rfl

/-- Digits printed further to the right, the integer part moved back, the point put in. -/
theorem store_shift_gen (m : Mem) (p : Nat) (a b c : List Nat) :
    store (store (store m (p + c.length) (a ++ b)) p a) (p + a.length) c = store m p (a ++ (c ++ b)) := by
  rw [store_store_append]
  funext x
  simp only [store_apply]
  by_cases h1 : p ≤ x
  · obtain ⟨i, rfl⟩ : ∃ i, x = p + i := ⟨x - p, by omega⟩
    rw [if_pos h1, if_pos h1, show p + i - p = i by omega]
    by_cases h2 : i < a.length + c.length
    · rw [← List.append_assoc, List.getElem?_append_left (l₁ := a ++ c) (by rw [List.length_append]; omega)]
      rw [List.getElem?_eq_getElem (by rw [List.length_append]; omega)]
      rfl
    · rw [List.getElem?_eq_none (by rw [List.length_append]; omega), Option.getD_none, if_pos (by omega),
        List.getElem?_append_right (by omega), ← List.append_assoc,
        List.getElem?_append_right (l₁ := a ++ c) (by rw [List.length_append]; omega), List.length_append,
        show p + i - (p + c.length) - a.length = i - (a.length + c.length) by omega]
  · rw [if_neg h1, if_neg h1, if_neg (by omega)]

theorem isDigit_char (d : Nat) (h : d < 10) : IsDigit (digitChar false d) := by
  unfold digitChar IsDigit
  rw [if_pos h]
  omega

theorem dg_lt (m10 : Nat) : ∀ d ∈ dg m10, d < 10 := (dg_digits m10).1

theorem withPoint_nil (dp : List Nat) : withPoint dp [] = [] := rfl

theorem withPoint_append (dp a b : List Nat) : withPoint dp (a ++ b) = withPoint dp a ++ withPoint dp b := by
  simp [withPoint]

theorem withPoint_none (dp l : List Nat) (h : ∀ c ∈ l, c ≠ 46) : withPoint dp l = l := by
  induction l with
  | nil => rfl
  | cons c l ih =>
    have h1 : c ≠ 46 := h c (by simp)
    have := ih fun x hx => h x (by simp [hx])
    unfold withPoint at *
    rw [List.flatMap_cons, this, if_neg h1]
    rfl

theorem withPoint_digits (dp l : List Nat) (h : ∀ d ∈ l, d < 10) :
    withPoint dp (l.map (digitChar false)) = l.map (digitChar false) := by
  apply withPoint_none
  intro c hc
  obtain ⟨d, hd, rfl⟩ := List.mem_map.mp hc
  have := isDigit_char d (h d hd)
  unfold IsDigit at this
  omega

theorem withPoint_cons (dp l : List Nat) : withPoint dp (46 :: l) = dp ++ withPoint dp l := by
  simp [withPoint]

theorem expPart_no_point (upperE : Bool) (e : Int) : ∀ c ∈ expPart upperE e, c ≠ 46 := by
  intro c hc
  unfold expPart at hc
  simp only [List.mem_append, List.mem_cons, List.not_mem_nil, or_false] at hc
  rcases hc with ((h | h) | h) | h
  · rw [h]; split <;> omega
  · rw [h]; split <;> omega
  · split at h
    · simp at h; omega
    · simp at h
  · unfold decText at h
    obtain ⟨d, hd, rfl⟩ := List.mem_map.mp h
    have := isDigit_char d (dg_lt _ d hd)
    unfold IsDigit at this
    omega

/-- `Localised` for a text without sign. -/
def Loc0 (g sep dp plain txt : List Nat) : Prop :=
  ∃ int tail int', plain = int ++ tail ∧ (∀ c ∈ int, IsDigit c) ∧ (∀ c, tail.head? = some c → ¬ IsDigit c) ∧
    Grouped g sep int int' ∧ txt = int' ++ withPoint dp tail

theorem loc0_sign {g sep dp plain txt : List Nat} (h : Loc0 g sep dp plain txt) (sign : List Nat)
    (hs : sign = [] ∨ sign = [43] ∨ sign = [45]) : Localised g sep dp (sign ++ plain) (sign ++ txt) := by
  obtain ⟨int, tail, int', h1, h2, h3, h4, h5⟩ := h
  exact ⟨sign, int, tail, int', by rw [h1, List.append_assoc], hs, h2, h3, h4, by rw [h5, List.append_assoc]⟩

/-! ## Scientific -/

/-- The scientific text with a locale. -/
def sciLc (dp : List Nat) (upperE : Bool) (m10 : Nat) (e : Int) : List Nat :=
  (if m10 < 10 then [48 + m10] else (decText m10).take 1 ++ (dp ++ (decText m10).drop 1)) ++ expPart upperE e

theorem dgsCommon_eq (dp : List Nat) (m : Mem) (iter m10 : Nat) :
    dgsCommon dp m iter m10 (decText m10).length =
      some (store m iter ((decText m10).take 1 ++ (dp ++ (decText m10).drop 1)),
        iter + ((decText m10).take 1 ++ (dp ++ (decText m10).drop 1)).length) := by
  have hpos := decText_len_pos m10
  obtain ⟨x, l, hd⟩ : ∃ x l, decText m10 = x :: l := by
    cases h : decText m10 with
    | nil => rw [h] at hpos; simp at hpos
    | cons x l => exact ⟨x, l, rfl⟩
  unfold dgsCommon
  simp only []
  rw [show iter + (decText m10).length + dp.length = (iter + dp.length) + (decText m10).length by omega, mainImpl_eq]
  simp only [Option.bind_eq_bind, Option.bind_some, putPoint_eq]
  have hs := store_shift_gen m iter [x] l dp
  simp only [List.length_singleton] at hs
  rw [hd, show store m (iter + dp.length) (x :: l) (iter + dp.length) = x from store_head _ _ _ _]
  simp only [List.take_succ_cons, List.take_zero, List.drop_succ_cons, List.drop_zero]
  rw [← hs]
  simp
  omega

theorem lcSciDecision_eq (t : Trait) (ht : IsT t) (dp : List Nat) (upperE : Bool) (m : Mem) (iter m10 : Nat) (e10 : Int)
    (h : m10 < 10 ^ t.m10digits) (he : (e10 + (decText m10).length - 1).natAbs < 10 ^ t.e10digits) :
    lcSciDecision t dp upperE m iter m10 e10 =
      some (store m iter (sciLc dp upperE m10 (e10 + (decText m10).length - 1)),
        iter + (sciLc dp upperE m10 (e10 + (decText m10).length - 1)).length) := by
  have hed : t.e10digits = 2 ∨ t.e10digits = 3 := by rcases ht with rfl | rfl <;> simp [tF64, tF32]
  unfold lcSciDecision sciLc
  by_cases h10 : m10 < 10
  · have h1 : (decText m10).length = 1 := by rw [decText_small m10 h10]; rfl
    have he' : e10 + ((1 : Nat) : Int) - 1 = e10 := by push_cast; ring
    rw [h1, he'] at he ⊢
    rw [if_pos h10, if_pos h10, fpE_eq t hed _ _ _ _ he, store_store_at _ _ _ _ _ (by simp)]
    simp [Nat.add_assoc]
    omega
  · rw [if_neg h10, if_neg h10]
    simp only []
    rw [ryuLen_eq t ht m10 h, dgsCommon_eq]
    simp only [Option.bind_eq_bind, Option.bind_some]
    rw [show e10 + (((decText m10).length : Int) - 1) = e10 + (decText m10).length - 1 by ring, fpE_eq t hed _ _ _ _ he,
      store_store_at _ _ _ _ _ rfl]
    simp only [List.length_append, Nat.add_assoc]

theorem grouped_one (g sep : List Nat) (d : Nat) : Grouped g sep [d] [d] :=
  .plain d [] [] (by simpa using not_boundary_zero g) .nil

theorem sciLc_loc (g sep dp : List Nat) (upperE : Bool) (m10 : Nat) (e : Int) :
    Loc0 g sep dp (sciText false upperE m10 e) (sciLc dp upperE m10 e) := by
  have hexp := withPoint_none dp _ (expPart_no_point upperE e)
  have hhead : ∀ c, (expPart upperE e).head? = some c → ¬ IsDigit c := by
    intro c hc
    unfold expPart at hc
    simp at hc
    unfold IsDigit
    rw [← hc]
    split <;> omega
  rw [sciText_eq]
  unfold sciLc
  by_cases h10 : m10 < 10
  · rw [if_pos h10, if_pos h10]
    refine ⟨[48 + m10], _, [48 + m10], rfl, ?_, hhead, grouped_one _ _ _, by rw [hexp]⟩
    intro c hc
    rw [List.mem_singleton.mp hc]
    unfold IsDigit
    omega
  · rw [if_neg h10, if_neg h10]
    obtain ⟨x, l, hd⟩ := dg_cons m10
    have hdt : decText m10 = digitChar false x :: l.map (digitChar false) := by
      unfold decText; rw [show numeral 10 m10 = x :: l from hd]; rfl
    have hl := dg_lt m10
    rw [hd] at hl
    refine ⟨[digitChar false x], 46 :: (l.map (digitChar false) ++ expPart upperE e), [digitChar false x], ?_, ?_, ?_,
      grouped_one _ _ _, ?_⟩
    · rw [hd, pt]; simp
    · intro c hc
      rw [List.mem_singleton.mp hc]
      exact isDigit_char x (hl x (by simp))
    · intro c hc
      simp at hc
      unfold IsDigit
      omega
    · rw [withPoint_cons, withPoint_append, hexp, withPoint_digits dp l (fun d h => hl d (by simp [h])), hdt]
      simp

theorem sciLc_length (dp : List Nat) (upperE : Bool) (m10 : Nat) (e : Int) :
    (sciLc dp upperE m10 e).length ≤ (decText m10).length + dp.length + (expPart upperE e).length := by
  unfold sciLc
  have := decText_len_pos m10
  split <;> simp <;> omega

/-! ## Fixed -/

theorem inBuffer_store (cap : Nat) (m : Mem) (l : List Nat) (h : l.length ≤ cap) :
    inBuffer cap (some (store m 0 l, 0 + l.length)) = some l := by
  unfold inBuffer
  simp only [Option.bind_some, Nat.zero_add, if_pos h]
  have := load_store_prefix m 0 l []
  rw [List.append_nil] at this
  rw [this]

theorem digits_all (l : List Nat) (h : ∀ d ∈ l, d < 10) : ∀ c ∈ l.map (digitChar false), IsDigit c := by
  intro c hc
  obtain ⟨d, hd, rfl⟩ := List.mem_map.mp hc
  exact isDigit_char d (h d hd)

theorem noGrouping_spec (nu : LcNum) (h : noGrouping nu = true) (ds : List Nat) : Grouped nu.grouping nu.sep ds ds := by
  unfold noGrouping at h
  simp only [Bool.or_eq_true, beq_iff_eq] at h
  exact grouped_plain _ _ _ h

theorem grouping_ne (nu : LcNum) (h : ¬ noGrouping nu = true) : nu.grouping ≠ [] := by
  intro h0
  apply h
  unfold noGrouping
  rw [h0]
  rfl

/-- The shapes of the text in fixed form. -/
structure FixShape (nu : LcNum) (m10 : Nat) (e10 : Int) (txt : List Nat) (int tail int' : List Nat) : Prop where
  plain : fixText false m10 e10 = int ++ tail
  dig : ∀ c ∈ int, IsDigit c
  head : ∀ c, tail.head? = some c → ¬ IsDigit c
  grp : Grouped nu.grouping nu.sep int int'
  text : txt = int' ++ withPoint nu.dp tail
  pos : 0 < int.length
  len : (0 ≤ e10 ∧ (int.length : Int) = (decText m10).length + e10 ∧ tail = []) ∨
    (e10 < 0 ∧ (int.length : Int) = max 1 ((decText m10).length + e10) ∧
      ((withPoint nu.dp tail).length : Int) = nu.dp.length - e10)

theorem lcCase0_eq (t : Trait) (ht : IsT t) (nu : LcNum) (total : Nat) (m : Mem) (iter m10 : Nat) (e10 : Int)
    (h : m10 < 10 ^ t.m10digits) (he : 1 ≤ e10) (he2 : e10 < 1000) (hroom : (decText m10).length + e10 ≤ total) :
    ∃ txt int tail int', lcCase0 t nu total m iter m10 (decText m10).length (e10 + (decText m10).length - 1) =
      some (store m iter txt, iter + txt.length) ∧ FixShape nu m10 e10 txt int tail int' := by
  have hl := dg_length m10
  have hlt : ∀ d ∈ dg m10 ++ List.replicate e10.toNat 0, d < 10 := by
    intro d hd
    rcases List.mem_append.mp hd with h1 | h1
    · exact dg_lt m10 d h1
    · rw [(List.mem_replicate.mp h1).2]; omega
  have hplain : fixText false m10 e10 = (dg m10 ++ List.replicate e10.toNat 0).map (digitChar false) ++ [] := by
    unfold fixText
    simp only []
    rw [if_pos (by omega)]
    simp [Spec.decNumeral]
  have hlen : (((dg m10 ++ List.replicate e10.toNat 0).map (digitChar false)).length : Int) = (decText m10).length + e10 := by
    simp [hl]; omega
  have hpos := decText_len_pos m10
  have hdn : Spec.decNumeral false false (dg m10 ++ List.replicate e10.toNat 0) [] none =
      (dg m10 ++ List.replicate e10.toNat 0).map (digitChar false) := by
    simp [Spec.decNumeral]
  unfold lcCase0
  by_cases hg : noGrouping nu = true
  · rw [if_pos hg, fixedCase0_eq t ht (comma := false) m iter m10 e10 h he he2, hdn]
    exact ⟨_, _, [], _, rfl, hplain, digits_all _ hlt, by simp, noGrouping_spec nu hg _, by simp [withPoint_nil], by omega,
      Or.inl ⟨by omega, hlen, rfl⟩⟩
  · rw [if_neg hg, fixedCase0_eq t ht (comma := false) _ _ m10 e10 h he he2, hdn, inBuffer_store _ _ _ (by omega)]
    simp only [Option.bind_some]
    obtain ⟨txt, h1, h2⟩ := handleBuffer_spec nu total ((dg m10 ++ List.replicate e10.toNat 0).map (digitChar false)) m iter
      (by intro h0; rw [h0] at hlen; simp at hlen; omega) (by omega) (digits_all _ hlt) (grouping_ne nu hg)
    exact ⟨txt, _, [], txt, h1, hplain, digits_all _ hlt, by simp, h2, by simp [withPoint_nil], by omega,
      Or.inl ⟨by omega, hlen, rfl⟩⟩

theorem dec_split (m10 k : Nat) : decText m10 = ((dg m10).take k).map (digitChar false) ++ ((dg m10).drop k).map (digitChar false) := by
  rw [← List.map_append, List.take_append_drop]; rfl

theorem dec_take (m10 k : Nat) : (decText m10).take k = ((dg m10).take k).map (digitChar false) := by
  unfold decText; rw [List.map_take]

theorem dec_drop (m10 k : Nat) : (decText m10).drop k = ((dg m10).drop k).map (digitChar false) := by
  unfold decText; rw [List.map_drop]

theorem plainCase1_eq (dp : List Nat) (m : Mem) (iter m10 : Nat) (e10 : Int) (h10 : (decText m10).length < 1000) (he : e10 ≤ 0)
    (he2 : 0 ≤ e10 + (decText m10).length - 1) :
    plainCase1 dp m iter m10 (decText m10).length (e10 + (decText m10).length - 1) =
      some (store m iter ((decText m10).take (e10 + (decText m10).length).toNat ++
          (if e10 = 0 then [] else dp ++ (decText m10).drop (e10 + (decText m10).length).toNat)),
        iter + ((decText m10).take (e10 + (decText m10).length).toNat ++
          (if e10 = 0 then [] else dp ++ (decText m10).drop (e10 + (decText m10).length).toNat)).length) := by
  unfold plainCase1
  simp only []
  by_cases h0 : e10 = 0
  · subst h0
    rw [if_pos (by omega), mainImpl_eq]
    simp
  · rw [if_neg (by omega), if_neg h0, show iter + ((decText m10).length + dp.length) = (iter + dp.length) + (decText m10).length by omega,
      mainImpl_eq]
    have hk : toU32 (e10 + (decText m10).length - 1 + 1) = (e10 + (decText m10).length).toNat := by
      unfold toU32; omega
    simp only [Option.bind_eq_bind, Option.bind_some, hk, putPoint_eq]
    generalize hkk : (e10 + (decText m10).length).toNat = k
    have hklt : k < (decText m10).length := by omega
    have hlen : ((decText m10).take k).length = k := by rw [List.length_take]; omega
    have hload : load (store m (iter + dp.length) (decText m10)) (iter + dp.length) k = (decText m10).take k := by
      have := load_store_prefix m (iter + dp.length) ((decText m10).take k) ((decText m10).drop k)
      rwa [hlen, List.take_append_drop] at this
    rw [hload]
    have hs := store_shift_gen m iter ((decText m10).take k) ((decText m10).drop k) dp
    rw [hlen, List.take_append_drop] at hs
    rw [hs]
    simp only [List.length_append, hlen, List.length_drop]
    congr 2
    omega

theorem lcCase1_eq (t : Trait) (ht : IsT t) (nu : LcNum) (m : Mem) (iter m10 : Nat) (e10 : Int)
    (h : m10 < 10 ^ t.m10digits) (he : e10 ≤ 0) (he2 : 0 ≤ e10 + (decText m10).length - 1) :
    ∃ txt int tail int', lcCase1 t nu m iter m10 (decText m10).length (e10 + (decText m10).length - 1) =
      some (store m iter txt, iter + txt.length) ∧ FixShape nu m10 e10 txt int tail int' := by
  have hdig : (decText m10).length ≤ t.m10digits :=
    (decText_len_le m10 _ (by rcases ht with rfl | rfl <;> norm_num [tF64, tF32])).mpr h
  have hdm : t.m10digits ≤ 17 := by rcases ht with rfl | rfl <;> norm_num [tF64, tF32]
  have hl := dg_length m10
  generalize hkk : (e10 + (decText m10).length).toNat = k
  have hk1 : 0 < k := by omega
  have hk2 : k ≤ (decText m10).length := by omega
  -- the shape
  have hplain : fixText false m10 e10 = (decText m10).take k ++ (if e10 = 0 then [] else 46 :: (decText m10).drop k) := by
    unfold fixText
    simp only []
    rw [if_neg (by omega), if_pos (by omega), hl, hkk, dec_take, dec_drop]
    by_cases h0 : e10 = 0
    · rw [if_pos h0, List.drop_eq_nil_of_le (by omega)]
      simp [Spec.decNumeral]
    · rw [if_neg h0]
      have hne : (dg m10).drop k ≠ [] := by
        intro h1
        have := congrArg List.length h1
        rw [List.length_drop, List.length_nil] at this
        omega
      simp [Spec.decNumeral, hne]
  have htd : ∀ c ∈ (decText m10).take k, IsDigit c := by
    rw [dec_take]
    exact digits_all _ (fun d hd => dg_lt m10 d (List.mem_of_mem_take hd))
  have hhead : ∀ c, (if e10 = 0 then [] else 46 :: (decText m10).drop k).head? = some c → ¬ IsDigit c := by
    intro c hc
    split at hc
    · simp at hc
    · simp at hc
      unfold IsDigit
      omega
  have hwp : withPoint nu.dp (if e10 = 0 then [] else 46 :: (decText m10).drop k) =
      if e10 = 0 then [] else nu.dp ++ (decText m10).drop k := by
    split
    · rfl
    · rw [withPoint_cons, dec_drop, withPoint_digits _ _ (fun d hd => dg_lt m10 d (List.mem_of_mem_drop hd))]
  have hshape : ∀ int', Grouped nu.grouping nu.sep ((decText m10).take k) int' →
      FixShape nu m10 e10 (int' ++ (if e10 = 0 then [] else nu.dp ++ (decText m10).drop k)) ((decText m10).take k)
        (if e10 = 0 then [] else 46 :: (decText m10).drop k) int' := by
    intro int' hg
    refine ⟨hplain, htd, hhead, hg, by rw [hwp], by rw [List.length_take]; omega, ?_⟩
    by_cases h0 : e10 = 0
    · left
      rw [if_pos h0, List.length_take]
      exact ⟨by omega, by omega, rfl⟩
    · right
      rw [hwp, if_neg h0, List.length_take, List.length_append, List.length_drop]
      omega
  unfold lcCase1
  by_cases hg : noGrouping nu = true
  · rw [if_pos hg, plainCase1_eq nu.dp m iter m10 e10 (by omega) he he2, hkk]
    exact ⟨_, _, _, _, rfl, hshape _ (noGrouping_spec nu hg _)⟩
  · rw [if_neg hg]
    unfold groupCase1
    simp only []
    have hm := mainImpl_eq (fun _ => 0) 0 m10
    rw [Nat.zero_add] at hm
    have hb := inBuffer_store (t.m10digits + t.e10digits + 2) (fun _ => 0) (decText m10) (by omega)
    rw [Nat.zero_add] at hb
    rw [hm, Option.map_some, hb]
    simp only [Option.bind_eq_bind, Option.bind_some]
    by_cases h0 : e10 = 0
    · have hall : (decText m10).take k = decText m10 := List.take_of_length_le (by omega)
      rw [if_pos (by omega)]
      obtain ⟨txt, h1, h2⟩ := handleBuffer_spec nu (t.m10digits + t.e10digits + 2) (decText m10) m iter
        (by intro h1; rw [h1] at hk2; simp at hk2; omega) (by omega) (by rw [← hall]; exact htd) (grouping_ne nu hg)
      have := hshape txt (by rw [hall]; exact h2)
      rw [if_pos h0, if_pos h0, List.append_nil] at this
      exact ⟨txt, _, _, _, h1, this⟩
    · have hk : toU32 (e10 + (decText m10).length - 1 + 1) = k := by unfold toU32; omega
      rw [if_neg (by omega), hk]
      obtain ⟨txt, h1, h2⟩ := handleBuffer_spec nu (t.m10digits + t.e10digits + 2) ((decText m10).take k) m iter
        (by intro h1
            have := congrArg List.length h1
            rw [List.length_take, List.length_nil] at this
            omega) (by rw [List.length_take]; omega) htd (grouping_ne nu hg)
      rw [h1]
      simp only [Option.bind_some, putPoint_eq]
      have := hshape txt h2
      rw [if_neg h0, if_neg h0] at this
      refine ⟨_, _, _, _, ?_, this⟩
      rw [show store (store m iter txt) (iter + txt.length) nu.dp = store m iter (txt ++ nu.dp) from store_store_append _ _ _ _,
        store_store_at _ _ _ _ _ (by rw [List.length_append]; omega)]
      simp only [List.append_assoc, List.length_append]
      congr 2
      omega

theorem lcCase2_eq (nu : LcNum) (m : Mem) (iter m10 : Nat) (e10 : Int) (he : -1000 < e10)
    (he2 : e10 + (decText m10).length - 1 < 0) :
    ∃ txt int tail int', lcCase2 nu.dp m iter m10 (decText m10).length (e10 + (decText m10).length - 1) =
      some (store m iter txt, iter + txt.length) ∧ FixShape nu m10 e10 txt int tail int' := by
  have hl := dg_length m10
  have hpos := decText_len_pos m10
  have hk : toU32 (-(e10 + (decText m10).length - 1) - 1) = (-(e10 + (decText m10).length)).toNat := by
    unfold toU32; omega
  have hz : ∀ d ∈ List.replicate (-(e10 + (decText m10).length)).toNat 0 ++ dg m10, d < 10 := by
    intro d hd
    rcases List.mem_append.mp hd with h1 | h1
    · rw [(List.mem_replicate.mp h1).2]; omega
    · exact dg_lt m10 d h1
  have hwp : withPoint nu.dp (46 :: (List.replicate (-(e10 + (decText m10).length)).toNat 0 ++ dg m10).map (digitChar false)) =
      nu.dp ++ (List.replicate (-(e10 + (decText m10).length)).toNat 0 ++ dg m10).map (digitChar false) := by
    rw [withPoint_cons, withPoint_digits _ _ hz]
  refine ⟨[48] ++ (nu.dp ++ (List.replicate (-(e10 + (decText m10).length)).toNat 0 ++ dg m10).map (digitChar false)),
    [48], 46 :: (List.replicate (-(e10 + (decText m10).length)).toNat 0 ++ dg m10).map (digitChar false), [48], ?_, ?_⟩
  · unfold lcCase2
    simp only [hk, fillZeros_eq, putPoint_eq, mainImpl_eq, Option.bind_eq_bind, Option.bind_some]
    rw [store_store_at _ _ _ _ _ (by simp), store_store_at _ _ _ _ _ (by simp [Nat.add_assoc]),
      store_store_at _ _ _ _ _ (by simp [Nat.add_assoc])]
    have hd : digitChar false 0 = 48 := rfl
    have hdt : (dg m10).map (digitChar false) = decText m10 := rfl
    rw [List.map_append, List.map_replicate, hd, hdt]
    simp only [List.append_assoc, List.length_append, List.length_singleton, List.length_replicate]
    congr 2
    omega
  · refine ⟨?_, ?_, ?_, grouped_one _ _ _, by rw [hwp], by simp, Or.inr ⟨by omega, by simp; omega, ?_⟩⟩
    · unfold fixText
      simp only []
      rw [if_neg (by omega), if_neg (by omega), hl]
      have hne : List.replicate (-(e10 + (decText m10).length)).toNat 0 ++ dg m10 ≠ [] := by
        intro h1
        exact numeral_ne_nil 10 m10 (List.append_eq_nil_iff.mp h1).2
      have hd : digitChar false 0 = 48 := rfl
      simp only [Spec.decNumeral, if_neg hne]
      simp [hd]
    · intro c hc
      rw [List.mem_singleton.mp hc]
      unfold IsDigit
      omega
    · intro c hc
      simp at hc
      unfold IsDigit
      omega
    · rw [hwp]
      simp [hl]
      omega

theorem lcFixedDecision_eq (t : Trait) (ht : IsT t) (nu : LcNum) (m : Mem) (iter m10 : Nat) (e10 : Int)
    (h : m10 < 10 ^ t.m10digits) (he1 : -1000 < e10) (he2 : e10 < 1000) (hmax : e10 + (decText m10).length - 1 ≤ t.e10max) :
    ∃ txt int tail int', lcFixedDecision t nu m iter m10 e10 = some (store m iter txt, iter + txt.length) ∧
      FixShape nu m10 e10 txt int tail int' := by
  unfold lcFixedDecision
  rw [ryuLen_eq t ht m10 h]
  simp only []
  by_cases h1 : ((decText m10).length : Int) ≤ e10 + (decText m10).length - 1
  · rw [if_pos h1]
    exact lcCase0_eq t ht nu _ m iter m10 e10 h (by omega) he2 (by push_cast; omega)
  · rw [if_neg h1]
    by_cases h2 : 0 ≤ e10 + (decText m10).length - 1
    · rw [if_pos ⟨h2, by omega⟩]
      exact lcCase1_eq t ht nu m iter m10 e10 h (by omega) h2
    · rw [if_neg (by tauto)]
      exact lcCase2_eq nu m iter m10 e10 he1 (by omega)

end Verif.LcFloat
