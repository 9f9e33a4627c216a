import Verif.LcFloat.Model
import Verif.Lc.Lemmas
/-! # Grouping the digits in a buffer -/
namespace Verif.LcFloat
open Verif Verif.IntPrint Verif.Lc

/-- The last `k` digits of the source `R` (given backwards). -/
def low (R : List Nat) (k : Nat) : List Nat := (R.take k).reverse

theorem low_length (R : List Nat) (k : Nat) (h : k ≤ R.length) : (low R k).length = k := by simp [low, h]

theorem low_succ (R : List Nat) (k c : Nat) (r : List Nat) (h : R.drop k = c :: r) : low R (k + 1) = c :: low R k := by
  unfold low
  have hk : k < R.length := by
    by_contra hc
    rw [List.drop_eq_nil_of_le (by omega)] at h
    exact absurd h (by simp)
  have hc : R[k] = c := by
    rw [List.drop_eq_getElem_cons hk] at h
    exact (List.cons.inj h).1
  rw [List.take_add_one, List.getElem?_eq_getElem hk, hc]
  simp

/-- The text before the digit number `k` is written. -/
def Pend (g : List Nat) (ch : Nat) (R : List Nat) (k : Nat) (acc : List Nat) : Prop :=
  ∃ T, Grouped g [ch] (low R k) T ∧ ((IsBoundary g k ∧ acc = ch :: T) ∨ (¬ IsBoundary g k ∧ acc = T))

theorem pend_length {g R acc : List Nat} {ch k : Nat} (hk : k ≤ R.length) (h : Pend g ch R k acc) : acc.length ≤ 2 * k := by
  obtain ⟨T, hT, h⟩ := h
  have hl := low_length R k hk
  rcases Nat.eq_zero_or_pos k with h0 | h0
  · subst h0
    rcases h with ⟨h, _⟩ | ⟨_, h⟩
    · exact absurd h (not_boundary_zero g)
    · subst h
      have : low R 0 = [] := by simp [low]
      rw [this] at hT
      cases hT; simp
  · have := grouped_length hT (by intro h1; rw [h1] at hl; simp at hl; omega)
    simp only [hl, List.length_singleton, Nat.mul_one] at this
    rcases h with ⟨_, h⟩ | ⟨_, h⟩ <;> subst h <;> simp <;> omega

theorem pend_push {g R acc : List Nat} {ch k c : Nat} {r : List Nat} (hk : k ≤ R.length) (hd : R.drop k = c :: r)
    (h : Pend g ch R k acc) : Grouped g [ch] (low R (k + 1)) (c :: acc) := by
  obtain ⟨T, hT, h⟩ := h
  have hl := low_length R k hk
  rw [low_succ R k c r hd]
  rcases h with ⟨h1, h⟩ | ⟨h1, h⟩ <;> subst h
  · exact .sep _ _ _ (by rwa [hl]) hT
  · exact .plain _ _ _ (by rwa [hl]) hT

theorem group_spec (cap ch : Nat) (g R : List Nat) (hcap : 2 * R.length ≤ cap) (e : Nat) : ∀ k acc, k < R.length → 0 < e →
    (∀ k', k < k' → k' < k + e → ¬ IsBoundary g k') → Pend g ch R k acc →
    (R.length ≤ k + e → ∃ r txt, group cap e (R.drop k) acc = some (true, r, txt) ∧ Grouped g [ch] (low R R.length) txt) ∧
    (k + e < R.length → ∃ txt, group cap e (R.drop k) acc = some (false, R.drop (k + e), txt) ∧
      Grouped g [ch] (low R (k + e)) txt) := by
  induction e with
  | zero => intro k acc _ h; omega
  | succ e ih =>
    intro k acc hk _ hnb hp
    have hlen := pend_length (by omega) hp
    obtain ⟨c, hc⟩ : ∃ c, R.drop k = c :: R.drop (k + 1) := ⟨R[k], List.drop_eq_getElem_cons hk⟩
    have hG := pend_push (by omega) hc hp
    have hstep : group cap (e + 1) (R.drop k) acc =
        if (R.drop (k + 1)).isEmpty then some (true, R.drop (k + 1), c :: acc) else group cap e (R.drop (k + 1)) (c :: acc) := by
      rw [hc, group, if_pos (by omega)]
    rw [hstep]
    by_cases hL : k + 1 = R.length
    · have h0 : R.drop (k + 1) = [] := List.drop_eq_nil_of_le (by omega)
      refine ⟨fun _ => ⟨[], c :: acc, by rw [h0]; rfl, by rw [← hL]; exact hG⟩, fun h => by omega⟩
    · have h0 : (R.drop (k + 1)).isEmpty = false := by
        rw [List.isEmpty_eq_false_iff]
        intro h
        have := congrArg List.length h
        simp at this
        omega
      rw [h0]
      simp only [Bool.false_eq_true, if_false]
      rcases Nat.eq_zero_or_pos e with he | he
      · subst he
        exact ⟨fun h => by omega, fun _ => ⟨c :: acc, by rw [group], hG⟩⟩
      · have := ih (k + 1) (c :: acc) (by omega) he (fun k' h1 h2 => hnb k' (by omega) (by omega))
          ⟨_, hG, Or.inr ⟨hnb (k + 1) (by omega) (by omega), rfl⟩⟩
        rw [show k + (e + 1) = k + 1 + e by omega]
        exact this

theorem rest_spec (cap ch : Nat) (g R : List Nat) (hcap : 2 * R.length ≤ cap) (m : Nat) (acc : List Nat)
    (hL : groupSum g m < R.length) (h0 : groupSize g m = 0) (hp : Pend g ch R (groupSum g m) acc) :
    ∃ txt, rest cap (R.drop (groupSum g m)) acc = some txt ∧ Grouped g [ch] (low R R.length) txt := by
  obtain ⟨r, txt, h1, h2⟩ := (group_spec cap ch g R hcap (R.drop (groupSum g m)).length (groupSum g m) acc hL
    (by simp; omega) (fun k' h1 _ => not_boundary_end g m k' h0 h1) hp).1 (by simp; omega)
  exact ⟨txt, by simp only [rest, h1]; rfl, h2⟩

/-- One group followed by the separator. -/
theorem one_group (cap ch : Nat) (g R : List Nat) (hcap : 2 * R.length ≤ cap) (m : Nat) (acc : List Nat)
    (hL : groupSum g m < R.length) (hs : ∀ j ≤ m, groupSize g j ≠ 0) (hp : Pend g ch R (groupSum g m) acc)
    (k : List Nat → List Nat → Option (List Nat)) :
    (∃ txt, ((group cap (groupSize g m) (R.drop (groupSum g m)) acc).bind fun s => if s.1 then some s.2.2
        else if s.2.2.length < cap then k s.2.1 (ch :: s.2.2) else none) = some txt ∧
      Grouped g [ch] (low R R.length) txt) ∨
    (∃ acc', groupSum g (m + 1) < R.length ∧ Pend g ch R (groupSum g (m + 1)) acc' ∧
      ((group cap (groupSize g m) (R.drop (groupSum g m)) acc).bind fun s => if s.1 then some s.2.2
        else if s.2.2.length < cap then k s.2.1 (ch :: s.2.2) else none) = k (R.drop (groupSum g (m + 1))) acc') := by
  have hpos : 0 < groupSize g m := Nat.pos_of_ne_zero (hs m (le_refl _))
  have hg := group_spec cap ch g R hcap (groupSize g m) (groupSum g m) acc hL hpos
    (fun k' h1 h2 => not_boundary_between g m k' h1 (by simpa [groupSum] using h2)) hp
  rcases Nat.lt_or_ge (groupSum g m + groupSize g m) R.length with h | h
  · obtain ⟨txt, h1, h2⟩ := hg.2 h
    have hl := low_length R (groupSum g m + groupSize g m) (by omega)
    have hl2 := grouped_length h2 (by intro h0; rw [h0] at hl; simp at hl; omega)
    simp only [hl, List.length_singleton, Nat.mul_one] at hl2
    refine Or.inr ⟨ch :: txt, h, ⟨txt, h2, Or.inl ⟨⟨m, hs, rfl⟩, rfl⟩⟩, ?_⟩
    rw [h1]
    simp only [Option.bind_some, Bool.false_eq_true, if_false]
    rw [if_pos (by omega)]
    rfl
  · obtain ⟨r, txt, h1, h2⟩ := hg.1 h
    exact Or.inl ⟨txt, by simp [h1], h2⟩

theorem repeatLast_spec (cap ch : Nat) (g R : List Nat) (hcap : 2 * R.length ≤ cap) (e n0 : Nat)
    (hsize : ∀ m, n0 ≤ m → groupSize g m = e) (hs : ∀ j, groupSize g j ≠ 0) : ∀ fuel m acc, n0 ≤ m →
    groupSum g m < R.length → R.length ≤ groupSum g m + fuel → Pend g ch R (groupSum g m) acc →
    ∃ txt, repeatLast cap ch e fuel (R.drop (groupSum g m)) acc = some txt ∧ Grouped g [ch] (low R R.length) txt := by
  intro fuel
  induction fuel with
  | zero => intro m s _ h1 h2; omega
  | succ fuel ih =>
    intro m acc hm hL hf hp
    have hpos := hs m
    rw [repeatLast, ← hsize m hm]
    rcases one_group cap ch g R hcap m acc hL (fun j _ => hs j) hp (repeatLast cap ch (groupSize g m) fuel) with
      h | ⟨s', h1, h3, h4⟩
    · exact h
    · rw [h4, hsize m hm]
      exact ih (m + 1) s' (by omega) h1 (by simp only [groupSum] at *; omega) h3

theorem groupingLoop_spec (cap ch : Nat) (R : List Nat) (hcap : 2 * R.length ≤ cap) (fuel : Nat) (hf : R.length ≤ fuel)
    (r : List Nat) : ∀ pre acc, (∀ x ∈ pre, x ≠ 0) → (pre = [] → r ≠ []) → groupSum (pre ++ r) pre.length < R.length →
    Pend (pre ++ r) ch R (groupSum (pre ++ r) pre.length) acc →
    ∃ txt, groupingLoop cap ch fuel (pre.getLast?.getD 0) r (R.drop (groupSum (pre ++ r) pre.length)) acc = some txt ∧
      Grouped (pre ++ r) [ch] (low R R.length) txt := by
  induction r with
  | nil =>
    intro pre s hpre hne hL hp
    have hne : pre ≠ [] := fun h => hne h rfl
    rw [List.append_nil] at *
    rw [groupingLoop]
    have hlast : pre.getLast?.getD 0 ≠ 0 := by
      rw [List.getLast?_eq_some_getLast hne, Option.getD_some]
      exact hpre _ (List.getLast_mem hne)
    refine repeatLast_spec cap ch pre R hcap _ pre.length (fun m hm => groupSize_last pre m hm) ?_ fuel pre.length s
      (le_refl _) hL (by omega) hp
    intro j
    rcases Nat.lt_or_ge j pre.length with h | h
    · have := groupSize_pre pre [] j h
      rw [List.append_nil] at this
      rw [this]; exact hpre _ (List.getElem_mem h)
    · rw [groupSize_last pre j h]; exact hlast
  | cons e r ih =>
    intro pre s hpre _ hL hp
    rw [groupingLoop]
    have hsz := groupSize_append pre e r
    by_cases he : e = 0
    · rw [if_pos he]
      exact rest_spec cap ch _ R hcap pre.length s hL (by rw [hsz]; exact he) hp
    · rw [if_neg he]
      have hs : ∀ j ≤ pre.length, groupSize (pre ++ e :: r) j ≠ 0 := by
        intro j hj
        rcases Nat.lt_or_ge j pre.length with h | h
        · rw [groupSize_pre pre _ j h]; exact hpre _ (List.getElem_mem h)
        · rw [show j = pre.length by omega, hsz]; exact he
      have h1 := one_group cap ch (pre ++ e :: r) R hcap pre.length s hL hs hp (groupingLoop cap ch fuel e r)
      rw [hsz] at h1
      rcases h1 with h | ⟨s', h1, h3, h4⟩
      · exact h
      · rw [h4]
        have := ih (pre ++ [e]) s' (by
            intro x hx
            rcases List.mem_append.mp hx with h | h
            · exact hpre x h
            · rw [List.mem_singleton.mp h]; exact he) (by simp)
          (by simpa using h1) (by simpa using h3)
        simpa using this

theorem handleBuffer_spec (nu : LcNum) (digits : Nat) (src : List Nat) (m : Mem) (iter : Nat) (hne : src ≠ [])
    (hcap : src.length ≤ digits) (hd : ∀ c ∈ src, IsDigit c) (hg : nu.grouping ≠ []) :
    ∃ txt, handleBuffer nu digits src m iter = some (store m iter txt, iter + txt.length) ∧
      Grouped nu.grouping nu.sep src txt := by
  have hlen : 0 < src.length := List.length_pos_iff.mpr hne
  have hlow : low src.reverse src.reverse.length = src := by
    unfold low
    rw [List.take_length, List.reverse_reverse]
  rw [List.length_reverse] at hlow
  have key : ∀ ch, ∃ txt, groupingLoop (digits * 2) ch src.length 0 nu.grouping src.reverse [] = some txt ∧
      Grouped nu.grouping [ch] src txt := by
    intro ch
    have := groupingLoop_spec (digits * 2) ch src.reverse (by simp; omega) src.length (by simp) nu.grouping [] []
      (by simp) (fun _ => hg) (by simpa [groupSum] using hlen)
      ⟨[], by simpa [low, groupSum] using Grouped.nil, Or.inr ⟨by simpa [groupSum] using not_boundary_zero nu.grouping, rfl⟩⟩
    simpa [groupSum, hlow] using this
  unfold handleBuffer
  by_cases h1 : nu.sep.length = 1
  · obtain ⟨txt, e1, e2⟩ := key (nu.sep.headD 0)
    refine ⟨txt, by simp only [if_pos h1, e1, Option.map_some], ?_⟩
    have : nu.sep = [nu.sep.headD 0] := by
      match h : nu.sep, h1 with
      | [a], _ => rfl
    rw [this]; exact e2
  · obtain ⟨txt, e1, e2⟩ := key 44
    refine ⟨replaceComma nu.sep txt, by simp only [if_neg h1, e1, Option.map_some], ?_⟩
    exact grouped_replace e2 (fun d hx => by have := hd d hx; unfold IsDigit at this; omega)

end Verif.LcFloat
