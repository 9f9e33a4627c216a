import Verif.Lc.Model
import Verif.IntPrint.Props
/-!
# Lemmas about locale-dependent integer printing
-/
namespace Verif.Lc
open Verif Verif.IntPrint

theorem toChar_eq (base : Nat) (upper : Bool) (t : Nat) (ht : t < base) : toChar base upper t = digitChar upper t := by
  unfold toChar digitChar
  split
  · rw [if_pos (by omega)]
  · rfl

theorem digitChar_ne_comma (upper : Bool) (t : Nat) : digitChar upper t ≠ 44 := by
  unfold digitChar; split
  · omega
  · cases upper <;> simp <;> omega

/-! ## Boundaries -/

theorem groupSum_mono (g : List Nat) {m n : Nat} (h : m ≤ n) : groupSum g m ≤ groupSum g n := by
  induction n with
  | zero => have : m = 0 := by omega
            subst this; exact le_refl _
  | succ n ih =>
    rcases Nat.lt_or_ge m (n + 1) with h1 | h1
    · have := ih (by omega); simp only [groupSum]; omega
    · have : m = n + 1 := by omega
      subst this; exact le_refl _

theorem not_boundary_zero (g : List Nat) : ¬ IsBoundary g 0 := by
  rintro ⟨m, h, e⟩
  have := h m (le_refl _)
  simp only [groupSum] at e; omega

theorem not_boundary_between (g : List Nat) (m k : Nat) (h1 : groupSum g m < k) (h2 : k < groupSum g (m + 1)) :
    ¬ IsBoundary g k := by
  rintro ⟨n, h, e⟩
  rcases Nat.lt_or_ge n m with hn | hn
  · have := groupSum_mono g (m := n + 1) (n := m) (by omega); omega
  · have := groupSum_mono g (m := m + 1) (n := n + 1) (by omega); omega

theorem not_boundary_end (g : List Nat) (m k : Nat) (h0 : groupSize g m = 0) (h1 : groupSum g m < k) : ¬ IsBoundary g k := by
  rintro ⟨n, h, e⟩
  rcases Nat.lt_or_ge n m with hn | hn
  · have := groupSum_mono g (m := n + 1) (n := m) (by omega); omega
  · exact h m hn h0

/-! ## Grouped texts -/

theorem grouped_length {g sep ds txt : List Nat} (h : Grouped g sep ds txt) (hne : ds ≠ []) :
    txt.length ≤ ds.length + (ds.length - 1) * sep.length := by
  induction h with
  | nil => simp at hne
  | plain d ds txt hb h ih =>
    cases ds with
    | nil => cases h; simp
    | cons a l =>
      have := ih (by simp)
      simp only [List.length_cons, Nat.add_sub_cancel] at this ⊢
      have h2 : l.length * sep.length ≤ (l.length + 1) * sep.length := Nat.mul_le_mul_right _ (by omega)
      omega
  | sep d ds txt hb h ih =>
    cases ds with
    | nil => exact absurd hb (not_boundary_zero g)
    | cons a l =>
      have := ih (by simp)
      simp only [List.length_cons, Nat.add_sub_cancel, List.length_append] at this ⊢
      rw [Nat.succ_mul]; omega

theorem grouped_length_ge {g sep ds txt : List Nat} (h : Grouped g sep ds txt) : ds.length ≤ txt.length := by
  induction h with
  | nil => simp
  | plain d ds txt hb h ih => simpa using ih
  | sep d ds txt hb h ih => simp; omega

theorem grouped_replace {g sep ds txt : List Nat} (h : Grouped g [44] ds txt) (hd : ∀ d ∈ ds, d ≠ 44) :
    Grouped g sep ds (replaceComma sep txt) := by
  induction h with
  | nil => exact .nil
  | plain d ds txt hb h ih =>
    have h1 : d ≠ 44 := hd d (by simp)
    simp only [replaceComma, if_neg h1, List.singleton_append]
    exact .plain _ _ _ hb (ih fun x hx => hd x (by simp [hx]))
  | sep d ds txt hb h ih =>
    have h1 : d ≠ 44 := hd d (by simp)
    simp only [replaceComma, if_neg h1, List.singleton_append, if_true, List.cons_append]
    exact .sep _ _ _ hb (ih fun x hx => hd x (by simp [hx]))

/-- Without grouping or without a separator the text is the digits themselves. -/
theorem grouped_plain (sep ds : List Nat) (g : List Nat) (h : g.length = 0 ∨ sep.length = 0) : Grouped g sep ds ds := by
  induction ds with
  | nil => exact .nil
  | cons d ds ih =>
    by_cases hb : IsBoundary g ds.length
    · rcases h with h | h
      · obtain ⟨m, hm, _⟩ := hb
        have : g = [] := List.length_eq_zero_iff.mp h
        subst this
        exact absurd rfl (hm 0 (by omega))
      · have : sep = [] := List.length_eq_zero_iff.mp h
        subst this
        simpa using Grouped.sep d ds ds hb ih
    · exact .plain _ _ _ hb ih

/-! ## The general loops -/

/-- The `k` low digits of `u`. -/
def low (base : Nat) (upper : Bool) (u k : Nat) : List Nat := (padded base k u).map (digitChar upper)

@[simp] theorem low_length (base : Nat) (upper : Bool) (u k : Nat) : (low base upper u k).length = k := by simp [low]

theorem low_succ (base : Nat) (hb : 0 < base) (upper : Bool) (u k : Nat) :
    low base upper u (k + 1) = digitChar upper (u / base ^ k % base) :: low base upper u k := by
  unfold low
  rw [Nat.add_comm k 1, padded_add base hb 1 k u, padded_mod base hb]
  simp [padded]

/-- The text before the digit number `k` is written. -/
def Pend (c : GCfg) (g : List Nat) (u k : Nat) (acc : List Nat) : Prop :=
  ∃ T, Grouped g [c.sepCh] (low c.base c.upper u k) T ∧
    ((IsBoundary g k ∧ acc = c.sepCh :: T) ∨ (¬ IsBoundary g k ∧ acc = T))

theorem pend_length {c : GCfg} {g : List Nat} {u k : Nat} {acc : List Nat} (h : Pend c g u k acc) : acc.length ≤ 2 * k := by
  obtain ⟨T, hT, h⟩ := h
  rcases Nat.eq_zero_or_pos k with hk | hk
  · subst hk
    rcases h with ⟨h, _⟩ | ⟨_, h⟩
    · exact absurd h (not_boundary_zero g)
    · subst h; cases hT; simp
  · have := grouped_length hT (by intro h0; have := congrArg List.length h0; simp at this; omega)
    simp at this
    rcases h with ⟨_, h⟩ | ⟨_, h⟩ <;> subst h <;> simp <;> omega

theorem pend_push {c : GCfg} {g : List Nat} {u k : Nat} {acc : List Nat} (hb : 0 < c.base) (h : Pend c g u k acc) :
    Grouped g [c.sepCh] (low c.base c.upper u (k + 1)) (digitChar c.upper (u / c.base ^ k % c.base) :: acc) := by
  obtain ⟨T, hT, h⟩ := h
  rw [low_succ _ hb]
  rcases h with ⟨h1, h⟩ | ⟨h1, h⟩ <;> subst h
  · exact .sep _ _ _ (by simpa using h1) hT
  · exact .plain _ _ _ (by simpa using h1) hT

/-- What the loops need to know about the number: it has `L` digits to print. -/
structure Run (c : GCfg) (u L : Nat) : Prop where
  base : 2 ≤ c.base
  le : L ≤ c.fullLen
  cap : c.cap = c.fullLen * 2 - 1
  stop : ∀ k, k < L → ((if c.full then k + 1 == c.fullLen else u / c.base ^ (k + 1) == 0) = true ↔ k + 1 = L)

/-- The variables after `k` digits. -/
def Vars (c : GCfg) (u k : Nat) (s : GSt) : Prop := s.t = u / c.base ^ k ∧ (c.full = true → s.cnt = k)

theorem group_spec (c : GCfg) (g : List Nat) (u L : Nat) (hr : Run c u L) (e : Nat) : ∀ k s, k < L → 0 < e →
    (∀ k', k < k' → k' < k + e → ¬ IsBoundary g k') → Vars c u k s → Pend c g u k s.acc →
    (L ≤ k + e → ∃ s', group c e s = some (true, s') ∧ Grouped g [c.sepCh] (low c.base c.upper u L) s'.acc) ∧
    (k + e < L → ∃ s', group c e s = some (false, s') ∧ Vars c u (k + e) s' ∧
      Grouped g [c.sepCh] (low c.base c.upper u (k + e)) s'.acc) := by
  induction e with
  | zero => intro k s _ h; omega
  | succ e ih =>
    intro k s hk _ hnb hv hp
    have hb : 0 < c.base := by have := hr.base; omega
    have hlen := pend_length hp
    have hcap : s.acc.length < c.cap := by rw [hr.cap]; have := hr.le; omega
    have hstop := hr.stop k hk
    have hdig : toChar c.base c.upper (s.t % c.base) = digitChar c.upper (u / c.base ^ k % c.base) := by
      rw [hv.1, toChar_eq _ _ _ (Nat.mod_lt _ hb)]
    have hG := pend_push hb hp
    have ht : s.t / c.base = u / c.base ^ (k + 1) := by rw [hv.1, Nat.div_div_eq_div_mul, pow_succ]
    -- the state after the digit
    let s1 : GSt := ⟨s.t / c.base, if c.full then s.cnt + 1 else s.cnt, digitChar c.upper (u / c.base ^ k % c.base) :: s.acc⟩
    have hv1 : Vars c u (k + 1) s1 := by
      refine ⟨ht, fun hf => ?_⟩
      simp [s1, hf, hv.2 hf]
    have hstep : group c (e + 1) s = if k + 1 = L then some (true, s1) else group c e s1 := by
      have hstep1 : group c (e + 1) s =
          if (if c.full then s1.cnt == c.fullLen else s1.t == 0) then some (true, s1) else group c e s1 := by
        simp only [group, push, if_pos hcap, Option.bind_some, hdig]
        cases hf : c.full <;> simp [s1, hf]
      rw [hstep1]
      have : (if c.full then s1.cnt == c.fullLen else s1.t == 0) = (if c.full then k + 1 == c.fullLen else u / c.base ^ (k + 1) == 0) := by
        cases hf : c.full
        · simp only [Bool.false_eq_true, if_false, hv1.1]
        · simp only [if_true, hv1.2 hf]
      rw [this]
      by_cases h : k + 1 = L
      · rw [if_pos (hstop.mpr h), if_pos h]
      · rw [if_neg (fun hh => h (hstop.mp hh)), if_neg h]
    by_cases hL : k + 1 = L
    · rw [if_pos hL] at hstep
      refine ⟨fun _ => ⟨s1, hstep, ?_⟩, fun h => by omega⟩
      rw [← hL]; exact hG
    · rw [if_neg hL] at hstep
      rcases Nat.eq_zero_or_pos e with he | he
      · subst he
        refine ⟨fun h => by omega, fun _ => ⟨s1, by rw [hstep]; rfl, hv1, hG⟩⟩
      · have := ih (k + 1) s1 (by omega) he (fun k' h1 h2 => hnb k' (by omega) (by omega)) hv1
          ⟨_, hG, Or.inr ⟨hnb (k + 1) (by omega) (by omega), rfl⟩⟩
        rw [hstep, show k + (e + 1) = k + 1 + e by omega]
        exact this

theorem sep_push {c : GCfg} {g : List Nat} {u L k : Nat} (hr : Run c u L) {s : GSt} (hk0 : 0 < k) (hk : k < L)
    (hbd : IsBoundary g k) (hv : Vars c u k s) (hG : Grouped g [c.sepCh] (low c.base c.upper u k) s.acc) :
    ∃ s', push c.cap c.sepCh s = some s' ∧ Vars c u k s' ∧ Pend c g u k s'.acc := by
  have hl := grouped_length hG (by intro h0; have := congrArg List.length h0; simp at this; omega)
  simp at hl
  refine ⟨{ s with acc := c.sepCh :: s.acc }, ?_, hv, s.acc, hG, Or.inl ⟨hbd, rfl⟩⟩
  unfold push
  rw [if_pos]
  rw [hr.cap]; have := hr.le; omega

theorem rest_spec (c : GCfg) (g : List Nat) (u L : Nat) (hr : Run c u L) (fuel m : Nat) (s : GSt) (hL : groupSum g m < L)
    (hf : L ≤ fuel) (h0 : groupSize g m = 0) (hv : Vars c u (groupSum g m) s) (hp : Pend c g u (groupSum g m) s.acc) :
    ∃ txt, rest c fuel s = some txt ∧ Grouped g [c.sepCh] (low c.base c.upper u L) txt := by
  obtain ⟨s', h1, h2⟩ := (group_spec c g u L hr fuel (groupSum g m) s hL (by omega)
    (fun k' h1 _ => not_boundary_end g m k' h0 h1) hv hp).1 (by omega)
  exact ⟨s'.acc, by simp [rest, h1], h2⟩

/-- One group followed by the separator. -/
theorem one_group (c : GCfg) (g : List Nat) (u L : Nat) (hr : Run c u L) (m : Nat) (s : GSt) (hL : groupSum g m < L)
    (hs : ∀ j ≤ m, groupSize g j ≠ 0) (hv : Vars c u (groupSum g m) s) (hp : Pend c g u (groupSum g m) s.acc)
    (k : GSt → Option (List Nat)) :
    (∃ txt, ((group c (groupSize g m) s).bind fun r => if r.1 then some r.2.acc else (push c.cap c.sepCh r.2).bind k) = some txt ∧
      Grouped g [c.sepCh] (low c.base c.upper u L) txt) ∨
    (∃ s', groupSum g (m + 1) < L ∧ Vars c u (groupSum g (m + 1)) s' ∧ Pend c g u (groupSum g (m + 1)) s'.acc ∧
      ((group c (groupSize g m) s).bind fun r => if r.1 then some r.2.acc else (push c.cap c.sepCh r.2).bind k) = k s') := by
  have hpos : 0 < groupSize g m := Nat.pos_of_ne_zero (hs m (le_refl _))
  have hg := group_spec c g u L hr (groupSize g m) (groupSum g m) s hL hpos
    (fun k' h1 h2 => not_boundary_between g m k' h1 (by simpa [groupSum] using h2)) hv hp
  rcases Nat.lt_or_ge (groupSum g m + groupSize g m) L with h | h
  · obtain ⟨s', h1, h2, h3⟩ := hg.2 h
    obtain ⟨s2, h4, h5, h6⟩ := sep_push hr (k := groupSum g (m + 1)) (g := g) (by simp only [groupSum]; omega) h ⟨m, hs, rfl⟩ h2 h3
    refine Or.inr ⟨s2, h, h5, h6, ?_⟩
    simp [h1, h4]
  · obtain ⟨s', h1, h2⟩ := hg.1 h
    exact Or.inl ⟨s'.acc, by simp [h1], h2⟩

theorem repeatLast_spec (c : GCfg) (g : List Nat) (u L : Nat) (hr : Run c u L) (e : Nat) (n0 : Nat)
    (hsize : ∀ m, n0 ≤ m → groupSize g m = e) (hs : ∀ j, groupSize g j ≠ 0) : ∀ fuel m s, n0 ≤ m → groupSum g m < L →
    L ≤ groupSum g m + fuel → Vars c u (groupSum g m) s → Pend c g u (groupSum g m) s.acc →
    ∃ txt, repeatLast c e fuel s = some txt ∧ Grouped g [c.sepCh] (low c.base c.upper u L) txt := by
  intro fuel
  induction fuel with
  | zero => intro m s _ h1 h2; omega
  | succ fuel ih =>
    intro m s hm hL hf hv hp
    have hpos := hs m
    rw [repeatLast, ← hsize m hm]
    rcases one_group c g u L hr m s hL (fun j _ => hs j) hv hp (repeatLast c (groupSize g m) fuel) with h | ⟨s', h1, h2, h3, h4⟩
    · exact h
    · rw [h4, hsize m hm]
      exact ih (m + 1) s' (by omega) h1 (by simp only [groupSum] at *; omega) h2 h3

theorem groupSize_append (pre : List Nat) (e : Nat) (r : List Nat) : groupSize (pre ++ e :: r) pre.length = e := by
  simp [groupSize]

theorem groupSize_pre (pre r : List Nat) (j : Nat) (hj : j < pre.length) : groupSize (pre ++ r) j = pre[j] := by
  simp [groupSize, List.getElem?_append_left hj, List.getElem?_eq_getElem hj]

theorem groupSize_last (g : List Nat) (j : Nat) (hj : g.length ≤ j) : groupSize g j = g.getLast?.getD 0 := by
  simp [groupSize, List.getElem?_eq_none hj]

theorem groupingLoop_spec (c : GCfg) (u L : Nat) (hr : Run c u L) (fuel : Nat) (hf : L ≤ fuel) (r : List Nat) :
    ∀ pre s, (∀ x ∈ pre, x ≠ 0) → (pre = [] → r ≠ []) → groupSum (pre ++ r) pre.length < L →
    Vars c u (groupSum (pre ++ r) pre.length) s → Pend c (pre ++ r) u (groupSum (pre ++ r) pre.length) s.acc →
    ∃ txt, groupingLoop c fuel (pre.getLast?.getD 0) r s = some txt ∧
      Grouped (pre ++ r) [c.sepCh] (low c.base c.upper u L) txt := by
  induction r with
  | nil =>
    intro pre s hpre hne hL hv hp
    have hne : pre ≠ [] := fun h => hne h rfl
    rw [List.append_nil] at *
    rw [groupingLoop]
    have hlast : pre.getLast?.getD 0 ≠ 0 := by
      rw [List.getLast?_eq_some_getLast hne, Option.getD_some]
      exact hpre _ (List.getLast_mem hne)
    refine repeatLast_spec c pre u L hr _ pre.length (fun m hm => groupSize_last pre m hm) ?_ fuel pre.length s (le_refl _) hL
      (by omega) hv hp
    intro j
    rcases Nat.lt_or_ge j pre.length with h | h
    · have := groupSize_pre pre [] j h
      rw [List.append_nil] at this
      rw [this]; exact hpre _ (List.getElem_mem h)
    · rw [groupSize_last pre j h]; exact hlast
  | cons e r ih =>
    intro pre s hpre _ hL hv hp
    rw [groupingLoop]
    have hsz := groupSize_append pre e r
    by_cases he : e = 0
    · rw [if_pos he]
      exact rest_spec c _ u L hr fuel pre.length s hL hf (by rw [hsz]; exact he) hv hp
    · rw [if_neg he]
      have hs : ∀ j ≤ pre.length, groupSize (pre ++ e :: r) j ≠ 0 := by
        intro j hj
        rcases Nat.lt_or_ge j pre.length with h | h
        · rw [groupSize_pre pre _ j h]; exact hpre _ (List.getElem_mem h)
        · rw [show j = pre.length by omega, hsz]; exact he
      have h1 := one_group c (pre ++ e :: r) u L hr pre.length s hL hs hv hp (groupingLoop c fuel e r)
      rw [hsz] at h1
      rcases h1 with h | ⟨s', h1, h2, h3, h4⟩
      · exact h
      · rw [h4]
        have := ih (pre ++ [e]) s' (by
            intro x hx
            rcases List.mem_append.mp hx with h | h
            · exact hpre x h
            · rw [List.mem_singleton.mp h]; exact he) (by simp)
          (by simpa using h1) (by simpa using h2) (by simpa using h3)
        simpa using this

/-! ## The path for groups of three -/

theorem groupSize_three (j : Nat) : groupSize [3] j = 3 := by
  cases j <;> simp [groupSize]

theorem groupSum_three (m : Nat) : groupSum [3] m = 3 * m := by
  induction m with
  | zero => rfl
  | succ m ih => rw [groupSum, ih, groupSize_three]; omega

theorem boundary_three (k : Nat) : IsBoundary [3] k ↔ 0 < k ∧ k % 3 = 0 := by
  constructor
  · rintro ⟨m, _, h⟩
    rw [groupSum_three] at h; omega
  · rintro ⟨h1, h2⟩
    refine ⟨k / 3 - 1, fun j _ => by rw [groupSize_three]; omega, ?_⟩
    rw [groupSum_three]; omega

theorem grouped_small (g sep ds : List Nat) (h : ∀ k, k < ds.length → ¬ IsBoundary g k) : Grouped g sep ds ds := by
  induction ds with
  | nil => exact .nil
  | cons d ds ih => exact .plain _ _ _ (h _ (by simp)) (ih fun k hk => h k (by simp; omega))

theorem grouped_three_append {sep ds txt : List Nat} (h : Grouped [3] sep ds txt) (hne : ds ≠ []) (a b c : Nat) :
    Grouped [3] sep (ds ++ [a, b, c]) (txt ++ (sep ++ [a, b, c])) := by
  have h3 : Grouped [3] sep [a, b, c] [a, b, c] := grouped_small _ _ _ (by
    intro k hk; rw [boundary_three]; simp at hk; omega)
  induction h with
  | nil => simp at hne
  | plain d ds txt hb h ih =>
    cases ds with
    | nil =>
      cases h
      exact .sep d [a, b, c] [a, b, c] (by rw [boundary_three]; simp) h3
    | cons x l =>
      have := ih (by simp)
      exact .plain d _ _ (by rw [boundary_three] at *; simp at hb ⊢; omega) this
  | sep d ds txt hb h ih =>
    cases ds with
    | nil => exact absurd hb (not_boundary_zero _)
    | cons x l =>
      have := ih (by simp)
      have h2 := Grouped.sep d _ _ (by rw [boundary_three] at *; simp at hb ⊢; omega) this (g := [3]) (sep := sep)
      simpa using h2

theorem threeSep_spec (base : Nat) (hb : 2 ≤ base) (upper : Bool) (sep : Nat) (size : Nat) : ∀ (m : Mem) (p v : Nat), 0 < size →
    v < base ^ size → ∃ txt, txt.length = size + (size - 1) / 3 ∧
      threeSep base upper sep m (p + (size + (size - 1) / 3)) v size = some (store m p txt) ∧
      Grouped [3] [sep] (low base upper v size) txt := by
  have hb0 : 0 < base := by omega
  have hsq : base ^ 2 = base * base := pow_two base
  have hcb : base ^ 3 = base * base * base := by rw [pow_succ, pow_two]
  induction size using Nat.strongRecOn with
  | _ size ih =>
    intro m p v hs hv
    rw [threeSep]
    by_cases h3 : 3 < size
    · rw [if_pos h3]
      have hlow2 : v % base ^ 3 % base ^ 2 < base * base := by rw [← hsq]; exact Nat.mod_lt _ (by positivity)
      have hhigh : v % base ^ 3 / base ^ 2 < base := by
        rw [Nat.div_lt_iff_lt_mul (by positivity), ← pow_succ']
        exact Nat.mod_lt _ (by positivity)
      simp only [← hcb, ← hsq]
      simp only [show base ^ 2 * base = base ^ 3 from (pow_succ _ _).symm]
      rw [copyPair_eq _ _ _ _ _ hlow2, Option.bind_some, toChar_eq _ _ _ hhigh]
      obtain ⟨k, rfl⟩ : ∃ k, size = k + 3 := ⟨size - 3, by omega⟩
      have hq : v / base ^ 3 < base ^ k := by
        rw [Nat.div_lt_iff_lt_mul (by positivity), ← pow_add]; exact hv
      let P := p + (k + (k - 1) / 3)
      have hP : p + (k + 3 + (k + 3 - 1) / 3) = P + 4 := by simp only [P]; omega
      rw [hP]
      obtain ⟨txt, hl, hrun, hG⟩ := ih k (by omega)
        (store (store (store m (P + 4 - 2) ((padded base 2 (v % base ^ 3 % base ^ 2)).map (digitChar upper))) (P + 4 - 3)
          [digitChar upper (v % base ^ 3 / base ^ 2)]) (P + 4 - 4) [sep]) p (v / base ^ 3) (by omega) hq
      rw [show P + 4 - 4 = P by omega, Nat.add_sub_cancel]
      rw [show P + 4 - 4 = P by omega] at hrun
      refine ⟨txt ++ ([sep] ++ [digitChar upper (v % base ^ 3 / base ^ 2)] ++
        (padded base 2 (v % base ^ 3 % base ^ 2)).map (digitChar upper)), ?_, ?_, ?_⟩
      · simp [hl]; omega
      · rw [hrun]
        rw [store_store_before m (P + 4 - 3) (P + 4 - 2) _ _ (by simp), store_store_before m P (P + 4 - 3) _ _ (by simp),
          store_store_before m p P _ _ (by rw [hl])]
        simp
      · have hpad : low base upper v (k + 3) = low base upper (v / base ^ 3) k ++
            ([digitChar upper (v % base ^ 3 / base ^ 2)] ++ (padded base 2 (v % base ^ 3 % base ^ 2)).map (digitChar upper)) := by
          unfold low
          rw [padded_add base hb0, padded_add base hb0 1 2, List.map_append, List.map_append]
          simp [padded, Nat.mod_eq_of_lt hhigh]
        rw [hpad]
        have hne : low base upper (v / base ^ 3) k ≠ [] := by
          intro h0; have := congrArg List.length h0; simp at this; omega
        have := grouped_three_append hG hne (digitChar upper (v % base ^ 3 / base ^ 2))
          (digitChar upper (v % base ^ 3 % base ^ 2 / base % base)) (digitChar upper (v % base ^ 3 % base ^ 2 % base))
        simpa [padded] using this
    · rw [if_neg h3]
      have hGs : Grouped [3] [sep] (low base upper v size) (low base upper v size) := grouped_small _ _ _ (by
        intro k hk; rw [boundary_three]; simp at hk; omega)
      refine ⟨low base upper v size, by simp; omega, ?_, hGs⟩
      rw [show p + (size + (size - 1) / 3) = p + size by omega]
      by_cases e3 : size = 3
      · subst e3
        have hlow2 : v % base ^ 2 < base * base := by rw [← hsq]; exact Nat.mod_lt _ (by positivity)
        have hhigh : v / base ^ 2 < base := by
          rw [Nat.div_lt_iff_lt_mul (by positivity), ← pow_succ']; exact hv
        simp only [if_true, ← hsq]
        rw [copyPair_eq _ _ _ _ _ hlow2, Option.map_some, toChar_eq _ _ _ hhigh,
          store_store_before m (p + 3 - 3) (p + 3 - 2) _ _ (by simp)]
        unfold low
        rw [padded_add base hb0 1 2, List.map_append]
        simp [padded, Nat.mod_eq_of_lt hhigh]
      · rw [if_neg e3]
        by_cases e2 : size = 2
        · subst e2
          rw [if_pos rfl, copyPair_eq _ _ _ _ _ (by rw [← hsq]; exact hv)]
          rfl
        · rw [if_neg e2]
          have : size = 1 := by omega
          subst this
          rw [toChar_eq _ _ _ (by simpa using hv)]
          simp [low, padded, Nat.mod_eq_of_lt (by simpa using hv : v < base)]

end Verif.Lc
