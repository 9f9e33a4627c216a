import Verif.Child.Model
import Mathlib.Tactic.Tauto
import Mathlib.Tactic.Set
import Mathlib.Tactic.ByContra
namespace Verif.Child

theorem at_nil (j : Nat) : at? [] j = none := by simp [at?]

theorem at_put (t : Table) (i : Nat) (v : Option Entry) (j : Nat) : at? (put t i v) j = if j = i then v else at? t j := by
  induction t, i, v using put.induct generalizing j with
  | case1 v => cases j <;> simp [put, at?]
  | case2 i v ih =>
    cases j with
    | zero => simp [put, at?]
    | succ j => have := ih j; simp only [at?] at this; simp [put, at?]; simpa using this
  | case3 x t v => cases j <;> simp [put, at?]
  | case4 x t i v ih =>
    cases j with
    | zero => simp [put, at?]
    | succ j => have := ih j; simp only [at?] at this; simp [put, at?]; simpa using this

theorem at_low (t : Table) : at? t (lowFree t) = none := by
  induction t with
  | nil => simp [lowFree, at?]
  | cons x t ih => cases x <;> simp [lowFree, at?] <;> simpa [at?] using ih

theorem low_ne (t : Table) (j : Nat) (h : at? t j ≠ none) : lowFree t ≠ j := fun e => h (e ▸ at_low t)

theorem low_lt (t : Table) (k : Nat) (h : ∀ j < k, at? t j ≠ none) : k ≤ lowFree t := by
  by_contra hc
  exact h _ (by omega) (at_low t)

theorem at_exec (t : Table) (j : Nat) : at? (exec t) j = (at? t j).bind fun e => if e.cloexec then none else some e := by
  simp only [at?, exec, List.getElem?_map]
  cases h : t[j]? with
  | none => rfl
  | some o => cases o <;> rfl

/-- The state after the first `k` streams. -/
def Inv (T : Table) (P : Pipes) (io : Nat → Want) (k : Nat) (s : St) : Prop :=
  (∀ p b, ((∃ i < k, io i = .pipe p ∧ b = other i) → s.pipes p b = none) ∧ (¬ (∃ i < k, io i = .pipe p ∧ b = other i) → s.pipes p b = P p b)) ∧
  ∀ j, ((∃ i < k, ∃ p, io i = .pipe p ∧ P p (other i) = some j) → at? s.tab j = none) ∧
    (¬ (∃ i < k, ∃ p, io i = .pipe p ∧ P p (other i) = some j) → at? s.tab j = at? T j)

theorem inv_zero (s : St) (io : Nat → Want) : Inv s.tab s.pipes io 0 s := by
  simp [Inv]

theorem deal_step {T P io k s} (hk : k < 3) (h : Inv T P io k s) (hp : Possible T P io) (hs : Simple T P io) :
    (dealChild s (redirect (io k)) k).1 = source P io k ∧ Inv T P io (k + 1) (dealChild s (redirect (io k)) k).2 := by
  have grow : (∀ p, io k ≠ .pipe p) → Inv T P io (k + 1) s := by
    intro hn
    have e : ∀ i, i < k + 1 ↔ i < k ∨ i = k := fun i => by omega
    refine ⟨fun p b => ?_, fun j => ?_⟩
    · have : (∃ i < k + 1, io i = .pipe p ∧ b = other i) ↔ ∃ i < k, io i = .pipe p ∧ b = other i := by
        constructor
        · rintro ⟨i, hi, h1, h2⟩
          rcases (e i).1 hi with hi | rfl
          · exact ⟨i, hi, h1, h2⟩
          · exact absurd h1 (hn p)
        · rintro ⟨i, hi, h1, h2⟩; exact ⟨i, by omega, h1, h2⟩
      rw [this]; exact h.1 p b
    · have : (∃ i < k + 1, ∃ p, io i = .pipe p ∧ P p (other i) = some j) ↔ ∃ i < k, ∃ p, io i = .pipe p ∧ P p (other i) = some j := by
        constructor
        · rintro ⟨i, hi, p, h1, h2⟩
          rcases (e i).1 hi with hi | rfl
          · exact ⟨i, hi, p, h1, h2⟩
          · exact absurd h1 (hn p)
        · rintro ⟨i, hi, h1⟩; exact ⟨i, by omega, h1⟩
      rw [this]; exact h.2 j
  cases hw : io k with
  | keep => exact ⟨by simp [dealChild, redirect, source, hw], by simpa [dealChild, redirect] using grow (by simp [hw])⟩
  | devNull => exact ⟨by simp [dealChild, redirect, source, hw], by simpa [dealChild, redirect] using grow (by simp [hw])⟩
  | file fd =>
    cases fd with
    | none =>
      have := hp k hk
      simp [hw, source] at this
    | some n => exact ⟨by simp [dealChild, redirect, source, hw], by simpa [dealChild, redirect] using grow (by simp [hw])⟩
  | pipe p =>
    obtain ⟨n, e, hn, -⟩ : ∃ n e, source P io k = some n ∧ at? T n = some e := by
      have := hp k hk
      simpa [hw] using this
    have hn' : P p (mine k) = some n := by simpa [source, hw] using hn
    have hv : s.pipes p (mine k) = some n := by
      rw [(h.1 p (mine k)).2, hn']
      rintro ⟨i, hi, h1, h2⟩
      exact hs.apart n ⟨i, by omega, p, h1, by rw [← h2, hn']⟩ k hk hn
    have hm : (!other k) = mine k := rfl
    have ho : (k == 0) = other k := rfl
    simp only [dealChild, redirect, hm, ho, hv, source, hw, hn']
    by_cases hd : ∃ i < k, io i = .pipe p ∧ other k = other i
    · rw [(h.1 p (other k)).1 hd]
      refine ⟨rfl, fun q b => ?_, fun j => ?_⟩
      · have : (∃ i < k + 1, io i = .pipe q ∧ b = other i) ↔ ∃ i < k, io i = .pipe q ∧ b = other i := by
          constructor
          · rintro ⟨i, hi, h1, h2⟩
            rcases (by omega : i < k ∨ i = k) with hi | rfl
            · exact ⟨i, hi, h1, h2⟩
            · obtain ⟨i', h3, h4, h5⟩ := hd
              rw [hw] at h1
              injection h1 with h1
              subst h1
              exact ⟨i', h3, h4, h2.trans h5⟩
          · rintro ⟨i, hi, h1, h2⟩; exact ⟨i, by omega, h1, h2⟩
        rw [this]; exact h.1 q b
      · have : (∃ i < k + 1, ∃ p, io i = .pipe p ∧ P p (other i) = some j) ↔ ∃ i < k, ∃ p, io i = .pipe p ∧ P p (other i) = some j := by
          constructor
          · rintro ⟨i, hi, q, h1, h2⟩
            rcases (by omega : i < k ∨ i = k) with hi | rfl
            · exact ⟨i, hi, q, h1, h2⟩
            · obtain ⟨i', h3, h4, h5⟩ := hd
              rw [hw] at h1
              injection h1 with h1
              subst h1
              exact ⟨i', h3, p, h4, by rw [← h5]; exact h2⟩
          · rintro ⟨i, hi, h1⟩; exact ⟨i, by omega, h1⟩
        rw [this]; exact h.2 j
    · have hc := (h.1 p (other k)).2 hd
      have e1 : ∀ q b, (∃ i < k + 1, io i = .pipe q ∧ b = other i) ↔ (q = p ∧ b = other k) ∨ ∃ i < k, io i = .pipe q ∧ b = other i := by
        intro q b
        constructor
        · rintro ⟨i, hi, h1, h2⟩
          rcases (by omega : i < k ∨ i = k) with hi | rfl
          · exact .inr ⟨i, hi, h1, h2⟩
          · rw [hw] at h1; injection h1 with h1; exact .inl ⟨h1.symm, h2⟩
        · rintro (⟨rfl, h2⟩ | ⟨i, hi, h1, h2⟩)
          · exact ⟨k, by omega, hw, h2⟩
          · exact ⟨i, by omega, h1, h2⟩
      have e2 : ∀ j, (∃ i < k + 1, ∃ p, io i = .pipe p ∧ P p (other i) = some j) ↔
          P p (other k) = some j ∨ ∃ i < k, ∃ p, io i = .pipe p ∧ P p (other i) = some j := by
        intro j
        constructor
        · rintro ⟨i, hi, q, h1, h2⟩
          rcases (by omega : i < k ∨ i = k) with hi | rfl
          · exact .inr ⟨i, hi, q, h1, h2⟩
          · rw [hw] at h1; injection h1 with h1; subst h1; exact .inl h2
        · rintro (h2 | ⟨i, hi, h1⟩)
          · exact ⟨k, by omega, p, hw, h2⟩
          · exact ⟨i, by omega, h1⟩
      cases hq : s.pipes p (other k) with
      | none =>
        rw [hq] at hc
        refine ⟨rfl, fun q b => ?_, fun j => ?_⟩
        · rw [e1]
          refine ⟨?_, fun hx => (h.1 q b).2 fun hy => hx (.inr hy)⟩
          rintro (⟨rfl, rfl⟩ | hx)
          · exact hq
          · exact (h.1 q b).1 hx
        · rw [e2]
          refine ⟨?_, fun hx => (h.2 j).2 fun hy => hx (.inr hy)⟩
          rintro (hx | hx)
          · rw [← hc] at hx; cases hx
          · exact (h.2 j).1 hx
      | some c =>
        rw [hq] at hc
        refine ⟨rfl, fun q b => ?_, fun j => ?_⟩
        · rw [e1]
          simp only [forget]
          constructor
          · rintro (⟨rfl, rfl⟩ | hx)
            · simp
            · split
              · rfl
              · exact (h.1 q b).1 hx
          · intro hx
            rw [if_neg (fun hy => hx (.inl hy))]
            exact (h.1 q b).2 fun hy => hx (.inr hy)
        · rw [e2]
          simp only [sysClose, at_put]
          constructor
          · rintro (hx | hx)
            · rw [← hc] at hx; injection hx with hx; simp [hx]
            · split
              · rfl
              · exact (h.2 j).1 hx
          · intro hx
            rw [if_neg (fun hy => hx (.inl (by rw [← hc, hy])))]
            exact (h.2 j).2 fun hy => hx (.inr hy)

/-- Copies of a descriptor. -/
def clr (o : Option Entry) : Option Entry := o.map fun e => ⟨e.file, false⟩

theorem dupTo_spec (t : Table) (c : Option Nat) (i : Nat) (h : ∀ n, c = some n → n ≠ i → at? t n ≠ none) :
    ∃ t', dupTo t c i = some t' ∧ (∀ n, c = some n → n ≠ i → at? t' i = clr (at? t n)) ∧
      ((c = none ∨ c = some i) → at? t' i = at? t i) ∧ ∀ j, j ≠ i → at? t' j = at? t j := by
  cases c with
  | none => exact ⟨t, rfl, by simp, by simp, by simp⟩
  | some n =>
    by_cases hn : n = i
    · subst hn
      exact ⟨t, by simp [dupTo], by simp, by simp, by simp⟩
    · obtain ⟨e, he⟩ := Option.ne_none_iff_exists'.1 (h n rfl hn)
      refine ⟨put t i (some ⟨e.file, false⟩), by simp [dupTo, sysDup2, he, hn], ?_, by simp [hn], ?_⟩
      · intro m hm _
        injection hm with hm; subst hm
        simp [at_put, clr, he]
      · intro j hj
        simp [at_put, hj]

theorem nullTo_spec (t : Table) (pf : Nat) (c : Option Nat) (i : Nat) (hi : pf ≠ i) (hp : at? t pf = some ⟨.null, false⟩) :
    ∃ t', nullTo t pf c i = some t' ∧ ∀ j, at? t' j = if j = i ∧ c = none then some ⟨.null, false⟩ else at? t j := by
  cases c with
  | none =>
    refine ⟨put t i (some ⟨.null, false⟩), by simp [nullTo, sysDup2, hp, hi], ?_⟩
    intro j
    simp [at_put]
  | some n => exact ⟨t, rfl, by simp⟩

/-- The null device is put where it is asked for. -/
theorem nullPhase_spec (t : Table) (a b c : Option Nat) (h : (a = none ∨ b = none ∨ c = none) → ∀ i < 3, at? t i ≠ none) :
    ∃ t', nullPhase t a b c = some t' ∧ ∀ j, at? t' j =
      if (j = 0 ∧ a = none) ∨ (j = 1 ∧ b = none) ∨ (j = 2 ∧ c = none) then some ⟨.null, false⟩ else at? t j := by
  by_cases hn : a = none ∨ b = none ∨ c = none
  · have h3 := low_lt t 3 (h hn)
    have h0 := at_low t
    set pf := lowFree t with hpf
    obtain ⟨t1, e1, f1⟩ := nullTo_spec (put t pf (some ⟨.null, false⟩)) pf a 0 (by omega) (by simp [at_put])
    obtain ⟨t2, e2, f2⟩ := nullTo_spec t1 pf b 1 (by omega) (by rw [f1]; simp [at_put])
    obtain ⟨t3, e3, f3⟩ := nullTo_spec t2 pf c 2 (by omega) (by rw [f2, f1]; simp [at_put])
    refine ⟨sysClose t3 pf, by simp only [nullPhase, if_pos hn, ← hpf, e1, e2, e3], ?_⟩
    intro j
    simp only [sysClose, at_put, f3, f2, f1]
    by_cases hj : j = pf
    · subst hj
      have g0 : pf ≠ 0 := by omega
      have g1 : pf ≠ 1 := by omega
      have g2 : pf ≠ 2 := by omega
      simp [g0, g1, g2, h0]
    · simp only [if_neg hj]
      by_cases k0 : j = 0 ∧ a = none <;> by_cases k1 : j = 1 ∧ b = none <;> by_cases k2 : j = 2 ∧ c = none <;> simp [k0, k1, k2]
  · refine ⟨t, by simp [nullPhase, hn], ?_⟩
    intro j
    have : ¬ ((j = 0 ∧ a = none) ∨ (j = 1 ∧ b = none) ∨ (j = 2 ∧ c = none)) := by tauto
    simp [this]

end Verif.Child
