import Mathlib.Data.DFinsupp.WellFounded
import Mathlib.Order.Fin.Basic
import Mathlib.Algebra.Order.Ring.Nat
import Mathlib.Algebra.Order.Monoid.Canonical.Defs
import Mathlib.Algebra.Order.BigOperators.Group.List
import Verif.Conc.Serial
/-!
# Executions end, and nobody waits forever
-/
namespace Verif.Conc
variable {S R : Type} {n : Nat}

/-- How the code and the guards of one thread can change in a step (whatever it sees in the streams). -/
inductive Next : Thread S R → Thread S R → Prop
  | call (h c k) : Next ⟨h, .enter c c k⟩ ⟨h, .idle (.call c k)⟩
  | lock (h c0 m c k) : Next ⟨m :: h, .enter c0 c k⟩ ⟨h, .enter c0 (.guard m c) k⟩
  | go (h c0 b k) : Next ⟨h, .run c0 b k⟩ ⟨h, .enter c0 (.plain b) k⟩
  | act (h c0 i f b k x) : Next ⟨h, .run c0 (b x) k⟩ ⟨h, .run c0 (.act i f b) k⟩
  | ret (h c0 r k) : Next ⟨h, .leave r k⟩ ⟨h, .run c0 (.ret r) k⟩
  | unlock (m h r k) : Next ⟨h, .leave r k⟩ ⟨m :: h, .leave r k⟩
  | back (r k) : Next ⟨[], .idle (k r)⟩ ⟨[], .leave r k⟩

theorem acc_leave (r : R) (k : R → Prog S R) (hk : Acc Next (⟨[], .idle (k r)⟩ : Thread S R)) :
    ∀ h, Acc Next (⟨h, .leave r k⟩ : Thread S R) := by
  intro h
  induction h with
  | nil => exact ⟨_, fun y hy => by cases hy; exact hk⟩
  | cons m h ih => exact ⟨_, fun y hy => by cases hy; exact ih⟩

theorem acc_run (k : R → Prog S R) (hk : ∀ r, Acc Next (⟨[], .idle (k r)⟩ : Thread S R)) (c0 : Call S R) (h : List Nat)
    (b : Body S R) : Acc Next (⟨h, .run c0 b k⟩ : Thread S R) := by
  induction b with
  | ret r => exact ⟨_, fun y hy => by cases hy; exact acc_leave r k (hk r) h⟩
  | act i f b ih => exact ⟨_, fun y hy => by cases hy; exact ih _⟩

theorem acc_enter (k : R → Prog S R) (hk : ∀ r, Acc Next (⟨[], .idle (k r)⟩ : Thread S R)) (c0 c : Call S R) :
    ∀ h, Acc Next (⟨h, .enter c0 c k⟩ : Thread S R) := by
  induction c with
  | plain b => intro h; exact ⟨_, fun y hy => by cases hy; exact acc_run k hk c0 h b⟩
  | guard m c ih => intro h; exact ⟨_, fun y hy => by cases hy; exact ih _⟩

theorem acc_idle (p : Prog S R) : ∀ h, Acc Next (⟨h, .idle p⟩ : Thread S R) := by
  induction p with
  | stop => intro h; exact ⟨_, fun y hy => by cases hy⟩
  | call c k ih => intro h; exact ⟨_, fun y hy => by cases hy; exact acc_enter k (fun r => ih r []) c c h⟩

theorem next_wf : WellFounded (Next : Thread S R → Thread S R → Prop) :=
  ⟨fun ⟨h, x⟩ => match x with
    | .idle p => acc_idle p h
    | .enter c0 c k => acc_enter k (fun r => acc_idle _ _) c0 c h
    | .run c0 b k => acc_run k (fun r => acc_idle _ _) c0 h b
    | .leave r k => acc_leave r k (acc_idle _ _) h⟩

/-- One thread changes. -/
theorem step_next {recur : Nat → Bool} {s s' : Sys n S R} {t : Fin n} (e : step recur s t = some s') :
    ∃ x, s'.th = put s.th t x ∧ Next x (s.th t) := by
  unfold step at e
  split at e
  · cases e
  · rename_i hx; obtain rfl := Option.some.inj e; exact ⟨_, rfl, hx ▸ .call ..⟩
  · rename_i hx
    split at e
    · obtain rfl := Option.some.inj e; exact ⟨_, rfl, hx ▸ .lock ..⟩
    · cases e
  · rename_i hx; obtain rfl := Option.some.inj e; exact ⟨_, rfl, hx ▸ .go ..⟩
  · rename_i hx; obtain rfl := Option.some.inj e; exact ⟨_, rfl, hx ▸ .act ..⟩
  · rename_i hx; obtain rfl := Option.some.inj e; exact ⟨_, rfl, hx ▸ .ret ..⟩
  · rename_i hx; obtain rfl := Option.some.inj e; exact ⟨_, rfl, hx ▸ .unlock ..⟩
  · rename_i hx; obtain rfl := Option.some.inj e; exact ⟨_, rfl, hx ▸ .back ..⟩

/-- The steps of all threads together are well-founded. -/
theorem step_wf (recur : Nat → Bool) :
    WellFounded fun s' s : Sys n S R => ∃ t, step recur s t = some s' := by
  have w := Pi.Lex.wellFounded (ι := Fin n) (α := fun _ => Thread S R) (· < ·) (s := fun _ => Next) fun _ => next_wf
  refine Subrelation.wf (r := InvImage _ Sys.th) ?_ (InvImage.wf Sys.th w)
  rintro s' s ⟨t, e⟩
  obtain ⟨x, h1, h2⟩ := step_next e
  refine ⟨t, fun u hu => ?_, ?_⟩
  · rw [h1, put_ne _ _ (ne_of_lt hu)]
  · rw [h1, put_same]; exact h2

/-- The thread has finished its program. -/
def Thread.Stopped (x : Thread S R) : Prop := x.code = .idle .stop

/-- The mutex the thread is about to take. -/
def Thread.wants (x : Thread S R) : Option Nat :=
  match x.code with
  | .enter _ (.guard m _) _ => some m
  | _ => none

/-- A thread that can not move has finished or waits for a mutex. -/
theorem step_none {recur : Nat → Bool} {s : Sys n S R} {t : Fin n} (e : step recur s t = none) :
    (s.th t).Stopped ∨ ∃ m, (s.th t).wants = some m ∧ free recur s.th t m = false := by
  unfold step at e
  split at e
  · rename_i hx; left; rw [hx]; rfl
  · cases e
  · rename_i hx
    split at e
    · cases e
    · rename_i hf
      right; rw [hx]; exact ⟨_, rfl, by simpa using hf⟩
  all_goals cases e

/-- The mutexes of one call are taken in the order of `rank`; only a recursive one may be taken twice. -/
def Ascend (recur : Nat → Bool) (rank : Nat → Nat) (l : List Nat) : Prop :=
  l.Pairwise fun a b => rank a < rank b ∨ a = b ∧ recur a = true

/-- All calls of the program do so. -/
def Prog.Ordered (recur : Nat → Bool) (rank : Nat → Nat) : Prog S R → Prop
  | .stop => True
  | .call c k => Ascend recur rank c.locks ∧ ∀ r, (k r).Ordered recur rank

def Thread.Ordered (recur : Nat → Bool) (rank : Nat → Nat) (x : Thread S R) : Prop :=
  match x.code with
  | .idle p => x.held = [] ∧ p.Ordered recur rank
  | .enter _ c k => Ascend recur rank (x.held.reverse ++ c.locks) ∧ ∀ r, (k r).Ordered recur rank
  | .run _ _ k => ∀ r, (k r).Ordered recur rank
  | .leave _ k => ∀ r, (k r).Ordered recur rank

theorem ordered_step {recur : Nat → Bool} {rank : Nat → Nat} {s s' : Sys n S R} {t : Fin n}
    (I : ∀ u, (s.th u).Ordered recur rank) (e : step recur s t = some s') : ∀ u, (s'.th u).Ordered recur rank := by
  obtain ⟨x, h1, h2⟩ := step_next e
  intro u
  rw [h1]
  by_cases hu : u = t
  · subst hu
    rw [put_same]
    have := I u
    generalize s.th u = y at h2 this
    cases h2 with
    | call h c k =>
      obtain ⟨rfl, a, b⟩ := this
      exact ⟨by simpa using a, b⟩
    | lock h c0 m c k => exact ⟨by simpa [Call.locks] using this.1, this.2⟩
    | go => exact this.2
    | act => exact this
    | ret => exact this
    | unlock => exact this
    | back r k => exact ⟨rfl, this r⟩
  · rw [put_ne _ _ hu]; exact I u

theorem ordered_turn {recur : Nat → Bool} {rank : Nat → Nat} {s : Sys n S R} (t : Fin n)
    (I : ∀ u, (s.th u).Ordered recur rank) : ∀ u, ((turn recur s t).th u).Ordered recur rank := by
  unfold turn
  match h : step recur s t with
  | none => exact I
  | some s' => exact ordered_step I h

theorem ordered_sched {recur : Nat → Bool} {rank : Nat → Nat} (l : List (Fin n)) : ∀ {s : Sys n S R},
    (∀ u, (s.th u).Ordered recur rank) → ∀ u, ((sched recur s l).th u).Ordered recur rank := by
  induction l with
  | nil => intro s I; exact I
  | cons t l ih => intro s I; exact ih (ordered_turn t I)

/-- If nobody can move, everybody has finished. -/
theorem all_stopped {recur : Nat → Bool} {rank : Nat → Nat} {s : Sys n S R} (I : ∀ u, (s.th u).Ordered recur rank)
    (excl : ∀ t u m, m ∈ (s.th t).held → m ∈ (s.th u).held → t = u)
    (h : ∀ t, step recur s t = none) : ∀ t, (s.th t).Stopped := by
  -- a waiting thread leads to one waiting for a mutex of higher rank
  have up : ∀ t m, (s.th t).wants = some m → ∃ u m', (s.th u).wants = some m' ∧ rank m < rank m' := by
    intro t m hw
    have hn : free recur s.th t m = false := by
      rcases step_none (h t) with hs | ⟨m', hm', hf⟩
      · rw [Thread.wants, hs] at hw; cases hw
      · rw [hw] at hm'; obtain rfl := Option.some.inj hm'; exact hf
    have hn' : ¬ ∀ u, m ∈ (s.th u).held → u = t ∧ recur m = true := fun hh => by
      rw [free_iff.2 hh] at hn; cases hn
    simp only [not_forall] at hn'
    obtain ⟨u, hu, hc⟩ := hn'
    -- the holder `u` is not finished, so it waits, too
    rcases step_none (h u) with hs | ⟨m', hm', hf⟩
    · have := I u
      rw [Thread.Ordered, hs] at this
      rw [this.1] at hu; cases hu
    · refine ⟨u, m', hm', ?_⟩
      have ho := I u
      unfold Thread.wants at hm'
      unfold Thread.Ordered at ho
      split at hm'
      · rename_i c0 mm c k hx
        obtain rfl := Option.some.inj hm'
        rw [hx] at ho
        have := ho.1
        rw [Ascend, List.pairwise_append] at this
        rcases this.2.2 m (by simpa using hu) mm (by simp [Call.locks]) with h1 | ⟨h1, h2⟩
        · exact h1
        · subst h1
          exfalso
          rw [← Bool.not_eq_true, free_iff] at hf
          exact hf fun v hv => ⟨excl v u m hv hu, h2⟩
      · cases hm'
  have none_waits : ∀ t m, (s.th t).wants ≠ some m := by
    have bound : ∃ B, ∀ t m, (s.th t).wants = some m → rank m < B := by
      refine ⟨((List.finRange n).map fun t => ((s.th t).wants.map rank).getD 0).sum + 1, fun t m hm => ?_⟩
      have : ((s.th t).wants.map rank).getD 0 ≤ ((List.finRange n).map fun t => ((s.th t).wants.map rank).getD 0).sum :=
        List.le_sum_of_mem (List.mem_map.2 ⟨t, List.mem_finRange t, rfl⟩)
      rw [hm] at this
      simp only [Option.map_some, Option.getD_some] at this
      omega
    obtain ⟨B, hB⟩ := bound
    have : ∀ k t m, B - rank m = k → (s.th t).wants ≠ some m := by
      intro k
      induction k using Nat.strongRecOn with
      | _ k ih =>
        intro t m hk hm
        obtain ⟨u, m', h1, h2⟩ := up t m hm
        have := hB t m hm
        exact ih (B - rank m') (by omega) u m' rfl h1
    exact fun t m => this _ t m rfl
  intro t
  rcases step_none (h t) with hs | ⟨m, hm, _⟩
  · exact hs
  · exact absurd hm (none_waits t m)

/-- The execution along an infinite schedule, after `k` turns. -/
def along (recur : Nat → Bool) (s : Sys n S R) (σ : Nat → Fin n) : Nat → Sys n S R
  | 0 => s
  | k + 1 => turn recur (along recur s σ k) (σ k)

theorem along_sched (recur : Nat → Bool) (s : Sys n S R) (σ : Nat → Fin n) (k : Nat) :
    along recur s σ k = sched recur s ((List.range k).map σ) := by
  induction k with
  | zero => rfl
  | succ k ih => rw [along, ih, List.range_succ, List.map_append, sched_append]; rfl

theorem along_add (recur : Nat → Bool) (s : Sys n S R) (σ : Nat → Fin n) (a k : Nat) :
    along recur s σ (a + k) = along recur (along recur s σ a) (fun j => σ (a + j)) k := by
  induction k with
  | zero => rfl
  | succ k ih => rw [← Nat.add_assoc, along, along, ih]

/-- Every thread gets its turn again and again. -/
def Fair (σ : Nat → Fin n) : Prop := ∀ t N, ∃ k, N ≤ k ∧ σ k = t

theorem fair_ends {recur : Nat → Bool} {rank : Nat → Nat} {prot : Nat → Nat} {st0 : Nat → S} {p0 : Fin n → Prog S R} :
    ∀ s : Sys n S R, (∀ u, (s.th u).Ordered recur rank) → (∃ base, Inv prot st0 p0 s base) → ∀ σ : Nat → Fin n, Fair σ →
    ∃ K, ∀ t, ((along recur s σ K).th t).Stopped := by
  intro s
  induction s using (step_wf recur).induction with
  | _ s ih =>
    intro hO hI σ hσ
    obtain ⟨base, I⟩ := hI
    by_cases hst : ∀ t, step recur s t = none
    · exact ⟨0, all_stopped hO I.excl hst⟩
    · simp only [not_forall] at hst
      obtain ⟨t, ht⟩ := hst
      obtain ⟨k0, _, hk0⟩ := hσ t 0
      have hex : ∃ k, step recur s (σ k) ≠ none := ⟨k0, by rw [hk0]; exact ht⟩
      classical
      let k := Nat.find hex
      have hk : step recur s (σ k) ≠ none := Nat.find_spec hex
      have hmin : ∀ j, j < k → step recur s (σ j) = none := fun j hj => by
        have := Nat.find_min hex hj
        simpa using this
      have stay : ∀ j, j ≤ k → along recur s σ j = s := by
        intro j
        induction j with
        | zero => intro _; rfl
        | succ j ihj =>
          intro hj
          rw [along, ihj (by omega), turn, hmin j (by omega)]; rfl
      obtain ⟨s', hs'⟩ := Option.ne_none_iff_exists'.1 hk
      have e1 : along recur s σ (k + 1) = s' := by rw [along, stay k (le_refl k), turn, hs']; rfl
      obtain ⟨K, hK⟩ := ih s' ⟨σ k, hs'⟩ (ordered_step hO hs') (inv_step I hs').1 (fun j => σ (k + 1 + j)) fun t N => by
        obtain ⟨q, h1, h2⟩ := hσ t (k + 1 + N)
        exact ⟨q - (k + 1), by omega, by rw [← h2]; exact congrArg σ (by omega)⟩
      exact ⟨k + 1 + K, by rw [along_add, e1]; exact hK⟩

end Verif.Conc
