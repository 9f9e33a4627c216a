import Verif.Conc.Lemmas
/-!
# Every schedule keeps the invariant
-/
namespace Verif.Conc
variable {S R : Type} {n : Nat} {prot : Nat → Nat} {st0 : Nat → S} {p0 : Fin n → Prog S R}

theorem not_runs_of {x : Thread S R} (h : ∀ c0 b k, x.code ≠ .run c0 b k) : ∀ c0 b, ¬ x.Runs c0 b :=
  fun c0 b ⟨k, e⟩ => h c0 b k e

/-- A thread entering its operation. -/
theorem inv_enter {s : Sys n S R} {base : Nat → S} (I : Inv prot st0 p0 s base) {t : Fin n} {h : List Nat} {c0 : Call S R}
    {b : Body S R} {k : R → Prog S R} (e : s.th t = ⟨h, .enter c0 (.plain b) k⟩) :
    Inv prot st0 p0 { s with th := put s.th t ⟨h, .run c0 b k⟩ } base := by
  have ft := I.fine t
  rw [e] at ft
  obtain ⟨f1, f2, f3, f4, f5⟩ := ft
  simp only [Call.locks, List.append_nil, Call.body] at f1 f2
  have honly : b.Only fun i => prot i ∈ h := by
    have h3 : c0.body.Only _ := f3
    rw [← f2] at h3
    exact Only.mono b h3 fun i hi => by simpa [f1] using hi
  have hagree : ∀ i, prot i ∈ h → s.st i = base i := fun i hi => I.rest i fun u c b' hb hm => by
    have : u = t := I.excl u t _ hm (by rw [e]; exact hi)
    subst this
    obtain ⟨k', hk⟩ := hb
    rw [e] at hk
    exact absurd hk (by simp)
  constructor
  · exact I.serial
  · intro u
    by_cases hu : u = t
    · subst hu; simp only [put_same]; exact ⟨f1, honly, f3, f4, f5⟩
    · simp only [put_ne _ _ hu]; exact I.fine u
  · intro u v m hmu hmv
    have key : ∀ w, (put s.th t ⟨h, .run c0 b k⟩ w).held = (s.th w).held := fun w => by
      by_cases hw : w = t
      · subst hw; rw [put_same, e]
      · rw [put_ne _ _ hw]
    rw [key] at hmu hmv
    exact I.excl u v m hmu hmv
  · intro i hi
    refine I.rest i fun u c b' hb => ?_
    have hu : u ≠ t := fun e' => by
      subst e'; obtain ⟨k', hk⟩ := hb; rw [e] at hk; exact absurd hk (by simp)
    have := hi u c b'
    simp only [put_ne _ _ hu] at this
    exact this hb
  · intro u c b' hb
    by_cases hu : u = t
    · subst hu
      simp only [put_same] at hb ⊢
      obtain ⟨k', hk⟩ := hb
      simp only [Code.run.injEq] at hk
      obtain ⟨rfl, rfl, rfl⟩ := hk
      rw [← f2]
      exact exec_local b honly _ _ hagree
    · simp only [put_ne _ _ hu] at hb ⊢; exact I.busy u c b' hb

/-- An access. -/
theorem inv_act {s : Sys n S R} {base : Nat → S} (I : Inv prot st0 p0 s base) {t : Fin n} {h : List Nat} {c0 : Call S R}
    {j : Nat} {f : S → S} {b : S → Body S R} {k : R → Prog S R} (e : s.th t = ⟨h, .run c0 (.act j f b) k⟩) :
    Inv prot st0 p0 { s with st := set s.st j (f (s.st j)), th := put s.th t ⟨h, .run c0 (b (s.st j)) k⟩ } base := by
  have ft := I.fine t
  rw [e] at ft
  obtain ⟨f1, f2, f3, f4, f5⟩ := ft
  have key : ∀ w, (put s.th t ⟨h, .run c0 (b (s.st j)) k⟩ w).held = (s.th w).held := fun w => by
    by_cases hw : w = t
    · subst hw; rw [put_same, e]
    · rw [put_ne _ _ hw]
  have bt := I.busy t c0 _ ⟨k, by rw [e]⟩
  constructor
  · exact I.serial
  · intro u
    by_cases hu : u = t
    · subst hu; simp only [put_same]; exact ⟨f1, f2.2 _, f3, f4, f5⟩
    · simp only [put_ne _ _ hu]; exact I.fine u
  · intro u v m hmu hmv
    rw [key] at hmu hmv
    exact I.excl u v m hmu hmv
  · intro i hi
    have hij : i ≠ j := fun e' => by
      subst e'
      have := hi t c0 (b (s.st i)) ⟨k, by simp only [put_same]⟩
      simp only [put_same] at this
      exact this f2.1
    change set s.st j (f (s.st j)) i = _
    rw [set_ne _ _ hij]
    refine I.rest i fun u c b' hb => ?_
    by_cases hu : u = t
    · subst hu
      have := hi u c0 (b (s.st j)) ⟨k, by simp only [put_same]⟩
      simp only [put_same] at this
      rw [e]; exact this
    · have := hi u c b'
      simp only [put_ne _ _ hu] at this
      exact this hb
  · intro u c b' hb
    by_cases hu : u = t
    · subst hu
      simp only [put_same] at hb ⊢
      obtain ⟨k', hk⟩ := hb
      simp only [Code.run.injEq] at hk
      obtain ⟨rfl, rfl, rfl⟩ := hk
      rw [e] at bt
      exact bt
    · simp only [put_ne _ _ hu] at hb ⊢
      have hbu := I.busy u c b' hb
      have fu := I.fine u
      obtain ⟨k', hk⟩ := hb
      rw [Thread.Fine, hk] at fu
      have hne : prot j ∉ (s.th u).held := fun hm => hu (I.excl u t _ hm (by rw [e]; exact f2.1))
      have hl := exec_local b' fu.2.1 (set s.st j (f (s.st j))) s.st fun i hi =>
        set_ne _ _ fun e' => hne (e' ▸ hi)
      exact ⟨hl.1.trans hbu.1, fun i hi => (hl.2 i hi).trans (hbu.2 i hi)⟩

/-- The end of the operation. -/
theorem inv_ret {s : Sys n S R} {base : Nat → S} (I : Inv prot st0 p0 s base) {t : Fin n} {h : List Nat} {c0 : Call S R}
    {r : R} {k : R → Prog S R} (e : s.th t = ⟨h, .run c0 (.ret r) k⟩) :
    Inv prot st0 p0 { s with th := put s.th t ⟨h, .leave r k⟩, log := s.log ++ [(t, c0, r)] } (c0.body.exec base).1 := by
  have ft := I.fine t
  rw [e] at ft
  obtain ⟨f1, f2, f3, f4, f5⟩ := ft
  have key : ∀ w, (put s.th t ⟨h, .leave r k⟩ w).held = (s.th w).held := fun w => by
    by_cases hw : w = t
    · subst hw; rw [put_same, e]
    · rw [put_ne _ _ hw]
  have bt := I.busy t c0 _ ⟨k, by rw [e]⟩
  rw [e] at bt
  simp only [Body.exec] at bt
  have hsafe : c0.body.Only fun i => prot i ∈ h := Only.mono _ f3 fun i hi => by simpa [f1] using hi
  constructor
  · simp only [bodies, List.map_append, List.map_cons, List.map_nil]
    exact I.serial.snoc (Prod.ext rfl bt.1.symm)
  · intro u
    by_cases hu : u = t
    · subst hu
      simp only [put_same, mine_snoc_same]
      exact ⟨f4, f5.snoc r⟩
    · simp only [put_ne _ _ hu, mine_snoc_ne _ hu]; exact I.fine u
  · intro u v m hmu hmv
    rw [key] at hmu hmv
    exact I.excl u v m hmu hmv
  · intro i hi
    by_cases hm : prot i ∈ h
    · exact bt.2 i hm
    · rw [exec_frame _ hsafe _ _ hm]
      refine I.rest i fun u c b' hb => ?_
      by_cases hu : u = t
      · subst hu; rw [e]; exact hm
      · have := hi u c b'
        simp only [put_ne _ _ hu] at this
        exact this hb
  · intro u c b' hb
    by_cases hu : u = t
    · subst hu
      simp only [put_same] at hb
      obtain ⟨k', hk⟩ := hb
      exact absurd hk (by simp)
    · simp only [put_ne _ _ hu] at hb ⊢
      have hbu := I.busy u c b' hb
      have fu := I.fine u
      obtain ⟨k', hk⟩ := hb
      rw [Thread.Fine, hk] at fu
      have hcu : c.body.Only fun i => prot i ∈ (s.th u).held := Only.mono _ fu.2.2.1 fun i hi => by simpa [fu.1] using hi
      have hl := exec_local c.body hcu base (c0.body.exec base).1 fun i hi => by
        rw [exec_frame _ hsafe]
        exact fun hm => hu (I.excl u t _ hi (by rw [e]; exact hm))
      exact ⟨hbu.1.trans hl.1, fun i hi => (hbu.2 i hi).trans (hl.2 i hi)⟩

/-- Every step keeps the invariant and only adds to the log. -/
theorem inv_step {recur : Nat → Bool} {s s' : Sys n S R} {base : Nat → S} (I : Inv prot st0 p0 s base) {t : Fin n}
    (e : step recur s t = some s') : (∃ base', Inv prot st0 p0 s' base') ∧ ∃ l, s'.log = s.log ++ l := by
  have ft := I.fine t
  unfold step at e
  split at e
  · cases e
  · rename_i h c k hx
    obtain rfl := Option.some.inj e
    rw [hx] at ft
    obtain ⟨f1, f2, f3⟩ := ft
    simp only at f1
    subst f1
    refine ⟨⟨base, inv_move I t _ ⟨by simp, rfl, f2.1, f2.2, f3⟩ (fun u m hm => by simp at hm)
      (not_runs_of (by simp)) (not_runs_of (by simp [hx]))⟩, [], by simp⟩
  · rename_i h c0 m c k hx
    split at e
    · rename_i hfree
      obtain rfl := Option.some.inj e
      rw [free_iff] at hfree
      rw [hx] at ft
      obtain ⟨f1, f2, f3, f4, f5⟩ := ft
      refine ⟨⟨base, inv_move I t _ ⟨by simpa [Call.locks] using f1, f2, f3, f4, f5⟩ (fun u m' hm hu => ?_)
        (not_runs_of (by simp)) (not_runs_of (by simp [hx]))⟩, [], by simp⟩
      simp only [List.mem_cons] at hm
      rcases hm with rfl | hm
      · exact (hfree u hu).1
      · exact I.excl u t m' hu (by rw [hx]; exact hm)
    · cases e
  · rename_i h c0 b k hx
    obtain rfl := Option.some.inj e
    exact ⟨⟨base, inv_enter I hx⟩, [], by simp⟩
  · rename_i h c0 i f b k hx
    obtain rfl := Option.some.inj e
    exact ⟨⟨base, inv_act I hx⟩, [], by simp⟩
  · rename_i h c0 r k hx
    obtain rfl := Option.some.inj e
    exact ⟨⟨_, inv_ret I hx⟩, _, rfl⟩
  · rename_i m h r k hx
    obtain rfl := Option.some.inj e
    rw [hx] at ft
    refine ⟨⟨base, inv_move I t _ ft (fun u m' hm hu => ?_) (not_runs_of (by simp)) (not_runs_of (by simp [hx]))⟩, [], by simp⟩
    exact I.excl u t m' hu (by rw [hx]; exact List.mem_cons_of_mem _ hm)
  · rename_i r k hx
    obtain rfl := Option.some.inj e
    rw [hx] at ft
    refine ⟨⟨base, inv_move I t _ ⟨rfl, ft.1 r, ft.2⟩ (fun u m' hm => by simp at hm)
      (not_runs_of (by simp)) (not_runs_of (by simp [hx]))⟩, [], by simp⟩

theorem inv_turn (recur : Nat → Bool) {s : Sys n S R} {base : Nat → S} (I : Inv prot st0 p0 s base) (t : Fin n) :
    (∃ base', Inv prot st0 p0 (turn recur s t) base') ∧ ∃ l, (turn recur s t).log = s.log ++ l := by
  unfold turn
  match h : step recur s t with
  | none => exact ⟨⟨base, I⟩, [], by simp⟩
  | some s' => exact inv_step I h

theorem inv_sched (recur : Nat → Bool) (l : List (Fin n)) : ∀ {s : Sys n S R} {base : Nat → S}, Inv prot st0 p0 s base →
    (∃ base', Inv prot st0 p0 (sched recur s l) base') ∧ ∃ l', (sched recur s l).log = s.log ++ l' := by
  induction l with
  | nil => intro s base I; exact ⟨⟨base, I⟩, [], by simp [sched]⟩
  | cons t l ih =>
    intro s base I
    obtain ⟨⟨b1, I1⟩, l1, e1⟩ := inv_turn recur I t
    obtain ⟨h2, l2, e2⟩ := ih I1
    exact ⟨h2, l1 ++ l2, by rw [sched, e2, e1, List.append_assoc]⟩

theorem sched_append (recur : Nat → Bool) (s : Sys n S R) (l l' : List (Fin n)) :
    sched recur s (l ++ l') = sched recur (sched recur s l) l' := by
  induction l generalizing s with
  | nil => rfl
  | cons t l ih => simp only [List.cons_append, sched, ih]

end Verif.Conc
