import Verif.Child.ProcModel
/-!
# C87: waiting for child processes

A process object waits for its own process: waiting returns the status the process ended with, destroying and assigning end after the process of
the object, no process is taken away from another object and none is left behind.
-/
namespace Verif.Child.Proc

/-- The object that an event makes wait. -/
def waiter : Ev → Option Nat
  | .assign h _ => some h
  | .wait h _ => some h
  | .destroy h => some h
  | _ => none

/-- Histories in which empty objects (default constructed, moved from, detached, waited for) are destroyed, assigned to or waited for only while
the program has no children at all. -/
inductive Careful : List Ev → St → Prop
  | nil : Careful [] ⟨fun _ => none, fun _ => none⟩
  | cons {es s e s'} (h : Careful es s) (hs : Step s e s') (hc : ∀ o, waiter e = some o → s.hs o = some none → ∀ p, s.kids p = none) :
      Careful (e :: es) s'

theorem Careful.run {es s} (h : Careful es s) : Run es s := by
  induction h with
  | nil => exact .nil
  | cons _ hs _ ih => exact .cons ih hs

/-- Objects hold different children that exist. -/
structure Good (s : St) : Prop where
  ex : ∀ h p, s.hs h = some (some p) → s.kids p ≠ none
  inj : ∀ h g p, s.hs h = some (some p) → s.hs g = some (some p) → h = g

/-- Waiting with an object that holds a child, or empty without children. -/
theorem wait4_held {s : St} {h : Nat} {v : Option Nat} {k r} (hg : Good s) (hh : s.hs h = some v) (hw : Wait4 s.kids v k r)
    (hc : v = none → ∀ p, s.kids p = none) :
    (v = none ∧ k = s.kids ∧ r = none) ∨ ∃ p st, v = some p ∧ s.kids p = some (some st) ∧ k = upd s.kids p none ∧ r = some st := by
  cases hw with
  | one p st h1 => exact .inr ⟨p, st, rfl, h1, rfl, rfl⟩
  | noSuch p h1 => exact absurd h1 (hg.ex h p hh)
  | any p st h1 => rw [hc rfl p] at h1; cases h1
  | noAny h1 => exact .inl ⟨rfl, rfl, rfl⟩

theorem good {es s} (h : Careful es s) : Good s := by
  induction h with
  | nil => exact ⟨by simp, by simp⟩
  | @cons es s e s' _ hs hc ih =>
    have key : ∀ (o : Nat) (v : Option Nat) (k r) (f : Nat → Option (Option Nat)), s.hs o = some v → Wait4 s.kids v k r →
        (v = none → ∀ p, s.kids p = none) → (∀ j p, f j = some (some p) → v ≠ some p → ∃ i, s.hs i = some (some p)) →
        (∀ j p, f j = some (some p) → v ≠ some p) → (∀ i j p, f i = some (some p) → f j = some (some p) → i = j) → Good ⟨k, f⟩ := by
      intro o v k r f hh hw hcc hf hf2 hf3
      refine ⟨fun j p hj => ?_, fun i j p hi hj => hf3 i j p hi hj⟩
      obtain ⟨i, hi⟩ := hf j p hj (hf2 j p hj)
      rcases wait4_held ih hh hw hcc with ⟨rfl, rfl, -⟩ | ⟨q, st, rfl, -, rfl, -⟩
      · exact ih.ex i p hi
      · have : p ≠ q := fun e => hf2 j p hj (by rw [e])
        simp only [upd, if_neg this]
        exact ih.ex i p hi
    cases hs with
    | exit p st h1 =>
      refine ⟨fun j q hj => ?_, fun i j q hi hj => ih.inj i j q hi hj⟩
      simp only [upd]
      split
      · simp
      · exact ih.ex j q hj
    | default h hf =>
      refine ⟨fun j q hj => ?_, fun i j q hi hj => ?_⟩
      · simp only [upd] at hj
        split at hj
        · simp at hj
        · exact ih.ex j q hj
      · simp only [upd] at hi hj
        split at hi
        · simp at hi
        · split at hj
          · simp at hj
          · exact ih.inj i j q hi hj
    | start h p hf hp =>
      refine ⟨fun j q hj => ?_, fun i j q hi hj => ?_⟩
      · simp only [upd] at hj ⊢
        split at hj
        · simp at hj; subst hj; simp
        · split
          · simp
          · exact ih.ex j q hj
      · simp only [upd] at hi hj
        split at hi
        · split at hj
          · simp_all
          · simp at hi; subst hi; exact absurd hp (ih.ex j _ hj)
        · split at hj
          · simp at hj; subst hj; exact absurd hp (ih.ex i _ hi)
          · exact ih.inj i j q hi hj
    | move h g v hf hg =>
      have hne : h ≠ g := fun e => by subst e; rw [hf] at hg; cases hg
      have tr : ∀ j q, upd (upd s.hs h (some v)) g (some none) j = some (some q) →
          (j = h ∧ s.hs g = some (some q)) ∨ (j ≠ h ∧ j ≠ g ∧ s.hs j = some (some q)) := by
        intro j q hj
        simp only [upd] at hj
        split at hj
        · simp at hj
        · split at hj
          · exact .inl ⟨‹_›, by rw [hg]; exact hj⟩
          · exact .inr ⟨‹_›, ‹_›, hj⟩
      refine ⟨fun j q hj => ?_, fun i j q hi hj => ?_⟩
      · rcases tr j q hj with ⟨-, h1⟩ | ⟨-, -, h1⟩
        · exact ih.ex g q h1
        · exact ih.ex j q h1
      · rcases tr i q hi with ⟨rfl, h1⟩ | ⟨_, n1, h1⟩ <;> rcases tr j q hj with ⟨rfl, h2⟩ | ⟨_, n2, h2⟩
        · rfl
        · exact absurd (ih.inj _ _ q h2 h1) n2
        · exact absurd (ih.inj _ _ q h1 h2) n1
        · exact ih.inj i j q h1 h2
    | assign h g v w hh hg hne k r hw =>
      have tr : ∀ j q, upd (upd s.hs h (some w)) g (some none) j = some (some q) →
          (j = h ∧ s.hs g = some (some q)) ∨ (j ≠ h ∧ j ≠ g ∧ s.hs j = some (some q)) := by
        intro j q hj
        simp only [upd] at hj
        split at hj
        · simp at hj
        · split at hj
          · exact .inl ⟨‹_›, by rw [hg]; exact hj⟩
          · exact .inr ⟨‹_›, ‹_›, hj⟩
      refine key h v k r _ hh hw (fun e => hc h rfl (by rw [hh, e])) (fun j q hj _ => ?_) (fun j q hj e => ?_) (fun i j q hi hj => ?_)
      · rcases tr j q hj with ⟨-, h1⟩ | ⟨-, -, h1⟩
        · exact ⟨g, h1⟩
        · exact ⟨j, h1⟩
      · rw [e] at hh
        rcases tr j q hj with ⟨-, h1⟩ | ⟨n1, -, h1⟩
        · exact hne (ih.inj h g q hh h1)
        · exact n1 (ih.inj j h q h1 hh)
      · rcases tr i q hi with ⟨rfl, h1⟩ | ⟨_, n1, h1⟩ <;> rcases tr j q hj with ⟨rfl, h2⟩ | ⟨_, n2, h2⟩
        · rfl
        · exact absurd (ih.inj _ _ q h2 h1) n2
        · exact absurd (ih.inj _ _ q h1 h2) n1
        · exact ih.inj i j q h1 h2
    | waitOk h v hh k st hw =>
      have tr : ∀ j q, upd s.hs h (some none) j = some (some q) → j ≠ h ∧ s.hs j = some (some q) := by
        intro j q hj
        simp only [upd] at hj
        split at hj
        · simp at hj
        · exact ⟨‹_›, hj⟩
      exact key h v k _ _ hh hw (fun e => hc h rfl (by rw [hh, e])) (fun j q hj _ => ⟨j, (tr j q hj).2⟩)
        (fun j q hj e => (tr j q hj).1 (ih.inj j h q (tr j q hj).2 (by rw [hh, e])))
        (fun i j q hi hj => ih.inj i j q (tr i q hi).2 (tr j q hj).2)
    | waitErr h v hh k hw =>
      rcases wait4_held ih hh hw (fun e => hc h rfl (by rw [hh, e])) with ⟨-, rfl, -⟩ | ⟨q, st, -, -, -, h0⟩
      · exact ih
      · cases h0
    | detach h v hh =>
      have tr : ∀ j q, upd s.hs h (some none) j = some (some q) → s.hs j = some (some q) := by
        intro j q hj
        simp only [upd] at hj
        split at hj
        · simp at hj
        · exact hj
      exact ⟨fun j q hj => ih.ex j q (tr j q hj), fun i j q hi hj => ih.inj i j q (tr i q hi) (tr j q hj)⟩
    | destroy h v hh k r hw =>
      have tr : ∀ j q, upd s.hs h none j = some (some q) → j ≠ h ∧ s.hs j = some (some q) := by
        intro j q hj
        simp only [upd] at hj
        split at hj
        · simp at hj
        · exact ⟨‹_›, hj⟩
      exact key h v k _ _ hh hw (fun e => hc h rfl (by rw [hh, e])) (fun j q hj _ => ⟨j, (tr j q hj).2⟩)
        (fun j q hj e => (tr j q hj).1 (ih.inj j h q (tr j q hj).2 (by rw [hh, e])))
        (fun i j q hi hj => ih.inj i j q (tr i q hi).2 (tr j q hj).2)

theorem wait4_status {kids v k r es} (hw : Wait4 kids v k r) (h : ∀ p st, kids p = some (some st) → status es p = some st) :
    ∀ p st, k p = some (some st) → status es p = some st := by
  cases hw with
  | one q st h1 =>
    intro p st' hp
    simp only [upd] at hp
    split at hp
    · cases hp
    · exact h p st' hp
  | noSuch q h1 => exact h
  | any q st h1 =>
    intro p st' hp
    simp only [upd] at hp
    split at hp
    · cases hp
    · exact h p st' hp
  | noAny h1 => exact h

/-- What the kernel keeps of a child is the status it ended with. -/
theorem kept_status {es s} (h : Run es s) : ∀ p st, s.kids p = some (some st) → status es p = some st := by
  induction h with
  | nil => simp
  | cons _ hs ih =>
    cases hs with
    | exit p st h1 =>
      intro q st' hq
      simp only [upd] at hq
      simp only [status]
      split at hq
      · rename_i e; subst e; simp only [Option.some.injEq] at hq; simp [hq]
      · rw [if_neg (fun e => by simp_all)]; exact ih q st' hq
    | default h hf => exact ih
    | start h p hf hp =>
      intro q st' hq
      simp only [upd] at hq
      simp only [status]
      split at hq
      · simp at hq
      · rw [if_neg (fun e => by simp_all)]; exact ih q st' hq
    | move h g v hf hg => exact ih
    | assign h g v w hh hg hne k r hw => exact wait4_status (es := _) hw ih
    | waitOk h v hh k st hw => exact wait4_status (es := _) hw ih
    | waitErr h v hh k hw => exact wait4_status (es := _) hw ih
    | detach h v hh => exact ih
    | destroy h v hh k r hw => exact wait4_status (es := _) hw ih

/-- Waiting with an object that holds child `p` never throws: it returns, after `p` has ended, the status `p` ended with; `p` is taken away,
other children and objects are as before. Missing: histories in which empty objects wait while there are children, for which it is false, see
below. -/
theorem c87_wait_partial {es s h p r s'} (hc : Careful es s) (hh : s.hs h = some (some p)) (hs : Step s (.wait h r) s') :
    ∃ st, status es p = some st ∧ r = some st ∧ s'.kids p = none ∧ (∀ q, q ≠ p → s'.kids q = s.kids q) ∧
      s'.hs h = some none ∧ ∀ g, g ≠ h → s'.hs g = s.hs g := by
  have hg := good hc
  cases hs with
  | waitOk _ v hv k st hw =>
    rw [hh] at hv; injection hv with hv; subst hv
    rcases wait4_held hg hh hw (by simp) with ⟨h0, -⟩ | ⟨q, st', h1, h2, rfl, h3⟩
    · cases h0
    · injection h1 with h1; subst h1; injection h3 with h3; subst h3
      refine ⟨st, kept_status hc.run _ _ h2, rfl, by simp [upd], fun q hq => by simp [upd, hq], by simp [upd], fun g hg => by simp [upd, hg]⟩
  | waitErr _ v hv k hw =>
    rw [hh] at hv; injection hv with hv; subst hv
    rcases wait4_held hg hh hw (by simp) with ⟨h0, -⟩ | ⟨q, st', h1, h2, rfl, h3⟩
    · cases h0
    · cases h3

/-- It does return when the child has ended. -/
theorem c87_wait_returns {s h p st} (hh : s.hs h = some (some p)) (hk : s.kids p = some (some st)) : ∃ s', Step s (.wait h (some st)) s' :=
  ⟨_, .waitOk s h (some p) hh _ st (.one p st hk)⟩

/-- Destroying (or assigning to) an object that holds child `p` returns after `p` has ended and takes away `p` and no other child. Missing: as for
`c87_wait_partial`. -/
theorem c87_destroy_partial {es s h p e s'} (hc : Careful es s) (hh : s.hs h = some (some p)) (he : e = .destroy h ∨ ∃ g, e = .assign h g)
    (hs : Step s e s') : (∃ st, status es p = some st) ∧ s'.kids p = none ∧ ∀ q, q ≠ p → s'.kids q = s.kids q := by
  have hg := good hc
  rcases he with rfl | ⟨g, rfl⟩
  · cases hs with
    | destroy _ v hv k r hw =>
      rw [hh] at hv; injection hv with hv; subst hv
      rcases wait4_held hg hh hw (by simp) with ⟨h0, -⟩ | ⟨q, st', h1, h2, rfl, h3⟩
      · cases h0
      · injection h1 with h1; subst h1
        exact ⟨⟨st', kept_status hc.run _ _ h2⟩, by simp [upd], fun q hq => by simp [upd, hq]⟩
  · cases hs with
    | assign _ _ v w hv hgw hne k r hw =>
      rw [hh] at hv; injection hv with hv; subst hv
      rcases wait4_held hg hh hw (by simp) with ⟨h0, -⟩ | ⟨q, st', h1, h2, rfl, h3⟩
      · cases h0
      · injection h1 with h1; subst h1
        exact ⟨⟨st', kept_status hc.run _ _ h2⟩, by simp [upd], fun q hq => by simp [upd, hq]⟩

/-- The objects hold different children, and every one that exists. -/
theorem c87_own_partial {es s} (hc : Careful es s) : (∀ h p, s.hs h = some (some p) → s.kids p ≠ none) ∧
    ∀ h g p, s.hs h = some (some p) → s.hs g = some (some p) → h = g := ⟨(good hc).ex, (good hc).inj⟩

/-- Every child that has not been taken away belongs to an object or was detached: if nothing is detached, no child is left when no object is
left. For every history. -/
theorem c87_none_left {es s} (hr : Run es s) (p : Nat) (hk : s.kids p ≠ none) (hd : ∀ h, .detach h ∉ es) : ∃ h, s.hs h = some (some p) := by
  induction hr with
  | nil => exact absurd rfl hk
  | @cons es s e s' _ hs ih =>
    have hd' : ∀ h, .detach h ∉ es := fun h hm => hd h (List.mem_cons_of_mem _ hm)
    have kk : ∀ {v k r}, Wait4 s.kids v k r → k p ≠ none → s.kids p ≠ none ∧ v ≠ some p := by
      intro v k r hw hk
      cases hw with
      | one q st h1 =>
        simp only [upd] at hk
        split at hk
        · exact absurd rfl hk
        · exact ⟨hk, fun e => by injection e with e; exact absurd e.symm ‹_›⟩
      | noSuch q h1 => exact ⟨hk, fun e => by injection e with e; subst e; exact hk h1⟩
      | any q st h1 =>
        simp only [upd] at hk
        split at hk
        · exact absurd rfl hk
        · exact ⟨hk, by simp⟩
      | noAny h1 => exact ⟨hk, by simp⟩
    cases hs with
    | exit q st h1 =>
      simp only [upd] at hk
      refine ih (fun h0 => ?_) hd'
      split at hk
      · rename_i e; subst e; rw [h1] at h0; cases h0
      · exact hk h0
    | default h hf =>
      obtain ⟨o, ho⟩ := ih hk hd'
      have : o ≠ h := fun e => by subst e; rw [hf] at ho; cases ho
      exact ⟨o, by simp [upd, this, ho]⟩
    | start h q hf hq =>
      by_cases e : p = q
      · subst e; exact ⟨h, by simp [upd]⟩
      · simp only [upd, if_neg e] at hk
        obtain ⟨o, ho⟩ := ih hk hd'
        have : o ≠ h := fun e => by subst e; rw [hf] at ho; cases ho
        exact ⟨o, by simp [upd, this, ho]⟩
    | move h g v hf hg =>
      obtain ⟨o, ho⟩ := ih hk hd'
      have hne : h ≠ g := fun e => by subst e; rw [hf] at hg; cases hg
      by_cases e : o = g
      · subst e
        rw [ho] at hg
        exact ⟨h, by simp [upd, hne]; exact (Option.some.inj hg).symm⟩
      · have : o ≠ h := fun e => by subst e; rw [hf] at ho; cases ho
        exact ⟨o, by simp [upd, this, e, ho]⟩
    | assign h g v w hh hg hne k r hw =>
      obtain ⟨k1, k2⟩ := kk hw hk
      obtain ⟨o, ho⟩ := ih k1 hd'
      have : o ≠ h := fun e => by subst e; rw [hh] at ho; injection ho with ho; exact k2 ho
      by_cases e : o = g
      · subst e
        rw [ho] at hg
        exact ⟨h, by simp [upd, hne]; exact (Option.some.inj hg).symm⟩
      · exact ⟨o, by simp [upd, this, e, ho]⟩
    | waitOk h v hh k st hw =>
      obtain ⟨k1, k2⟩ := kk hw hk
      obtain ⟨o, ho⟩ := ih k1 hd'
      have : o ≠ h := fun e => by subst e; rw [hh] at ho; injection ho with ho; exact k2 ho
      exact ⟨o, by simp [upd, this, ho]⟩
    | waitErr h v hh k hw => exact ih (kk hw hk).1 hd'
    | detach h v hh => exact absurd (List.mem_cons_self ..) (hd h)
    | destroy h v hh k r hw =>
      obtain ⟨k1, k2⟩ := kk hw hk
      obtain ⟨o, ho⟩ := ih k1 hd'
      have : o ≠ h := fun e => by subst e; rw [hh] at ho; injection ho with ho; exact k2 ho
      exact ⟨o, by simp [upd, this, ho]⟩

/-- The hypothesis is as weak as possible: if an empty object is destroyed (or assigned to) while there is a child, some child that the object
does not hold is taken away. -/
theorem c87_empty_harms {s h e s'} (hh : s.hs h = some none) (he : e = .destroy h ∨ ∃ g, e = .assign h g) (hs : Step s e s')
    (hk : ∃ p, s.kids p ≠ none) : ∃ p, s.kids p ≠ none ∧ s'.kids p = none := by
  have kk : ∀ {k r}, Wait4 s.kids none k r → ∃ p, s.kids p ≠ none ∧ k p = none := by
    intro k r hw
    cases hw with
    | any p st h1 => exact ⟨p, by simp [h1], by simp [upd]⟩
    | noAny h1 => obtain ⟨p, hp⟩ := hk; exact absurd (h1 p) hp
  rcases he with rfl | ⟨g, rfl⟩
  · cases hs with
    | destroy _ v hv k r hw => rw [hh] at hv; injection hv with hv; subst hv; exact kk hw
  · cases hs with
    | assign _ _ v w hv hgw hne k r hw => rw [hh] at hv; injection hv with hv; subst hv; exact kk hw

/-! ## Cases -/

/-- Two children, waited for in turn, the objects destroyed after both: as expected. -/
example : ∃ s, Careful [.destroy 1, .destroy 0, .wait 1 (some 4), .exit 8 4, .wait 0 (some 3), .exit 7 3, .start 1 8, .start 0 7] s := by
  refine ⟨_, .cons (.cons (.cons (.cons (.cons (.cons (.cons (.cons .nil (.start _ 0 7 rfl rfl) ?_) (.start _ 1 8 rfl rfl) ?_)
    (.exit _ 7 3 rfl) ?_) (.waitOk _ 0 (some 7) rfl _ 3 (.one 7 3 rfl)) ?_) (.exit _ 8 4 rfl) ?_)
    (.waitOk _ 1 (some 8) rfl _ 4 (.one 8 4 rfl)) ?_) (.destroy _ 0 none rfl _ none (.noAny ?_)) ?_) (.destroy _ 1 none rfl _ none (.noAny ?_)) ?_⟩
  all_goals first
    | (intro o ho; simp only [waiter, Option.some.injEq, reduceCtorEq] at ho; done)
    | (intro o ho h p; simp only [waiter, Option.some.injEq] at ho; subst ho; simp [upd] at h; done)
    | (intro o ho _ p; by_cases h7 : p = 7 <;> by_cases h8 : p = 8 <;> simp [upd, h7, h8]; done)
    | (intro p; by_cases h7 : p = 7 <;> by_cases h8 : p = 8 <;> simp [upd, h7, h8]; done)

/-- **Violated**: `posix_process p; p = posix_process(...);` — the assignment waits for any child, that is for the new one, and takes it away.
`p` holds a number that no child has, and `wait(p)` throws. -/
theorem c87_assign_violated : ∃ s, Run [.assign 0 1, .exit 7 3, .start 1 7, .default 0] s ∧ s.hs 0 = some (some 7) ∧
    status [.assign 0 1, .exit 7 3, .start 1 7, .default 0] 7 = some 3 ∧ ∀ r s', Step s (.wait 0 r) s' → r = none := by
  refine ⟨_, .cons (.cons (.cons (.cons .nil (.default _ 0 rfl)) (.start _ 1 7 rfl rfl)) (.exit _ 7 3 rfl))
    (.assign _ 0 1 none (some 7) rfl rfl (by decide) _ (some 3) (.any 7 3 rfl)), rfl, rfl, ?_⟩
  intro r s' hs
  cases hs with
  | waitOk _ v hv k st hw =>
    have hv' : some 7 = v := Option.some.inj hv
    subst hv'
    cases hw with
    | one _ _ h => cases h
  | waitErr => rfl

/-- **Violated**: two children; the first is waited for and its object destroyed. The destruction waits for the second child and takes its
status away; waiting with the second object throws. -/
theorem c87_two_violated : ∃ s, Run [.destroy 0, .exit 8 4, .wait 0 (some 3), .exit 7 3, .start 1 8, .start 0 7] s ∧ s.hs 1 = some (some 8) ∧
    ∀ r s', Step s (.wait 1 r) s' → r = none := by
  refine ⟨_, .cons (.cons (.cons (.cons (.cons (.cons .nil (.start _ 0 7 rfl rfl)) (.start _ 1 8 rfl rfl)) (.exit _ 7 3 rfl))
    (.waitOk _ 0 (some 7) rfl _ 3 (.one 7 3 rfl))) (.exit _ 8 4 rfl)) (.destroy _ 0 none rfl _ (some 4) (.any 8 4 rfl)), rfl, ?_⟩
  intro r s' hs
  cases hs with
  | waitOk _ v hv k st hw =>
    have hv' : some 8 = v := Option.some.inj hv
    subst hv'
    cases hw with
    | one _ _ h => cases h
  | waitErr => rfl

/-- **Violated**: before the second child ends, the destruction of the first object (whose child has ended and was waited for) does not return. -/
theorem c87_blocks_violated : ∃ s, Run [.wait 0 (some 3), .exit 7 3, .start 1 8, .start 0 7] s ∧ ¬ ∃ s', Step s (.destroy 0) s' := by
  refine ⟨_, .cons (.cons (.cons (.cons .nil (.start _ 0 7 rfl rfl)) (.start _ 1 8 rfl rfl)) (.exit _ 7 3 rfl))
    (.waitOk _ 0 (some 7) rfl _ 3 (.one 7 3 rfl)), ?_⟩
  rintro ⟨s', hs⟩
  cases hs with
  | destroy _ v hv k r hw =>
    have hv' : none = v := Option.some.inj hv
    subst hv'
    cases hw with
    | any p st h =>
      by_cases h7 : p = 7 <;> by_cases h8 : p = 8 <;> simp [upd, h7, h8] at h
    | noAny h => exact absurd (h 8) (by simp [upd])

end Verif.Child.Proc
