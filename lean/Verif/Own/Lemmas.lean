import Verif.Own.Model
/-!
# The invariant of the file classes
-/
namespace Verif.Own

/-- Every handle has exactly one owner: an object or the program itself, and it is open; and every open handle has an owner. -/
structure Inv (s : St) : Prop where
  held : ∀ x h, s.vars x = some (some h) → s.fds h ≠ none ∧ s.user h = false
  uniq : ∀ x y h, s.vars x = some (some h) → s.vars y = some (some h) → x = y
  mine : ∀ h, s.user h = true → s.fds h ≠ none
  noleak : ∀ h, s.fds h ≠ none → s.user h = true ∨ ∃ x, s.vars x = some (some h)

theorem inv_start : Inv start := by
  constructor <;> simp [start]

@[simp] theorem upd_same {α : Type} (f : Nat → α) (x : Nat) (v : α) : upd f x v x = v := by simp [upd]
theorem upd_ne {α : Type} (f : Nat → α) {x y : Nat} (v : α) (h : y ≠ x) : upd f x v y = f y := by simp [upd, h]

theorem inv_null {s : St} (i : Inv s) {x : Nat} {w : Option (Option Nat)} (hx : ∀ h, s.vars x ≠ some (some h))
    (hw : ∀ h, w ≠ some (some h)) : Inv (setVar s x w) := by
  have key : ∀ y h, upd s.vars x w y = some (some h) ↔ s.vars y = some (some h) := by
    intro y h
    by_cases e : y = x
    · subst e; simp [hx h, hw h]
    · rw [upd_ne _ _ e]
  constructor
  · intro y h e; exact i.held y h ((key y h).1 e)
  · intro y z h e f; exact i.uniq y z h ((key y h).1 e) ((key z h).1 f)
  · exact i.mine
  · intro h e
    rcases i.noleak h e with u | ⟨y, hy⟩
    · exact Or.inl u
    · exact Or.inr ⟨y, (key y h).2 hy⟩

theorem inv_drop {s : St} (i : Inv s) {x : Nat} {n : Option Nat} {w : Option (Option Nat)} (hx : s.vars x = some n)
    (hw : ∀ h, w ≠ some (some h)) : ∃ s', closeOpt s n = some s' ∧ Inv (setVar s' x w) := by
  cases n with
  | none => exact ⟨s, rfl, inv_null i (by simp [hx]) hw⟩
  | some g =>
    obtain ⟨ho, hu⟩ := i.held x g hx
    refine ⟨{ s with fds := upd s.fds g none }, by simp [closeOpt, sysClose, ho], ?_⟩
    have key : ∀ y h, upd s.vars x w y = some (some h) ↔ s.vars y = some (some h) ∧ y ≠ x := by
      intro y h
      by_cases e : y = x
      · subst e; simp [hw h]
      · rw [upd_ne _ _ e]; simp [e]
    have ng : ∀ y h, s.vars y = some (some h) → y ≠ x → h ≠ g := by
      intro y h e ne eq
      subst eq
      exact ne (i.uniq y x h e hx)
    constructor
    · intro y h e
      obtain ⟨e1, e2⟩ := (key y h).1 e
      simp only [setVar]
      rw [upd_ne _ _ (ng y h e1 e2)]
      exact i.held y h e1
    · intro y z h e f
      exact i.uniq y z h ((key y h).1 e).1 ((key z h).1 f).1
    · intro h u
      have : h ≠ g := by
        intro e
        subst e
        simp only [setVar] at u
        rw [hu] at u
        exact absurd u (by decide)
      simp only [setVar]
      rw [upd_ne _ _ this]
      exact i.mine h u
    · intro h e
      simp only [setVar] at e ⊢
      by_cases eq : h = g
      · subst eq; simp at e
      · rw [upd_ne _ _ eq] at e
        rcases i.noleak h e with u | ⟨y, hy⟩
        · exact Or.inl u
        · refine Or.inr ⟨y, (key y h).2 ⟨hy, ?_⟩⟩
          intro e2
          subst e2
          rw [hx] at hy
          exact eq (by simpa using hy.symm)

theorem inv_open {s : St} (i : Inv s) {x g d : Nat} (hx : ∀ h, s.vars x ≠ some (some h)) (hg : s.fds g = none) :
    Inv (setVar { s with fds := upd s.fds g (some d) } x (some (some g))) := by
  have ng : ∀ y h, s.vars y = some (some h) → h ≠ g := by
    intro y h e eq
    subst eq
    exact (i.held y h e).1 hg
  have key : ∀ y h, upd s.vars x (some (some g)) y = some (some h) ↔ (y = x ∧ h = g) ∨ s.vars y = some (some h) := by
    intro y h
    by_cases e : y = x
    · subst e; simp [hx h, eq_comm]
    · rw [upd_ne _ _ e]; simp [e]
  constructor
  · intro y h e
    simp only [setVar] at e ⊢
    rcases (key y h).1 e with ⟨e1, e2⟩ | e1
    · subst e2
      refine ⟨by simp, ?_⟩
      cases hu : s.user h
      · rfl
      · exact absurd hg (i.mine h hu)
    · rw [upd_ne _ _ (ng y h e1)]
      exact i.held y h e1
  · intro y z h e f
    rcases (key y h).1 e with ⟨e1, e2⟩ | e1
    · rcases (key z h).1 f with ⟨f1, f2⟩ | f1
      · rw [e1, f1]
      · exact absurd e2 (ng z h f1)
    · rcases (key z h).1 f with ⟨f1, f2⟩ | f1
      · exact absurd f2 (ng y h e1)
      · exact i.uniq y z h e1 f1
  · intro h u
    simp only [setVar]
    by_cases e : h = g
    · subst e; simp
    · rw [upd_ne _ _ e]; exact i.mine h u
  · intro h e
    simp only [setVar] at e ⊢
    by_cases eq : h = g
    · exact Or.inr ⟨x, (key x h).2 (Or.inl ⟨rfl, eq⟩)⟩
    · rw [upd_ne _ _ eq] at e
      rcases i.noleak h e with u | ⟨y, hy⟩
      · exact Or.inl u
      · exact Or.inr ⟨y, (key y h).2 (Or.inr hy)⟩

theorem inv_move {s : St} (i : Inv s) {x y : Nat} (hx : ∀ h, s.vars x ≠ some (some h)) (ne : x ≠ y) :
    Inv (setVar (setVar s x (s.vars y)) y (some none)) := by
  have key : ∀ z h, upd (upd s.vars x (s.vars y)) y (some none) z = some (some h) ↔
      (z = x ∧ s.vars y = some (some h)) ∨ (z ≠ x ∧ z ≠ y ∧ s.vars z = some (some h)) := by
    intro z h
    by_cases e : z = y
    · subst e
      simp only [upd_same]
      constructor
      · intro h; simp at h
      · rintro (⟨h, _⟩ | ⟨_, h, _⟩)
        · exact absurd h.symm ne
        · exact absurd rfl h
    · rw [upd_ne _ _ e]
      by_cases e2 : z = x
      · subst e2; simp
      · rw [upd_ne _ _ e2]; simp [e, e2]
  constructor
  · intro z h e
    rcases (key z h).1 e with ⟨_, e1⟩ | ⟨_, _, e1⟩
    · exact i.held y h e1
    · exact i.held z h e1
  · intro z w h e f
    rcases (key z h).1 e with ⟨e0, e1⟩ | ⟨e0, e2, e1⟩ <;> rcases (key w h).1 f with ⟨f0, f1⟩ | ⟨f0, f2, f1⟩
    · rw [e0, f0]
    · exact absurd (i.uniq w y h f1 e1) f2
    · exact absurd (i.uniq z y h e1 f1) e2
    · exact i.uniq z w h e1 f1
  · exact i.mine
  · intro h e
    rcases i.noleak h e with u | ⟨z, hz⟩
    · exact Or.inl u
    · right
      by_cases e1 : z = y
      · subst e1; exact ⟨x, (key x h).2 (Or.inl ⟨rfl, hz⟩)⟩
      · refine ⟨z, (key z h).2 (Or.inr ⟨?_, e1, hz⟩)⟩
        intro e2
        subst e2
        exact hx h hz

theorem inv_adopt {s : St} (i : Inv s) {x g : Nat} (hx : ∀ h, s.vars x ≠ some (some h)) (hg : s.user g = true) :
    Inv (setVar { s with user := upd s.user g false } x (some (some g))) := by
  have ng : ∀ y h, s.vars y = some (some h) → h ≠ g := by
    intro y h e eq
    subst eq
    have := (i.held y h e).2
    rw [hg] at this
    exact absurd this (by decide)
  have key : ∀ y h, upd s.vars x (some (some g)) y = some (some h) ↔ (y = x ∧ h = g) ∨ s.vars y = some (some h) := by
    intro y h
    by_cases e : y = x
    · subst e; simp [hx h, eq_comm]
    · rw [upd_ne _ _ e]; simp [e]
  constructor
  · intro y h e
    simp only [setVar] at e ⊢
    rcases (key y h).1 e with ⟨e1, e2⟩ | e1
    · subst e2
      exact ⟨i.mine h hg, by simp⟩
    · rw [upd_ne _ _ (ng y h e1)]
      exact i.held y h e1
  · intro y z h e f
    rcases (key y h).1 e with ⟨e1, e2⟩ | e1
    · rcases (key z h).1 f with ⟨f1, f2⟩ | f1
      · rw [e1, f1]
      · exact absurd e2 (ng z h f1)
    · rcases (key z h).1 f with ⟨f1, f2⟩ | f1
      · exact absurd f2 (ng y h e1)
      · exact i.uniq y z h e1 f1
  · intro h u
    simp only [setVar] at u ⊢
    by_cases e : h = g
    · subst e; simp at u
    · rw [upd_ne _ _ e] at u; exact i.mine h u
  · intro h e
    simp only [setVar] at e ⊢
    by_cases eq : h = g
    · exact Or.inr ⟨x, (key x h).2 (Or.inl ⟨rfl, eq⟩)⟩
    · rw [upd_ne _ _ eq]
      rcases i.noleak h e with u | ⟨y, hy⟩
      · exact Or.inl u
      · exact Or.inr ⟨y, (key y h).2 (Or.inr hy)⟩

theorem inv_release {s : St} (i : Inv s) {x g : Nat} (hx : s.vars x = some (some g)) :
    Inv (setVar { s with user := upd s.user g true } x (some none)) := by
  have key : ∀ y h, upd s.vars x (some none) y = some (some h) ↔ s.vars y = some (some h) ∧ y ≠ x := by
    intro y h
    by_cases e : y = x
    · subst e; simp
    · rw [upd_ne _ _ e]; simp [e]
  constructor
  · intro y h e
    simp only [setVar] at e ⊢
    obtain ⟨e1, e2⟩ := (key y h).1 e
    have : h ≠ g := by
      intro eq
      subst eq
      exact e2 (i.uniq y x h e1 hx)
    rw [upd_ne _ _ this]
    exact i.held y h e1
  · intro y z h e f
    exact i.uniq y z h ((key y h).1 e).1 ((key z h).1 f).1
  · intro h u
    simp only [setVar] at u ⊢
    by_cases e : h = g
    · subst e; exact (i.held x h hx).1
    · rw [upd_ne _ _ e] at u; exact i.mine h u
  · intro h e
    simp only [setVar] at e ⊢
    by_cases eq : h = g
    · subst eq; left; simp
    · rw [upd_ne _ _ eq]
      rcases i.noleak h e with u | ⟨y, hy⟩
      · exact Or.inl u
      · refine Or.inr ⟨y, (key y h).2 ⟨hy, ?_⟩⟩
        intro e2
        subst e2
        rw [hx] at hy
        exact eq (by simpa using hy.symm)

/-- Only whether a handle is open matters. -/
theorem inv_redirect {s : St} (i : Inv s) {g d : Nat} (hg : s.fds g ≠ none) : Inv { s with fds := upd s.fds g (some d) } := by
  have key : ∀ h, upd s.fds g (some d) h ≠ none ↔ s.fds h ≠ none := by
    intro h
    by_cases e : h = g
    · subst e; simp [hg]
    · rw [upd_ne _ _ e]
  exact ⟨fun y h e => ⟨(key h).2 (i.held y h e).1, (i.held y h e).2⟩, i.uniq, fun h u => (key h).2 (i.mine h u),
    fun h e => i.noleak h ((key h).1 e)⟩

theorem setVar_setVar (s : St) (x : Nat) (v w : Option (Option Nat)) : setVar (setVar s x v) x w = setVar s x w := by
  simp only [setVar, St.mk.injEq, and_true]
  funext y
  by_cases e : y = x
  · subst e; simp
  · rw [upd_ne _ _ e, upd_ne _ _ e, upd_ne _ _ e]

theorem setVar_self {s : St} {x : Nat} {v : Option (Option Nat)} (h : s.vars x = v) : setVar s x v = s := by
  cases s
  simp only [setVar, St.mk.injEq, and_true]
  funext y
  by_cases e : y = x
  · subst e; simp [← h]
  · rw [upd_ne _ _ e]

theorem alloc_some {s : St} {d : Nat} {ans : Option Nat} {r : St × Nat} (h : alloc s d ans = some r) :
    ans = some r.2 ∧ s.fds r.2 = none ∧ r.1 = { s with fds := upd s.fds r.2 (some d) } := by
  unfold alloc at h
  split at h
  · exact absurd h (by simp)
  · rename_i g
    by_cases hf : s.fds g = none
    · rw [if_pos hf] at h
      cases h
      exact ⟨rfl, hf, rfl⟩
    · rw [if_neg hf] at h
      exact absurd h (by simp)

theorem dup_some {s : St} {o ans : Option Nat} {r : St × Nat} (h : dup s o ans = some r) :
    ∃ e d, o = some e ∧ s.fds e = some d ∧ ans = some r.2 ∧ s.fds r.2 = none ∧ r.1 = { s with fds := upd s.fds r.2 (some d) } := by
  unfold dup at h
  split at h
  · exact absurd h (by simp)
  · rename_i e
    cases hd : s.fds e with
    | none => rw [hd] at h; exact absurd h (by simp)
    | some d => rw [hd] at h; exact ⟨e, d, rfl, hd, alloc_some h⟩

/-- Replacing the handle of `x` by a new one. -/
theorem inv_replace {s : St} (i : Inv s) {x g d : Nat} {n : Option Nat} (hx : s.vars x = some n) (hg : s.fds g = none) :
    ∃ s', closeOpt { s with fds := upd s.fds g (some d) } n = some s' ∧ Inv (setVar s' x (some (some g))) ∧
      s'.vars = s.vars ∧ s'.user = s.user ∧ s'.fds = upd (match n with | none => s.fds | some h => upd s.fds h none) g (some d) := by
  cases n with
  | none => exact ⟨_, rfl, inv_open i (by simp [hx]) hg, rfl, rfl, rfl⟩
  | some h =>
    have ho := (i.held x h hx).1
    have ne : h ≠ g := fun e => ho (e ▸ hg)
    obtain ⟨s1, h1, h2⟩ := inv_drop (w := some none) i hx (by simp)
    simp only [closeOpt, sysClose, ho, if_false, Option.some.injEq] at h1
    subst h1
    have h3 := inv_open (x := x) (g := g) (d := d) h2 (by simp [setVar]) (by simp only [setVar]; rw [upd_ne _ _ ne.symm]; exact hg)
    have hc : upd (upd s.fds g (some d)) h none = upd (upd s.fds h none) g (some d) := by
      funext z
      by_cases e : z = h
      · subst e; rw [upd_same, upd_ne _ _ ne, upd_same]
      · rw [upd_ne _ _ e]
        by_cases e2 : z = g
        · subst e2; rw [upd_same, upd_same]
        · rw [upd_ne _ _ e2, upd_ne _ _ e2, upd_ne _ _ e]
    refine ⟨{ s with fds := upd (upd s.fds g (some d)) h none }, ?_, ?_, rfl, rfl, hc⟩
    · simp only [closeOpt, sysClose]
      rw [upd_ne _ _ ne]
      simp [ho]
    · rw [hc]
      have : setVar { setVar { s with fds := upd s.fds h none } x (some none) with
          fds := upd (setVar { s with fds := upd s.fds h none } x (some none)).fds g (some d) } x (some (some g)) =
          setVar (setVar { s with fds := upd (upd s.fds h none) g (some d) } x (some none)) x (some (some g)) := rfl
      rw [this, setVar_setVar] at h3
      exact h3

end Verif.Own
