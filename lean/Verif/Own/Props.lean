import Verif.Own.Lemmas
/-!
# C74: file objects own their handles
-/
namespace Verif.Own

/-- What the variables refer to. -/
def value (s : St) : Vals := fun x => (s.vars x).map fun o => o.bind s.fds

/-- The class has the operation: `basic_c_family_file`, the loaders, libraries and random sources cannot be copied and have no `reset`, directories cannot be copy
constructed. -/
def has : Kind → Op → Bool
  | .dir, .copy .. => false
  | .cfile, .copy .. => false
  | .cfile, .assignCopy .. => false
  | .cfile, .reset .. => false
  | .loader, .copy .. => false
  | .loader, .assignCopy .. => false
  | .loader, .reset .. => false
  | .dll, .copy .. => false
  | .dll, .assignCopy .. => false
  | .dll, .reset .. => false
  | .crypt, .copy .. => false
  | .crypt, .assignCopy .. => false
  | .crypt, .reset .. => false
  | _, _ => true

/-- The operation makes sense: constructors are called where there is no object, the rest where there are objects, and a program only gives
away handles it owns. -/
def Legal (s : St) : Op → Prop
  | .init x => s.vars x = none
  | .open x _ _ => s.vars x = none
  | .adopt x h => s.vars x = none ∧ s.user h = true
  | .copy x y _ => s.vars x = none ∧ s.vars y ≠ none
  | .move x y => s.vars x = none ∧ s.vars y ≠ none
  | .assignCopy x y _ _ => s.vars x ≠ none ∧ s.vars y ≠ none
  | .assignMove x y => s.vars x ≠ none ∧ s.vars y ≠ none
  | .reset x => s.vars x ≠ none
  | .close x _ => s.vars x ≠ none
  | .release x => s.vars x ≠ none
  | .destroy x => s.vars x ≠ none

/-- The uses that keep the discipline: no copies of `win32` files, no move assignment of a directory to itself, no closing and
destroying of random sources of Windows. -/
def Fine (k : Kind) : Op → Prop
  | .copy .. => k ≠ .win32
  | .assignCopy .. => k ≠ .win32
  | .assignMove x y => k = .dir → x ≠ y
  | .close .. => k ≠ .crypt
  | .destroy .. => k ≠ .crypt
  | _ => True

instance (k : Kind) (op : Op) : Decidable (Fine k op) := by
  cases op <;> simp only [Fine] <;> infer_instance

instance (s : St) (op : Op) : Decidable (Legal s op) := by
  cases op <;> simp only [Legal] <;> infer_instance

/-! ## Values -/

theorem value_ext {s s' : St} {v : Vals} (h : ∀ x, value s' x = v x) : value s' = v := funext h

theorem value_fds {s : St} {f : Nat → Option Nat} {y : Nat} (h : ∀ g, s.vars y = some (some g) → f g = s.fds g) :
    value { s with fds := f } y = value s y := by
  unfold value
  rcases e : s.vars y with _ | _ | g
  · simp [e]
  · simp [e]
  · simp [e, h g e]

theorem value_setVar (s : St) (x : Nat) (w : Option (Option Nat)) :
    value (setVar s x w) = upd (value s) x (w.map fun o => o.bind s.fds) := by
  funext y
  by_cases e : y = x
  · subst e; simp [value, setVar]
  · simp only [value, setVar]; rw [upd_ne _ _ e, upd_ne _ _ e]; rfl

theorem upd_congr {α : Type} {f g : Nat → α} {x : Nat} {v w : α} (h : ∀ y, y ≠ x → f y = g y) (e : v = w) : upd f x v = upd g x w := by
  funext y
  by_cases c : y = x
  · subst c; simp [e]
  · rw [upd_ne _ _ c, upd_ne _ _ c, h y c]

/-- Closing. -/
theorem drop {s : St} (i : Inv s) {x : Nat} {n : Option Nat} {w : Option (Option Nat)} (hx : s.vars x = some n)
    (hw : ∀ h, w ≠ some (some h)) : ∃ s', closeOpt s n = some s' ∧ Inv (setVar s' x w) ∧
      value (setVar s' x w) = upd (value s) x (w.map fun _ => none) ∧ (∀ h, s.user h = true → s'.fds h = s.fds h) ∧
      s'.vars = s.vars ∧ s'.user = s.user := by
  obtain ⟨s', h1, h2⟩ := inv_drop i hx hw
  have hwv : (w.map fun o => o.bind s'.fds) = w.map fun _ => none := by
    rcases w with _ | _ | g
    · rfl
    · rfl
    · exact absurd rfl (hw g)
  refine ⟨s', h1, h2, ?_, ?_⟩
  · rw [value_setVar]
    refine upd_congr ?_ hwv
    intro y hy
    cases n with
    | none => cases h1; rfl
    | some g =>
      have ho := (i.held x g hx).1
      simp only [closeOpt, sysClose, ho, if_false, Option.some.injEq] at h1
      subst h1
      refine value_fds fun e he => upd_ne _ _ ?_
      intro eq
      subst eq
      exact hy (i.uniq y x e he hx)
  · cases n with
    | none => cases h1; exact ⟨fun _ _ => rfl, rfl, rfl⟩
    | some g =>
      obtain ⟨ho, hu⟩ := i.held x g hx
      simp only [closeOpt, sysClose, ho, if_false, Option.some.injEq] at h1
      subst h1
      refine ⟨fun h u => upd_ne _ _ ?_, rfl, rfl⟩
      intro e
      subst e
      rw [hu] at u
      exact absurd u (by decide)

/-- Opening. -/
theorem gain {s : St} (i : Inv s) {x g d : Nat} (hg : s.fds g = none) :
    value (setVar { s with fds := upd s.fds g (some d) } x (some (some g))) = upd (value s) x (some (some d)) ∧
    ∀ h, s.user h = true → upd s.fds g (some d) h = s.fds h := by
  constructor
  · rw [value_setVar]
    refine upd_congr (fun y _ => value_fds fun e he => upd_ne _ _ ?_) (by simp)
    intro eq
    subst eq
    exact (i.held y e he).1 hg
  · intro h u
    refine upd_ne _ _ ?_
    intro e
    subst e
    exact i.mine h u hg

/-- Everything about one operation. -/
structure Ok (s : St) (op : Op) (r : St × Bool) : Prop where
  inv : Inv r.1
  fine : r.2 = false → value r.1 = wanted s.fds (value s) op
  threw : r.2 = true → value r.1 = afterThrow (value s) op
  user : ∀ h, s.user h = true → r.1.fds h = s.fds h

theorem Ok.thrown {s : St} (i : Inv s) {op : Op} (h : ∀ x e, op ≠ .close x e) : Ok s op (s, true) := by
  refine ⟨i, by simp, fun _ => ?_, fun _ _ => rfl⟩
  cases op <;> first | rfl | exact absurd rfl (h _ _)

theorem value_of {s : St} {x : Nat} {o : Option Nat} (h : s.vars x = some o) : value s x = some (o.bind s.fds) := by
  simp [value, h]

theorem move_ok {s : St} (i : Inv s) {x y : Nat} (hx : ∀ h, s.vars x ≠ some (some h)) (ne : x ≠ y) :
    Inv (setVar (setVar s x (s.vars y)) y (some none)) ∧
    value (setVar (setVar s x (s.vars y)) y (some none)) = upd (upd (value s) x (value s y)) y (some none) := by
  refine ⟨inv_move i hx ne, ?_⟩
  rw [value_setVar, value_setVar]
  rfl

theorem replace_ok {s : St} (i : Inv s) {x y g d e : Nat} {n ans : Option Nat} {b : Bool} (hx : s.vars x = some n)
    (hy : s.vars y = some (some e)) (he : s.fds e = some d) (hg : s.fds g = none) :
    ∃ s', closeOpt { s with fds := upd s.fds g (some d) } n = some s' ∧
      Ok s (.assignCopy x y ans b) (setVar s' x (some (some g)), false) := by
  obtain ⟨s', h1, h2, h3, h4, h5⟩ := inv_replace (d := d) i hx hg
  refine ⟨s', h1, h2, fun _ => ?_, by simp, ?_⟩
  · simp only [wanted]
    rw [value_setVar]
    refine upd_congr ?_ ?_
    · intro z hz
      have : s' = { s with fds := s'.fds } := by
        cases s'; simp only [] at h3 h4; subst h3; subst h4; rfl
      rw [this]
      refine value_fds fun f hf => ?_
      rw [h5]
      have hfo := (i.held z f hf).1
      rw [upd_ne _ _ (fun e : f = g => hfo (e ▸ hg))]
      cases n with
      | none => rfl
      | some k =>
        refine upd_ne _ _ ?_
        intro eq
        subst eq
        exact hz (i.uniq z x f hf hx)
    · rw [value_of hy, h5]; simp [he]
  · intro h u
    have ho := i.mine h u
    simp only [setVar]
    rw [h5, upd_ne _ _ (fun e : h = g => ho (e ▸ hg))]
    cases n with
    | none => rfl
    | some k =>
      refine upd_ne _ _ ?_
      intro eq
      subst eq
      rw [(i.held x h hx).2] at u
      exact absurd u (by decide)

theorem closeFresh {s : St} {g d : Nat} (hg : s.fds g = none) : sysClose { s with fds := upd s.fds g (some d) } g = some s := by
  cases s
  simp only [sysClose, upd_same, reduceCtorEq, if_false, Option.some.injEq, St.mk.injEq, true_and, and_true]
  funext z
  by_cases e : z = g
  · subst e; rw [upd_same]; exact hg.symm
  · rw [upd_ne _ _ e, upd_ne _ _ e]

theorem step_ok (k : Kind) {s : St} (i : Inv s) (op : Op) (hl : Legal s op) (hh : has k op = true) (hf : Fine k op)
    (hc : k = .cfile → ∀ x y, op ≠ .assignMove x y) : ∃ r, step k s op = some r ∧ Ok s op r := by
  cases op with
  | init x =>
    have hl : s.vars x = none := hl
    simp only [step, hl, if_true]
    refine ⟨_, rfl, inv_null i (by simp [hl]) (by simp), fun _ => ?_, by simp, fun _ _ => rfl⟩
    simp only [wanted]; rw [value_setVar]; rfl
  | «open» x d ans =>
    have hl : s.vars x = none := hl
    simp only [step, hl, if_true]
    rcases ha : alloc s d ans with _ | r
    · exact ⟨_, rfl, Ok.thrown i (by simp)⟩
    · obtain ⟨h1, h2, h3⟩ := alloc_some ha
      refine ⟨_, rfl, ?_⟩
      simp only [h3]
      exact ⟨inv_open i (by simp [hl]) h2, fun _ => (gain i h2).1, by simp, (gain (x := x) i h2).2⟩
  | adopt x h =>
    have hl : s.vars x = none ∧ s.user h = true := hl
    simp only [step, hl]
    refine ⟨_, rfl, inv_adopt i (by simp [hl.1]) hl.2, fun _ => ?_, by simp, fun _ _ => rfl⟩
    simp only [wanted]; rw [value_setVar]; rfl
  | copy x y ans =>
    obtain ⟨hx, hy⟩ : s.vars x = none ∧ s.vars y ≠ none := hl
    obtain ⟨o, hy⟩ := Option.ne_none_iff_exists'.1 hy
    have hk : k = .posix ∨ k = .nt := by
      have hf : k ≠ .win32 := hf
      cases k <;> simp [has] at hh hf ⊢
    have : step k s (.copy x y ans) = some (match (dup s o ans).map fun r => (r.1, some r.2) with
        | none => (s, true)
        | some r => (setVar r.1 x (some r.2), false)) := by
      rcases hk with rfl | rfl <;> (simp only [step, hx, hy, copyCtor]; rcases dup s o ans with _ | r <;> simp)
    rw [this]
    refine ⟨_, rfl, ?_⟩
    rcases ha : dup s o ans with _ | r
    · exact Ok.thrown i (by simp)
    · obtain ⟨e, d, h1, h2, h3, h4, h5⟩ := dup_some ha
      simp only [Option.map_some, h5]
      refine ⟨inv_open i (by simp [hx]) h4, fun _ => ?_, by simp, (gain (x := x) i h4).2⟩
      rw [(gain i h4).1]
      simp only [wanted, value_of hy, h1, Option.bind_some, h2]
  | move x y =>
    obtain ⟨hx, hy⟩ : s.vars x = none ∧ s.vars y ≠ none := hl
    obtain ⟨o, hy⟩ := Option.ne_none_iff_exists'.1 hy
    have ne : x ≠ y := by intro e; subst e; rw [hx] at hy; exact absurd hy (by simp)
    have := move_ok (x := x) (y := y) i (by simp [hx]) ne
    rw [hy] at this
    simp only [step, hx, hy]
    exact ⟨_, rfl, this.1, fun _ => this.2, by simp, fun _ _ => rfl⟩
  | assignCopy x y ans b =>
    obtain ⟨hx, hy⟩ : s.vars x ≠ none ∧ s.vars y ≠ none := hl
    obtain ⟨n, hx⟩ := Option.ne_none_iff_exists'.1 hx
    obtain ⟨o, hy⟩ := Option.ne_none_iff_exists'.1 hy
    have hk : k = .posix ∨ k = .nt ∨ k = .dir := by
      have hf : k ≠ .win32 := hf
      cases k <;> simp [has] at hh hf ⊢
    rcases hk with rfl | rfl | rfl
    · simp only [step, hx, hy, copyAssign]
      rcases o with _ | h
      · exact ⟨_, rfl, Ok.thrown i (by simp)⟩
      rcases n with _ | g
      · exact ⟨_, rfl, Ok.thrown i (by simp)⟩
      simp only [dup2]
      obtain ⟨d, hd⟩ := Option.ne_none_iff_exists'.1 (i.held y h hy).1
      rw [hd]
      cases b
      · exact ⟨_, rfl, Ok.thrown i (by simp)⟩
      · obtain ⟨ho, hu⟩ := i.held x g hx
        refine ⟨_, rfl, ?_, fun _ => ?_, by simp, ?_⟩
        · show Inv (setVar { s with fds := upd s.fds g (some d) } x (some (some g)))
          rw [setVar_self (by exact hx)]
          exact inv_redirect i ho
        · show value (setVar { s with fds := upd s.fds g (some d) } x (some (some g))) = upd (value s) x (value s y)
          rw [value_setVar]
          refine upd_congr (fun z hz => value_fds fun f hf => upd_ne _ _ ?_) ?_
          · intro e
            subst e
            exact hz (i.uniq z x f hf hx)
          · rw [value_of hy]; simp [hd]
        · intro f u
          refine upd_ne _ _ ?_
          intro e
          subst e
          rw [hu] at u
          exact absurd u (by decide)
    · simp only [step, hx, hy, copyAssign]
      rcases ha : dup s o ans with _ | r
      · exact ⟨_, rfl, Ok.thrown i (by simp)⟩
      · obtain ⟨e, d, h1, h2, h3, h4, h5⟩ := dup_some ha
        subst h1
        obtain ⟨s', h6, h7⟩ := replace_ok (ans := ans) (b := b) i hx hy h2 h4
        simp only [h5, h6]
        exact ⟨_, rfl, h7⟩
    · simp only [step, hx, hy, copyAssign]
      rcases ha : dup s o ans with _ | r
      · exact ⟨_, rfl, Ok.thrown i (by simp)⟩
      · obtain ⟨e, d, h1, h2, h3, h4, h5⟩ := dup_some ha
        subst h1
        cases b
        · simp only [h5, closeFresh h4]
          exact ⟨_, rfl, Ok.thrown i (by simp)⟩
        · obtain ⟨s', h6, h7⟩ := replace_ok (ans := ans) (b := true) i hx hy h2 h4
          simp only [h5, h6]
          exact ⟨_, rfl, h7⟩
  | assignMove x y =>
    obtain ⟨hx, hy⟩ : s.vars x ≠ none ∧ s.vars y ≠ none := hl
    obtain ⟨n, hx⟩ := Option.ne_none_iff_exists'.1 hx
    obtain ⟨o, hy⟩ := Option.ne_none_iff_exists'.1 hy
    have hk : k ≠ .cfile := fun e => hc e x y rfl
    obtain ⟨s', h1, h2, h3, h4, h5, h6⟩ := drop (w := some none) i hx (by simp)
    by_cases ne : x = y
    · subst ne
      have hd : k ≠ .dir := fun e => hf e rfl
      have : moveAssign k s x x n = some (setVar (setVar s' x (s'.vars x)) x (some none)) := by
        cases k <;> simp [moveAssign, h1] at hk hd ⊢
      simp only [step, hx, this]
      refine ⟨_, rfl, ?_⟩
      rw [setVar_setVar]
      refine ⟨h2, fun _ => ?_, by simp, h4⟩
      rw [h3]
      simp only [wanted]
      funext z
      by_cases e : z = x
      · subst e; simp
      · rw [upd_ne _ _ e, upd_ne _ _ e, upd_ne _ _ e]
    · have : moveAssign k s x y n = some (setVar (setVar s' x (s'.vars y)) y (some none)) := by
        cases k <;> first | exact absurd rfl hk | (simp only [moveAssign, h1, Option.map_some])
        congr 1
        simp only [setVar, St.mk.injEq, and_true]
        funext z
        by_cases e : z = x
        · subst e; rw [upd_same, upd_ne _ _ ne, upd_same]
        · rw [upd_ne _ _ e]
          by_cases e2 : z = y
          · subst e2; rw [upd_same, upd_same]
          · rw [upd_ne _ _ e2, upd_ne _ _ e2, upd_ne _ _ e]
      have hm := move_ok (x := x) (y := y) h2 (by simp [setVar]) ne
      have he : setVar (setVar (setVar s' x (some none)) x ((setVar s' x (some none)).vars y)) y (some none) =
          setVar (setVar s' x (s'.vars y)) y (some none) := by
        rw [setVar_setVar]
        congr 2
        exact upd_ne _ _ (fun e => ne e.symm)
      rw [he] at hm
      simp only [step, hx, hy, this]
      refine ⟨_, rfl, hm.1, fun _ => ?_, by simp, h4⟩
      rw [hm.2, h3]
      simp only [wanted]
      refine congrArg (fun f => upd f y (some none)) ?_
      refine upd_congr (fun z hz => upd_ne _ _ hz) (upd_ne _ _ (fun e => ne e.symm))
  | reset x =>
    obtain ⟨n, hx⟩ := Option.ne_none_iff_exists'.1 (show s.vars x ≠ none from hl)
    obtain ⟨s', h1, h2, h3, h4, h5, h6⟩ := drop (w := some none) i hx (by simp)
    have hk : ¬(k = .cfile ∨ k = .loader ∨ k = .dll ∨ k = .crypt) := by cases k <;> simp [has] at hh ⊢
    simp only [step, hx, if_neg hk, h1]
    refine ⟨_, rfl, h2, fun _ => h3, by simp, h4⟩
  | close x err =>
    obtain ⟨n, hx⟩ := Option.ne_none_iff_exists'.1 (show s.vars x ≠ none from hl)
    obtain ⟨s', h1, h2, h3, h4, h5, h6⟩ := drop (w := some none) i hx (by simp)
    have hk : k ≠ .crypt := hf
    simp only [step, hx, h1, if_neg hk]
    exact ⟨_, rfl, h2, fun _ => h3, fun _ => h3, h4⟩
  | release x =>
    obtain ⟨n, hx⟩ := Option.ne_none_iff_exists'.1 (show s.vars x ≠ none from hl)
    cases n with
    | none =>
      simp only [step, hx]
      refine ⟨_, rfl, i, fun _ => ?_, by simp, fun _ _ => rfl⟩
      simp only [wanted]
      funext y
      by_cases e : y = x
      · subst e; simp [value, hx]
      · rw [upd_ne _ _ e]
    | some g =>
      simp only [step, hx]
      refine ⟨_, rfl, inv_release i hx, fun _ => ?_, by simp, fun _ _ => rfl⟩
      rw [value_setVar]
      rfl
  | destroy x =>
    obtain ⟨n, hx⟩ := Option.ne_none_iff_exists'.1 (show s.vars x ≠ none from hl)
    obtain ⟨s', h1, h2, h3, h4, h5, h6⟩ := drop (w := none) i hx (by simp)
    have hk : k ≠ .crypt := hf
    simp only [step, hx, h1, if_neg hk]
    exact ⟨_, rfl, h2, fun _ => h3, by simp, h4⟩

/-- What does not make sense is not done. -/
theorem step_idle (k : Kind) {s : St} (op : Op) (h : ¬(Legal s op ∧ has k op = true)) : step k s op = some (s, false) := by
  cases op with
  | init x => simp only [step]; rw [if_neg (by simpa [Legal, has] using h)]
  | «open» x d ans => simp only [step]; rw [if_neg (by simpa [Legal, has] using h)]
  | adopt x g => simp only [step]; rw [if_neg (by simpa [Legal, has] using h)]
  | copy x y ans =>
    simp only [step]
    rcases hx : s.vars x with _ | n <;> rcases hy : s.vars y with _ | o <;> simp only []
    cases k <;> simp [Legal, has, hx, hy] at h ⊢
  | move x y =>
    simp only [step]
    rcases hx : s.vars x with _ | n <;> rcases hy : s.vars y with _ | o <;> simp [Legal, has, hx, hy] at h ⊢
  | assignCopy x y ans b =>
    simp only [step]
    rcases hx : s.vars x with _ | n <;> rcases hy : s.vars y with _ | o <;> simp only []
    cases k <;> simp [Legal, has, hx, hy] at h ⊢
  | assignMove x y =>
    simp only [step]
    rcases hx : s.vars x with _ | n <;> rcases hy : s.vars y with _ | o <;> simp [Legal, has, hx, hy] at h ⊢
  | reset x =>
    simp only [step]
    rcases hx : s.vars x with _ | n <;> simp only []
    cases k <;> simp [Legal, has, hx] at h ⊢
  | close x e =>
    simp only [step]
    rcases hx : s.vars x with _ | n <;> simp [Legal, has, hx] at h ⊢
  | release x =>
    simp only [step]
    rcases hx : s.vars x with _ | n <;> simp [Legal, has, hx] at h ⊢
  | destroy x =>
    simp only [step]
    rcases hx : s.vars x with _ | n <;> simp [Legal, has, hx] at h ⊢

theorem step_inv (k : Kind) {s : St} (i : Inv s) (op : Op) (hf : Fine k op) : ∃ r, step k s op = some r ∧ Inv r.1 := by
  by_cases hl : Legal s op ∧ has k op = true
  · by_cases hc : k = .cfile ∧ ∃ x y, op = .assignMove x y
    · obtain ⟨rfl, x, y, rfl⟩ := hc
      obtain ⟨⟨hx, hy⟩, _⟩ := hl
      obtain ⟨n, hx⟩ := Option.ne_none_iff_exists'.1 hx
      obtain ⟨o, hy⟩ := Option.ne_none_iff_exists'.1 hy
      by_cases e : x = y
      · subst e
        obtain ⟨s', h1, h2⟩ := inv_drop (w := some none) i hx (by simp)
        simp only [step, hx, moveAssign, ne_eq, not_true, if_false, h1]
        refine ⟨_, rfl, ?_⟩
        show Inv (setVar (setVar s' x (s'.vars x)) x (some none))
        rw [setVar_setVar]
        exact h2
      · simp only [step, hx, hy, moveAssign]
        rw [if_pos e]
        exact ⟨_, rfl, i⟩
    · obtain ⟨r, h1, h2⟩ := step_ok k i op hl.1 hl.2 hf (fun e x y e2 => hc ⟨e, x, y, e2⟩)
      exact ⟨r, h1, h2.inv⟩
  · exact ⟨_, step_idle k op hl, i⟩

theorem run_inv (k : Kind) (ops : List Op) : ∀ {s : St}, Inv s → (∀ op ∈ ops, Fine k op) → ∃ s', run k s ops = some s' ∧ Inv s' := by
  induction ops with
  | nil => intro s i _; exact ⟨s, rfl, i⟩
  | cons op ops ih =>
    intro s i h
    obtain ⟨r, h1, h2⟩ := step_inv k i op (h op (by simp))
    obtain ⟨s', h3, h4⟩ := ih h2 (fun o ho => h o (by simp [ho]))
    exact ⟨s', by simp [run, h1, h3], h4⟩

/-! ## The theorems -/

/-- **C74, exactly one owner.** Whatever a program does with its file objects, and however the operating system answers, no handle is closed
that is not open (`run` is defined), the handle an object has is open and no other object and not the program owns it, and every open handle
is owned by an object or by the program: nothing is closed twice and nothing is lost. Partial: without the copies of `win32` files, which
are not copies, and without moving a directory to itself. -/
theorem c74_one_owner_partial (k : Kind) (ops : List Op) (h : ∀ op ∈ ops, Fine k op) :
    ∃ s, run k start ops = some s ∧
      (∀ x g, s.vars x = some (some g) → s.fds g ≠ none ∧ s.user g = false ∧ ∀ y, s.vars y = some (some g) → y = x) ∧
      ∀ g, s.fds g ≠ none → s.user g = true ∨ ∃ x, s.vars x = some (some g) := by
  obtain ⟨s, h1, i⟩ := run_inv k ops inv_start h
  exact ⟨s, h1, fun x g e => ⟨(i.held x g e).1, (i.held x g e).2, fun y f => i.uniq y x g f e⟩, i.noleak⟩

/-- **C74, no leak.** When all objects are gone, exactly the handles that were released and not given back are open. -/
theorem c74_no_leak_partial (k : Kind) (ops : List Op) (h : ∀ op ∈ ops, Fine k op) (s : St) (hr : run k start ops = some s)
    (hx : ∀ x, s.vars x = none) (g : Nat) : s.fds g ≠ none ↔ s.user g = true := by
  obtain ⟨s', h1, i⟩ := run_inv k ops inv_start h
  rw [hr] at h1
  cases h1
  constructor
  · intro e
    rcases i.noleak g e with u | ⟨x, e⟩
    · exact u
    · rw [hx x] at e; exact absurd e (by simp)
  · exact i.mine g

/-- **C74, the meaning of the operations.** In every state a program can reach, an operation that does not throw does what it says (`wanted`):
a copy refers to what the source refers to, a move takes it away, the rest of the objects keeps referring to what it referred to; one that
throws changes nothing (`close` empties the object all the same); the handles the program owns are left alone. Partial: as above, and without
the move assignment of `c_file`. -/
theorem c74_meaning_partial (k : Kind) (ops : List Op) (h : ∀ op ∈ ops, Fine k op) (s : St) (hr : run k start ops = some s) (op : Op)
    (hl : Legal s op) (hh : has k op = true) (hf : Fine k op) (hc : k = .cfile → ∀ x y, op ≠ .assignMove x y) :
    ∃ s' threw, step k s op = some (s', threw) ∧
      (threw = false → value s' = wanted s.fds (value s) op) ∧
      (threw = true → value s' = afterThrow (value s) op) ∧
      ∀ g, s.user g = true → s'.fds g = s.fds g := by
  obtain ⟨s', h1, i⟩ := run_inv k ops inv_start h
  rw [hr] at h1
  cases h1
  obtain ⟨r, h2, h3⟩ := step_ok k i op hl hh hf hc
  exact ⟨r.1, r.2, h2, h3.fine, h3.threw, h3.user⟩

/-- The operating system grants what it is asked for: a handle that is not in use, and no errors. -/
def Granted (s : St) : Op → Prop
  | .open _ _ ans => ∃ g, ans = some g ∧ s.fds g = none
  | .copy _ _ ans => ∃ g, ans = some g ∧ s.fds g = none
  | .assignCopy _ _ ans ok => (∃ g, ans = some g ∧ s.fds g = none) ∧ ok = true
  | .close _ err => err = false
  | _ => True

/-- The operation does not copy an empty object, and for `posix` files does not assign a copy to one. -/
def NonEmpty (k : Kind) (s : St) : Op → Prop
  | .copy _ y _ => s.vars y ≠ some none
  | .assignCopy x y _ _ => s.vars y ≠ some none ∧ (k = .posix → s.vars x ≠ some none)
  | _ => True

/-- **C74, exceptions.** An operation throws only if the operating system refuses, or if an empty object is copied or, for `posix`
files, overwritten by a copy. -/
theorem c74_throws_only_partial (k : Kind) (ops : List Op) (h : ∀ op ∈ ops, Fine k op) (s : St) (hr : run k start ops = some s) (op : Op)
    (hf : Fine k op) (hg : Granted s op) (hn : NonEmpty k s op) : ∃ s', step k s op = some (s', false) := by
  obtain ⟨s', h1, i⟩ := run_inv k ops inv_start h
  rw [hr] at h1
  cases h1
  obtain ⟨⟨s', b⟩, h2, h3⟩ := step_inv k i op hf
  cases b
  · exact ⟨s', h2⟩
  exfalso
  clear h3 hr h
  cases op with
  | init x => simp only [step] at h2; split at h2 <;> simp at h2
  | adopt x g => simp only [step] at h2; split at h2 <;> simp at h2
  | «open» x d ans =>
    obtain ⟨g, rfl, hg⟩ := hg
    simp only [step, alloc, hg, if_true] at h2
    split at h2 <;> simp at h2
  | copy x y ans =>
    obtain ⟨g, rfl, hg⟩ := hg
    have hn : s.vars y ≠ some none := hn
    have hf : k ≠ .win32 := hf
    simp only [step] at h2
    rcases hx : s.vars x with _ | n <;> rcases hy : s.vars y with _ | _ | o <;> rw [hx, hy] at h2 <;> simp [hy] at h2 hn
    obtain ⟨d, hd⟩ := Option.ne_none_iff_exists'.1 (i.held y o hy).1
    cases k <;> simp [copyCtor, dup, alloc, hg, hd] at h2 hf
  | move x y =>
    simp only [step] at h2
    rcases hx : s.vars x with _ | n <;> rcases hy : s.vars y with _ | o <;> rw [hx, hy] at h2 <;> simp at h2
  | assignCopy x y ans b =>
    obtain ⟨⟨g, rfl, hg⟩, rfl⟩ := hg
    obtain ⟨hn, hn2⟩ : s.vars y ≠ some none ∧ (k = .posix → s.vars x ≠ some none) := hn
    have hf : k ≠ .win32 := hf
    simp only [step] at h2
    rcases hx : s.vars x with _ | n <;> rcases hy : s.vars y with _ | _ | o <;> rw [hx, hy] at h2 <;> simp [hy] at h2 hn
    obtain ⟨d, hd⟩ := Option.ne_none_iff_exists'.1 (i.held y o hy).1
    cases k <;> simp [copyAssign, dup, alloc, hg, hd] at h2 hf
    rcases n with _ | n
    · exact hn2 rfl hx
    · simp [dup2, hd] at h2
      obtain ⟨a, b, ⟨_, e⟩, h2⟩ := h2
      subst e
      simp at h2
  | assignMove x y =>
    simp only [step] at h2
    rcases hx : s.vars x with _ | n <;> rcases hy : s.vars y with _ | o <;> rw [hx, hy] at h2 <;> simp at h2
  | reset x =>
    simp only [step] at h2
    rcases hx : s.vars x with _ | n <;> rw [hx] at h2 <;> simp only [] at h2
    · simp at h2
    · split at h2 <;> simp at h2
  | close x e =>
    have hg : e = false := hg
    subst hg
    simp only [step] at h2
    rcases hx : s.vars x with _ | n <;> rw [hx] at h2 <;> simp at h2
  | release x =>
    simp only [step] at h2
    rcases hx : s.vars x with _ | _ | n <;> rw [hx] at h2 <;> simp at h2
  | destroy x =>
    have hk : k ≠ .crypt := hf
    simp only [step, if_neg hk] at h2
    rcases hx : s.vars x with _ | n <;> rw [hx] at h2 <;> simp at h2

/-! ## Where it fails -/

/-- A program with copies, moves, an exception and a handle that is given away and back. -/
def demo : List Op :=
  [.open 0 7 (some 3), .copy 1 0 (some 4), .open 2 8 (some 5), .assignCopy 2 0 (some 6) true, .move 3 1, .assignMove 0 3, .init 4,
    .copy 5 4 none, .release 2, .adopt 5 5, .close 5 true, .destroy 0, .destroy 1, .destroy 2, .destroy 3, .destroy 4, .destroy 5]

/-- What is left of it. -/
def demoEnd (k : Kind) (ops : List Op) : Option (List (Option (Option Nat)) × List (Option Nat)) :=
  (run k start ops).map fun s => ((List.range 6).map s.vars, (List.range 8).map s.fds)

example : (∀ op ∈ demo, Fine .posix op) ∧ (∀ op ∈ demo, Fine .nt op) := by decide +kernel
example : demoEnd .posix demo = some (List.replicate 6 none, List.replicate 8 none) := by decide +kernel
example : demoEnd .posix (demo.take 5) = some ([some (some 3), some none, some (some 5), some (some 4), none, none],
    [none, none, none, some 7, some 7, some 7, none, none]) := by decide +kernel
example : (demoEnd .nt (demo.take 5)) = some ([some (some 3), some none, some (some 6), some (some 4), none, none],
    [none, none, none, some 7, some 7, none, some 7, none]) := by decide +kernel

/-- **C74, `win32` files: violated.** A copy has the handle of the original: both are closed by their destructors, the second time the handle
is not open (or belongs to somebody else); and the handle made for the copy is never closed. -/
theorem c74_win32_copy_violated :
    run .win32 start [.open 0 7 (some 3), .copy 1 0 (some 4), .destroy 1, .destroy 0] = none ∧
    (∃ s, run .win32 start [.open 0 7 (some 3), .copy 1 0 (some 4), .destroy 1] = some s ∧ s.vars 0 = some (some 3) ∧ s.fds 3 = none ∧
      s.fds 4 = some 7) ∧
    (∃ s, run .win32 start [.open 0 7 (some 3), .assignCopy 0 0 (some 4) true] = some s ∧ value s 0 = some none) :=
  ⟨rfl, ⟨_, rfl, rfl, rfl, rfl⟩, ⟨_, rfl, rfl⟩⟩

/-- **C74, move assignment of `c_file`: violated.** The check for self assignment is the wrong way round: nothing moves from one object to
another, and an object assigned to itself closes its file. -/
theorem c74_cfile_move_violated :
    (∀ (s : St) (x y : Nat) (n o : Option Nat), s.vars x = some n → s.vars y = some o → x ≠ y → step .cfile s (.assignMove x y) = some (s, false)) ∧
    (∃ s s', run .cfile start [.open 0 7 (some 3), .init 1] = some s ∧ step .cfile s (.assignMove 1 0) = some (s', false) ∧
      value s' 1 ≠ wanted s.fds (value s) (.assignMove 1 0) 1) := by
  refine ⟨?_, ⟨_, _, rfl, rfl, by decide +kernel⟩⟩
  intro s x y n o hx hy hne
  simp only [step, hx, hy, moveAssign, hne, ne_eq, not_false_eq_true, if_true]
  rfl

/-- **C74, copy assignment to an empty `posix` file: violated.** It throws, whatever the operating system answers, although the copy
constructor does not. -/
theorem c74_posix_assign_violated (s : St) (x y : Nat) (o ans : Option Nat) (ok : Bool) (hx : s.vars x = some none)
    (hy : s.vars y = some o) : step .posix s (.assignCopy x y ans ok) = some (s, true) := by
  simp only [step, hx, hy, copyAssign]
  cases o <;> rfl

/-- **C74, a directory moved to itself: violated.** It keeps the handle it has just closed; the destructor closes it again. -/
theorem c74_dir_self_move_violated : run .dir start [.open 0 7 (some 3), .assignMove 0 0, .destroy 0] = none := rfl

example : ∃ s, run .posix start [.open 0 7 (some 3), .init 1] = some s ∧ s.vars 1 = some none ∧ s.vars 0 = some (some 3) ∧
    step .posix s (.copy 2 0 (some 4)) ≠ none := ⟨_, rfl, rfl, rfl, by simp [step, copyCtor, dup, alloc, setVar, start, upd]⟩

/-- **C74, libraries.** Without restriction: whatever a program does with objects of `posix_dll_file`, no library is closed that is not open,
every open library has one owner, and when no object is left only those the program has are open. -/
theorem c74_library (ops : List Op) : ∃ s, run .dll start ops = some s ∧
    (∀ x g, s.vars x = some (some g) → s.fds g ≠ none ∧ s.user g = false ∧ ∀ y, s.vars y = some (some g) → y = x) ∧
    (∀ g, s.fds g ≠ none → s.user g = true ∨ ∃ x, s.vars x = some (some g)) ∧
    ((∀ x, s.vars x = none) → ∀ g, s.fds g ≠ none ↔ s.user g = true) := by
  have h : ∀ op ∈ ops, Fine .dll op := fun op _ => by cases op <;> simp [Fine]
  obtain ⟨s, h1, h2, h3⟩ := c74_one_owner_partial .dll ops h
  exact ⟨s, h1, h2, h3, fun hx g => c74_no_leak_partial .dll ops h s h1 hx g⟩

example : demoEnd .dll [.open 0 7 (some 3), .open 1 8 (some 4), .move 2 0, .assignMove 2 1, .close 0 false, .release 2, .init 3, .assignMove 3 3] =
    some ([some none, some none, some none, some none, none, none], [none, none, none, none, some 8, none, none, none]) := by decide +kernel

/-- **C74, random sources of Windows: violated.** The destructor has the condition the wrong way round and never releases the handle; `close`
releases it but leaves it in the object, and closing again releases a handle that is not there. -/
theorem c74_random_violated :
    (∀ (s : St) (x : Nat) (o : Option Nat), s.vars x = some o → step .crypt s (.destroy x) = some (setVar s x none, false)) ∧
    (∃ s, run .crypt start [.open 0 7 (some 3), .destroy 0] = some s ∧ (∀ x, s.vars x = none) ∧ s.fds 3 = some 7 ∧ s.user 3 = false) ∧
    (∃ s, run .crypt start [.open 0 7 (some 3), .close 0 false] = some s ∧ s.vars 0 = some (some 3) ∧ s.fds 3 = none) ∧
    run .crypt start [.open 0 7 (some 3), .close 0 false, .close 0 false] = none := by
  refine ⟨fun s x o hx => by simp [step, hx], ⟨_, rfl, fun x => ?_, rfl, rfl⟩, ⟨_, rfl, rfl, rfl⟩, rfl⟩
  by_cases h : x = 0 <;> simp [setVar, start, upd, h]

end Verif.Own
