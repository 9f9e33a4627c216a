import Mathlib.Data.List.Basic
/-!
# C53: printing into a fixed output view

Model of `basic_obuffer_view` (`include/fast_io_core_impl/buffer_view.h:75-190`) and of the branches of `print_control` for
contiguous output (`include/fast_io_core_impl/print_freestanding.h:200-386`).
-/
namespace Verif.IoBuf.View

/-- Outcome: the operation returns, or the process terminates (`fast_terminate`). -/
inductive Out | ok | dead
deriving DecidableEq, Repr

/-- Store at `curr_ptr` and advance: `l` is the content of `[begin_ptr,curr_ptr)` of a view of `cap` characters; out of bounds is
undefined (`none`). -/
def store (cap : Nat) (l bs : List Nat) : Option (List Nat) :=
  if l.length + bs.length ≤ cap then some (l ++ bs) else none

/-- What a program prints. `reserve` and `dynamic` announce `size` characters and write `bs`; `line` adds a newline. -/
inductive Op
  | write (bs : List Nat)
  | put (c : Nat)
  | println (bs : List Nat)
  | reserve (line : Bool) (size : Nat) (bs : List Nat)
  | dynamic (line : Bool) (size : Nat) (bs : List Nat)
deriving DecidableEq, Repr

/-- The newline of a line. -/
def nl (line : Bool) : List Nat := if line then [10] else []

/-- One operation: `write` (buffer_view.h:137-146), `put` (overflow.h:6-34) with `obuffer_overflow` (buffer_view.h:172-176), and
`print_control` for ranges (print_freestanding.h:212-225), announced sizes (:264-280) and value-dependent sizes (:334-361): in
the last the value is stored before the size is checked. -/
def step (cap : Nat) (l : List Nat) : Op → Option (List Nat × Out)
  | .write bs => if cap - l.length < bs.length then some (l, .dead) else (store cap l bs).map (·, .ok)
  | .put c => if cap - l.length = 0 then some (l, .dead) else (store cap l [c]).map (·, .ok)
  | .println bs =>
    if ((cap : Int) - l.length - 1) < bs.length then some (l, .dead)
    else (store cap l bs).bind fun l => (store cap l [10]).map (·, .ok)
  | .reserve line size bs =>
    if cap - l.length < size + (nl line).length then some (l, .dead)
    else (store cap l bs).bind fun l => (store cap l (nl line)).map (·, .ok)
  | .dynamic line size bs => (store cap l bs).bind fun l' =>
    if cap - l.length < size + (nl line).length then some (l', .dead) else (store cap l' (nl line)).map (·, .ok)

/-- A program; a terminated process does nothing more. -/
def run (cap : Nat) (l : List Nat) : List Op → Option (List Nat × Out)
  | [] => some (l, .ok)
  | op :: ops => (step cap l op).bind fun r => if r.2 = .dead then some r else run cap r.1 ops

/-- What an operation should append. -/
def Op.data : Op → List Nat
  | .write bs => bs
  | .put c => [c]
  | .println bs => bs ++ [10]
  | .reserve line _ bs => bs ++ nl line
  | .dynamic line _ bs => bs ++ nl line

/-- No more is written than announced. -/
def Op.Honest : Op → Prop
  | .reserve _ size bs => bs.length ≤ size
  | .dynamic _ size bs => bs.length ≤ size
  | _ => True

/-- Not a value-dependent size. -/
def Op.Static : Op → Prop
  | .dynamic .. => False
  | _ => True

theorem step_ok (cap : Nat) (l : List Nat) (hl : l.length ≤ cap) (op : Op) (hh : op.Honest) (hs : op.Static ∨ ∀ line size bs, op = .dynamic line size bs → size ≤ cap - l.length) :
    ∃ r, step cap l op = some r ∧ r.1.length ≤ cap ∧ (r.2 = .ok → r.1 = l ++ op.data) ∧ l <+: r.1 ∧ r.1 <+: l ++ op.data := by
  have hst : ∀ (l bs : List Nat), l.length + bs.length ≤ cap → store cap l bs = some (l ++ bs) := fun l bs h => if_pos h
  cases op with
  | write bs =>
    simp only [step, Op.data]
    split
    · exact ⟨_, rfl, hl, by simp, List.prefix_refl _, List.prefix_append _ _⟩
    · rw [hst _ _ (by omega)]; exact ⟨_, rfl, by simp; omega, fun _ => rfl, List.prefix_append _ _, List.prefix_refl _⟩
  | put c =>
    simp only [step, Op.data]
    split
    · exact ⟨_, rfl, hl, by simp, List.prefix_refl _, List.prefix_append _ _⟩
    · rw [hst _ _ (by simp; omega)]; exact ⟨_, rfl, by simp; omega, fun _ => rfl, List.prefix_append _ _, List.prefix_refl _⟩
  | println bs =>
    simp only [step, Op.data]
    split
    · exact ⟨_, rfl, hl, by simp, List.prefix_refl _, List.prefix_append _ _⟩
    · rw [hst _ _ (by omega)]
      simp only [Option.bind_some]
      rw [hst _ _ (by simp; omega)]; exact ⟨_, rfl, by simp; omega, fun _ => by simp, by simp, by simp⟩
  | reserve line size bs =>
    have hh' : bs.length ≤ size := hh
    simp only [step, Op.data]
    split
    · exact ⟨_, rfl, hl, by simp, List.prefix_refl _, List.prefix_append _ _⟩
    · rw [hst _ _ (by omega)]
      simp only [Option.bind_some]
      rw [hst _ _ (by simp; omega)]; exact ⟨_, rfl, by simp; omega, fun _ => by simp, by simp, by simp⟩
  | dynamic line size bs =>
    have hh' : bs.length ≤ size := hh
    rcases hs with h | h
    · exact absurd h (by simp [Op.Static])
    · have := h line size bs rfl
      simp only [step, Op.data]
      rw [hst _ _ (by omega)]
      simp only [Option.bind_some]
      split
      · exact ⟨_, rfl, by simp; omega, by simp, by simp, by simp⟩
      · rw [hst _ _ (by simp; omega)]; exact ⟨_, rfl, by simp; omega, fun _ => by simp, by simp, by simp⟩

/-- C53 (no value-dependent sizes): whatever a program prints, nothing is stored outside the view; the process either
terminates or the view holds exactly everything printed, in order. -/
theorem c53_view_partial (cap : Nat) : ∀ (ops : List Op) (l : List Nat), l.length ≤ cap → (∀ op ∈ ops, op.Honest ∧ op.Static) →
    ∃ r, run cap l ops = some r ∧ r.1.length ≤ cap ∧ (r.2 = .ok → r.1 = l ++ (ops.map Op.data).flatten) := by
  intro ops
  induction ops with
  | nil => intro l hl _; exact ⟨_, rfl, hl, by simp⟩
  | cons op ops ih =>
    intro l hl h
    obtain ⟨r, e, h1, h2, _⟩ := step_ok cap l hl op (h op (by simp)).1 (.inl (h op (by simp)).2)
    by_cases hd : r.2 = .dead
    · exact ⟨r, by simp [run, e, hd], h1, by simp [hd]⟩
    · have ho : r.2 = .ok := by cases hr : r.2 <;> simp_all
      obtain ⟨r', e', h1', h2'⟩ := ih r.1 h1 fun x hx => h x (by simp [hx])
      exact ⟨r', by simp [run, e, hd, e'], h1', fun hok => by rw [h2' hok, h2 ho]; simp⟩

/-- C53, no false alarm: a program whose announced output fits does not terminate. -/
theorem c53_view_fits (cap : Nat) (l bs : List Nat) (op : Op) (hop : op = .write bs ∨ op = .println bs ∨ ∃ c, bs = [c] ∧ op = .put c)
    (h : l.length + op.data.length ≤ cap) : step cap l op = some (l ++ op.data, .ok) := by
  have hst : ∀ (l bs : List Nat), l.length + bs.length ≤ cap → store cap l bs = some (l ++ bs) := fun l bs h => if_pos h
  rcases hop with rfl | rfl | ⟨c, rfl, rfl⟩ <;> simp only [Op.data, List.length_append, List.length_cons, List.length_nil] at h
  · simp only [step]; rw [if_neg (by omega), hst _ _ (by omega)]; rfl
  · simp only [step]; rw [if_neg (by omega), hst _ _ (by omega)]
    simp only [Option.bind_some]; rw [hst _ _ (by simp; omega)]; simp [Op.data]
  · simp only [step]; rw [if_neg (by omega), hst _ _ (by simp; omega)]; rfl

/-- C53 fails for types whose size depends on the value: the text is stored before the check, outside the view. -/
theorem c53_dynamic_violated : step 4 [1, 2] (.dynamic false 3 [7, 8, 9]) = none := by decide +kernel

example : run 8 [] [.write [1, 2], .put 3, .println [4], .reserve true 2 [5]] = some ([1, 2, 3, 4, 10, 5, 10], .ok) ∧
    run 8 [] [.write [1, 2], .reserve false 7 [5]] = some ([1, 2], .dead) := by decide +kernel

end Verif.IoBuf.View
