/-!
# A minimal memory model for output buffers

The C++ printing code writes characters through raw pointers.  An address is a `Nat`, memory is a total
function from addresses to code units; `store` overwrites a run of consecutive addresses.  A theorem of the
form `f m p = some (store m p text, p + text.length)` therefore says both what is written and that nothing
outside `[p, p + text.length)` is touched.
-/
namespace Verif

/-- Character memory: one code unit per address. -/
abbrev Mem := Nat → Nat

/-- Overwrite addresses `p, p+1, ...` by the characters of `l`. -/
def store (m : Mem) (p : Nat) (l : List Nat) : Mem :=
  fun a => if p ≤ a then (l[a - p]?).getD (m a) else m a

/-- `n` characters starting at `p`. -/
def load (m : Mem) (p n : Nat) : List Nat := (List.range n).map (fun i => m (p + i))

@[simp] theorem store_nil (m : Mem) (p : Nat) : store m p [] = m := by
  funext a; simp [store]

theorem store_apply (m : Mem) (p : Nat) (l : List Nat) (a : Nat) :
    store m p l a = if p ≤ a then (l[a - p]?).getD (m a) else m a := rfl

/-- Forward writing: a second run directly after the first one. -/
theorem store_store_append (m : Mem) (p : Nat) (l₁ l₂ : List Nat) :
    store (store m p l₁) (p + l₁.length) l₂ = store m p (l₁ ++ l₂) := by
  funext a
  simp only [store_apply]
  by_cases h1 : p + l₁.length ≤ a
  · have h2 : p ≤ a := by omega
    have h3 : l₁.length ≤ a - p := by omega
    have h4 : l₁[a - p]? = none := List.getElem?_eq_none h3
    have h5 : a - (p + l₁.length) = a - p - l₁.length := by omega
    simp [h1, h2, h4, List.getElem?_append_right h3, h5]
  · by_cases h2 : p ≤ a
    · have h3 : a - p < l₁.length := by omega
      simp [h1, h2, List.getElem?_append_left h3]
    · simp [h1, h2]

/-- Forward writing with an explicitly computed address. -/
theorem store_store_at (m : Mem) (p q : Nat) (l₁ l₂ : List Nat) (h : q = p + l₁.length) :
    store (store m p l₁) q l₂ = store m p (l₁ ++ l₂) := by
  subst h; exact store_store_append m p l₁ l₂

/-- Backward writing: the later run lies directly in front of the earlier one. -/
theorem store_store_before (m : Mem) (p q : Nat) (l₁ l₂ : List Nat) (h : q = p + l₁.length) :
    store (store m q l₂) p l₁ = store m p (l₁ ++ l₂) := by
  subst h
  funext a
  simp only [store_apply]
  by_cases h1 : p + l₁.length ≤ a
  · have h2 : p ≤ a := by omega
    have h3 : l₁.length ≤ a - p := by omega
    have h4 : l₁[a - p]? = none := List.getElem?_eq_none h3
    have h5 : a - (p + l₁.length) = a - p - l₁.length := by omega
    simp [h1, h2, h4, List.getElem?_append_right h3, h5]
  · by_cases h2 : p ≤ a
    · have h3 : a - p < l₁.length := by omega
      simp [h1, h2, List.getElem?_append_left h3]
    · simp [h1, h2]

/-- Outside the run nothing changes. -/
theorem store_outside (m : Mem) (p : Nat) (l : List Nat) (a : Nat)
    (h : a < p ∨ p + l.length ≤ a) : store m p l a = m a := by
  simp only [store_apply]
  rcases h with h | h
  · simp [Nat.not_le.mpr h]
  · have : l[a - p]? = none := List.getElem?_eq_none (by omega)
    simp [this]

theorem load_length (m : Mem) (p n : Nat) : (load m p n).length = n := by simp [load]

/-- Reading back a run that has just been written. -/
theorem load_store (m : Mem) (p : Nat) (l : List Nat) : load (store m p l) p l.length = l := by
  apply List.ext_getElem
  · simp [load]
  · intro i h1 h2
    simp [load, store_apply, h2]

end Verif
