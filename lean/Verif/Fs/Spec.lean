/-!
# Stem and extension of a file name (specification)

A file name is a list of characters (their codes).  The rules are those of the C++ standard, [fs.path.decompose]: the names `.` and `..`
and the names without a period have no extension; neither has a name whose only period is its first character; otherwise the extension is the
part from the last period on, the period included.  The stem is the rest.  This file does not mention the implementation.
-/
namespace Verif.Fs

/-- The full stop. -/
def dot : Nat := 46

/-- `e` is the extension of the file name `nm` (C++ [fs.path.decompose]/extension). -/
def IsExtension (nm e : List Nat) : Prop :=
  (e = [] ∧ (dot ∉ nm ∨ nm = [dot] ∨ nm = [dot, dot] ∨ ∃ r, nm = dot :: r ∧ dot ∉ r)) ∨
  (nm ≠ [dot, dot] ∧ ∃ s r, s ≠ [] ∧ e = dot :: r ∧ dot ∉ r ∧ nm = s ++ e)

/-- `s` is the stem: the name is the stem followed by the extension. -/
def IsStem (nm s : List Nat) : Prop := ∃ e, IsExtension nm e ∧ nm = s ++ e

/-- A name has at most one extension. -/
theorem IsExtension.unique {nm e e' : List Nat} (h : IsExtension nm e) (h' : IsExtension nm e') : e = e' := by
  have split : ∀ (s s' r r' : List Nat), dot ∉ r → dot ∉ r' → s ++ dot :: r = s' ++ dot :: r' → s = s' ∧ r = r' := by
    intro s
    induction s with
    | nil =>
      intro s' r r' hr hr' he
      cases s' with
      | nil => simpa using he
      | cons x s' =>
        simp only [List.nil_append, List.cons_append, List.cons.injEq] at he
        exact absurd (by rw [he.2]; simp) hr
    | cons x s ih =>
      intro s' r r' hr hr' he
      cases s' with
      | nil =>
        simp only [List.nil_append, List.cons_append, List.cons.injEq] at he
        exact absurd (by rw [← he.2]; simp) hr'
      | cons y s' =>
        simp only [List.cons_append, List.cons.injEq] at he
        obtain ⟨h1, h2⟩ := ih s' r r' hr hr' he.2
        exact ⟨by rw [he.1, h1], h2⟩
  have no : ∀ (s r : List Nat), s ≠ [] → nm ≠ [dot, dot] → nm = s ++ dot :: r →
      ¬ (dot ∉ nm ∨ nm = [dot] ∨ nm = [dot, dot] ∨ ∃ r, nm = dot :: r ∧ dot ∉ r) := by
    intro s r hs hdd hn hc
    rcases hc with hc | hc | hc | ⟨r2, hc, hr2⟩
    · exact hc (by rw [hn]; simp)
    · rw [hc] at hn
      cases s with
      | nil => exact hs rfl
      | cons x s => simp at hn
    · exact hdd hc
    · rw [hc] at hn
      cases s with
      | nil => exact hs rfl
      | cons x s =>
        simp only [List.cons_append, List.cons.injEq] at hn
        exact hr2 (by rw [hn.2]; simp)
  rcases h with ⟨he, hc⟩ | ⟨hdd, s, r, hs, he, hr, hn⟩ <;> rcases h' with ⟨he', hc'⟩ | ⟨hdd', s', r', hs', he', hr', hn'⟩
  · rw [he, he']
  · exact absurd hc (no s' r' hs' hdd' (by rw [hn', he']))
  · exact absurd hc' (no s r hs hdd (by rw [hn, he]))
  · subst he he'
    have := split s s' r r' hr hr' (hn ▸ hn')
    rw [this.2]

end Verif.Fs
