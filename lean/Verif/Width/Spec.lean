import Verif.Core.Mem
/-! What width formatting means (C37), independent of the code. -/
namespace Verif.Width
open Verif

/-- Where the text goes in its field (`scalar_placement`, include/fast_io_core_impl/integers/impl.h:31-34). -/
inductive Placement | none | left | middle | right | internal
  deriving DecidableEq, Repr

/-- `out` is `txt` in a field of at least `w` characters, filled with `ch`: never truncated; nothing but copies of `ch`
is added, at the places the placement says. `shift` counts the characters of the sign. -/
def InField (pl : Placement) (shift w ch : Nat) (txt out : List Nat) : Prop :=
  ∃ a b c, out = List.replicate a ch ++ txt.take shift ++ List.replicate b ch ++ txt.drop shift ++ List.replicate c ch ∧
    out.length = (if pl = .none then txt.length else max w txt.length) ∧
    match pl with
    | .none => a = 0 ∧ b = 0 ∧ c = 0
    | .left => a = 0 ∧ b = 0
    | .middle => b = 0 ∧ (c = a ∨ c = a + 1)
    | .right => b = 0 ∧ c = 0
    | .internal => a = 0 ∧ c = 0

/-- The text in its field. -/
def pad (pl : Placement) (shift w ch : Nat) (txt : List Nat) : List Nat :=
  let k := w - txt.length
  match pl with
  | .none => txt
  | .left => txt ++ List.replicate k ch
  | .middle => List.replicate (k / 2) ch ++ txt ++ List.replicate (k - k / 2) ch
  | .right => List.replicate k ch ++ txt
  | .internal => txt.take shift ++ List.replicate k ch ++ txt.drop shift

theorem pad_length (pl : Placement) (shift w ch : Nat) (txt : List Nat) (hs : shift ≤ txt.length) :
    (pad pl shift w ch txt).length = if pl = .none then txt.length else max w txt.length := by
  cases pl <;> simp [pad] <;> omega

/-- `pad` is the only text in such a field. -/
theorem inField_iff (pl : Placement) (shift w ch : Nat) (txt out : List Nat) (hs : shift ≤ txt.length) :
    InField pl shift w ch txt out ↔ out = pad pl shift w ch txt := by
  have ht : txt.take shift ++ txt.drop shift = txt := List.take_append_drop _ _
  constructor
  · rintro ⟨a, b, c, rfl, hl, h⟩
    have hlen : (List.replicate a ch ++ txt.take shift ++ List.replicate b ch ++ txt.drop shift ++
        List.replicate c ch).length = a + b + c + txt.length := by simp; omega
    rw [hlen] at hl
    cases pl
    · obtain ⟨rfl, rfl, rfl⟩ := h; simp [pad]
    · obtain ⟨rfl, rfl⟩ := h
      have : c = w - txt.length := by simp at hl; omega
      subst this; simp [pad]
    · obtain ⟨rfl, h⟩ := h
      simp at hl
      have h1 : a = (w - txt.length) / 2 := by omega
      have h2 : c = (w - txt.length) - (w - txt.length) / 2 := by omega
      rw [h1, h2]; simp [pad]
    · obtain ⟨rfl, rfl⟩ := h
      have : a = w - txt.length := by simp at hl; omega
      subst this; simp [pad]
    · obtain ⟨rfl, rfl⟩ := h
      have : b = w - txt.length := by simp at hl; omega
      subst this; simp [pad]
  · rintro rfl
    refine ⟨match pl with | .middle => (w - txt.length) / 2 | .right => w - txt.length | _ => 0,
      match pl with | .internal => w - txt.length | _ => 0,
      match pl with | .left => w - txt.length | .middle => (w - txt.length) - (w - txt.length) / 2 | _ => 0, ?_, ?_, ?_⟩
    · cases pl <;> simp [pad]
    · exact pad_length pl shift w ch txt hs
    · cases pl <;> simp
      omega

end Verif.Width
