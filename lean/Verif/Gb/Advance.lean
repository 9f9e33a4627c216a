import Verif.Gb.Scan
/-!
# GB 18030: reading a character
-/
namespace Verif.Gb
open Verif

theorem linear4_eq (x1 x2 x3 x4 : Nat) (h1 : x1 < 126) (h2 : x2 < 16) (h3 : x3 < 126) (h4 : x4 < 16) :
    linear4 (0x81 + x1) (0x30 + x2) (0x81 + x3) (0x30 + x4) = 1687218 + (((x1 * 10 + x2) * 126 + x3) * 10 + x4) := by
  simp only [linear4]; omega

/-- The two-byte code. -/
def twoByte (a b : Nat) : Option Nat := lookup2 ((a - 0x81) * 190 + ((if 0x7F < b then b - 1 else b) - 0x40))

theorem adv1 (a : Nat) (r : List Nat) (h : a < 0x80 ∨ a = 0x80 ∨ a = 0xFF) :
    advance (a :: r) = some (some (if a < 0x80 then a else if a = 0x80 then 0x20AC else 0xFFFD, 1)) := by
  change (if a < 0x80 then some (some (a, 1)) else if a = 0x80 then some (some (0x20AC, 1)) else if a = 0xFF then some (some (0xFFFD, 1)) else _) = _
  split_ifs <;> first | rfl | omega

theorem adv_one (a : Nat) (h : 0x80 < a) (h' : a < 0xFF) : advance [a] = some none := by
  change (if a < 0x80 then some (some (a, 1)) else if a = 0x80 then some (some (0x20AC, 1)) else if a = 0xFF then some (some (0xFFFD, 1)) else some none) = _
  rw [if_neg (by omega), if_neg (by omega), if_neg (by omega)]

/-- What follows two bytes that begin a code of four. -/
def four2 (a b : Nat) : List Nat → Option (Option (Nat × Nat))
  | c :: d :: _ =>
    if 0xFF - 0x81 ≤ sub8 c 0x81 then some (some (0xFFFD, 3))
    else if 0x40 - 0x30 ≤ sub8 d 0x30 then some (some (0xFFFD, 4))
    else some (some (byIndex (linear4 a b c d), 4))
  | _ => some none

theorem adv2 (a b : Nat) (r : List Nat) (h : 0x80 < a) (h' : a < 0xFF) : advance (a :: b :: r) =
    if b = 0x7F then some (some (0xFFFD, 2))
    else if sub8 b 0x40 < 0xFF - 0x40 then (twoByte a b).map fun c => some (c, 2)
    else if b < 0x30 ∨ b = 0xFF then some (some (0xFFFD, 2))
    else four2 a b r := by
  change (if a < 0x80 then some (some (a, 1)) else if a = 0x80 then some (some (0x20AC, 1)) else if a = 0xFF then some (some (0xFFFD, 1)) else _) = _
  rw [if_neg (by omega), if_neg (by omega), if_neg (by omega)]
  rcases r with _ | ⟨c, _ | ⟨d, r⟩⟩ <;> rfl

theorem advance_two (a b : Nat) (r : List Nat) (h : IsTwo [a, b]) : advance (a :: b :: r) = (twoByte a b).map fun c => some (c, 2) := by
  obtain ⟨a', b', e, h1, h2, h3, h4, h5⟩ := h
  simp only [List.cons.injEq, and_true] at e
  obtain ⟨rfl, rfl⟩ := e
  rw [adv2 _ _ _ (by omega) (by omega), if_neg h5, if_pos (by simp only [sub8]; omega)]

theorem advance_quad (x1 x2 x3 x4 : Nat) (r : List Nat) (h1 : x1 < 126) (h2 : x2 < 16) (h3 : x3 < 126) (h4 : x4 < 16) :
    advance ((0x81 + x1) :: (0x30 + x2) :: (0x81 + x3) :: (0x30 + x4) :: r) = some (some (byIndex (1687218 + (((x1 * 10 + x2) * 126 + x3) * 10 + x4)), 4)) := by
  rw [adv2 _ _ _ (by omega) (by omega), if_neg (by omega), if_neg (by simp only [sub8]; omega), if_neg (by omega), four2]
  rw [if_neg (by simp only [sub8]; omega), if_neg (by simp only [sub8]; omega), linear4_eq _ _ _ _ h1 h2 h3 h4]

theorem advance_four (k : Nat) (r : List Nat) (h : k < 1587600) : advance (four k ++ r) = some (some (byIndex (1687218 + k), 4)) := by
  have e : ((k / 12600 * 10 + k / 1260 % 10) * 126 + k / 10 % 126) * 10 + k % 10 = k := by omega
  have := advance_quad (k / 12600) (k / 1260 % 10) (k / 10 % 126) (k % 10) r (by omega) (by omega) (by omega) (by omega)
  rw [e] at this
  exact this

theorem lookup4_scalar (i : Nat) : Utf.Scalar (lookup4 i) := by
  rw [lookup4]
  split_ifs with h
  · decide
  · exact uni4_scalar i (by omega)

theorem scalar_if {p : Prop} [Decidable p] {a b : Nat} (h1 : p → Utf.Scalar a) (h2 : Utf.Scalar b) : Utf.Scalar (if p then a else b) := by
  split_ifs with h
  · exact h1 h
  · exact h2

theorem byIndex_scalar (k : Nat) (hk : k < 2000000) : Utf.Scalar (byIndex (1687218 + k)) := by
  rw [byIndex_eq k hk]
  refine scalar_if (fun h => by simp only [Utf.Scalar]; omega) ?_
  refine scalar_if (fun h => lookup4_scalar _) ?_
  refine scalar_if (fun h => by simp only [Utf.Scalar]; omega) ?_
  refine scalar_if (fun h => lookup4_scalar _) ?_
  refine scalar_if (fun h => by simp only [Utf.Scalar]; omega) ?_
  refine scalar_if (fun h => lookup4_scalar _) ?_
  refine scalar_if (fun h => by simp only [Utf.Scalar]; omega) ?_
  refine scalar_if (fun h => lookup4_scalar _) ?_
  refine scalar_if (fun h => by simp only [Utf.Scalar]; omega) ?_
  refine scalar_if (fun h => lookup4_scalar _) ?_
  refine scalar_if (fun h => by simp only [Utf.Scalar]; omega) ?_
  refine scalar_if (fun h => lookup4_scalar _) ?_
  refine scalar_if (fun h => by simp only [Utf.Scalar]; omega) ?_
  refine scalar_if (fun h => lookup4_scalar _) ?_
  refine scalar_if (fun h => by simp only [Utf.Scalar]; omega) ?_
  refine scalar_if (fun h => lookup4_scalar _) ?_
  refine scalar_if (fun h => by simp only [Utf.Scalar]; omega) ?_
  refine scalar_if (fun h => lookup4_scalar _) ?_
  refine scalar_if (fun h => by simp only [Utf.Scalar]; omega) ?_
  refine scalar_if (fun h => lookup4_scalar _) ?_
  refine scalar_if (fun h => by simp only [Utf.Scalar]; omega) ?_
  refine scalar_if (fun h => lookup4_scalar _) ?_
  refine scalar_if (fun h => by simp only [Utf.Scalar]; omega) ?_
  refine scalar_if (fun h => lookup4_scalar _) ?_
  exact scalar_if (fun h => by simp only [Utf.Scalar]; omega) (by decide)

theorem four2_total (a b : Nat) (r : List Nat) (ha : 0x80 < a) (ha' : a < 0xFF) (hb : 0x30 ≤ b) (hb' : b < 0x40) (hr : ∀ x ∈ r, x < 256) :
    (∃ c n, four2 a b r = some (some (c, n)) ∧ Utf.Scalar c ∧ 1 ≤ n ∧ n ≤ r.length + 2 ∧ n ≤ 4) ∨ (four2 a b r = some none ∧ r.length < 2) := by
  rcases r with _ | ⟨c, _ | ⟨d, r⟩⟩
  · exact Or.inr ⟨rfl, by simp⟩
  · exact Or.inr ⟨rfl, by simp⟩
  have hc := hr c (by simp)
  have hd := hr d (by simp)
  rw [four2]
  by_cases h7 : 0xFF - 0x81 ≤ sub8 c 0x81
  · rw [if_pos h7]; exact Or.inl ⟨_, _, rfl, by decide, by simp⟩
  rw [if_neg h7]
  by_cases h8 : 0x40 - 0x30 ≤ sub8 d 0x30
  · rw [if_pos h8]; exact Or.inl ⟨_, _, rfl, by decide, by simp⟩
  rw [if_neg h8]
  have h7' : 0x81 ≤ c ∧ c < 0xFF := by simp only [sub8] at h7; omega
  have h8' : 0x30 ≤ d ∧ d < 0x40 := by simp only [sub8] at h8; omega
  refine Or.inl ⟨_, _, rfl, ?_, by simp⟩
  have e := linear4_eq (a - 0x81) (b - 0x30) (c - 0x81) (d - 0x30) (by omega) (by omega) (by omega) (by omega)
  rw [show 0x81 + (a - 0x81) = a by omega, show 0x30 + (b - 0x30) = b by omega, show 0x81 + (c - 0x81) = c by omega, show 0x30 + (d - 0x30) = d by omega] at e
  rw [e]
  exact byIndex_scalar _ (by omega)

/-- The outcome of reading: a character and its length, or (of fewer than four bytes) the beginning of a code. -/
theorem advance_total (l : List Nat) (hl : l ≠ []) (hb : ∀ x ∈ l, x < 256) :
    (∃ c n, advance l = some (some (c, n)) ∧ Utf.Scalar c ∧ 1 ≤ n ∧ n ≤ l.length ∧ n ≤ 4) ∨ (advance l = some none ∧ l.length < 4) := by
  rcases l with _ | ⟨a, r⟩
  · exact absurd rfl hl
  have ha := hb a (by simp)
  by_cases h1 : a < 0x80 ∨ a = 0x80 ∨ a = 0xFF
  · rw [adv1 a r h1]
    exact Or.inl ⟨_, _, rfl, by simp only [Utf.Scalar]; split_ifs <;> omega, by simp⟩
  rcases r with _ | ⟨b, r⟩
  · exact Or.inr ⟨adv_one a (by omega) (by omega), by simp⟩
  have hbb := hb b (by simp)
  rw [adv2 a b r (by omega) (by omega)]
  by_cases h4 : b = 0x7F
  · rw [if_pos h4]; exact Or.inl ⟨_, _, rfl, by decide, by simp⟩
  rw [if_neg h4]
  by_cases h5 : sub8 b 0x40 < 0xFF - 0x40
  · rw [if_pos h5]
    have h5' : 0x40 ≤ b ∧ b < 0xFF := by simp only [sub8] at h5; omega
    have hx : (a - 0x81) * 190 + ((if 0x7F < b then b - 1 else b) - 0x40) < 23940 := by split_ifs <;> omega
    rw [twoByte, lookup2, if_pos hx]
    exact Or.inl ⟨_, _, rfl, uni2_scalar _ hx, by simp⟩
  rw [if_neg h5]
  by_cases h6 : b < 0x30 ∨ b = 0xFF
  · rw [if_pos h6]; exact Or.inl ⟨_, _, rfl, by decide, by simp⟩
  rw [if_neg h6]
  have h5' : b < 0x40 := by simp only [sub8] at h5; omega
  rcases four2_total a b r (by omega) (by omega) (by omega) h5' (fun x hx => hb x (by simp [hx])) with ⟨c, n, g1, g2, g3, g4, g5⟩ | ⟨g1, g2⟩
  · exact Or.inl ⟨c, n, g1, g2, g3, by simpa using g4, g5⟩
  · exact Or.inr ⟨g1, by simp; omega⟩

theorem four2_ext (a b : Nat) (l r : List Nat) (q : Nat × Nat) (h : four2 a b l = some (some q)) : four2 a b (l ++ r) = some (some q) := by
  rcases l with _ | ⟨c, _ | ⟨d, l⟩⟩
  · cases h
  · cases h
  · exact h

/-- What was read does not depend on what follows. -/
theorem advance_ext (l r : List Nat) (q : Nat × Nat) (hb : ∀ x ∈ l, x < 256) (h : advance l = some (some q)) : advance (l ++ r) = some (some q) := by
  rcases l with _ | ⟨a, l⟩
  · cases h
  have ha := hb a (by simp)
  by_cases h1 : a < 0x80 ∨ a = 0x80 ∨ a = 0xFF
  · rw [adv1 a _ h1] at h; rw [List.cons_append, adv1 a _ h1]; exact h
  rcases l with _ | ⟨b, l⟩
  · rw [adv_one a (by omega) (by omega)] at h; cases h
  rw [adv2 _ _ _ (by omega) (by omega)] at h
  rw [List.cons_append, List.cons_append, adv2 _ _ _ (by omega) (by omega)]
  split_ifs at h ⊢ <;> try exact h
  exact four2_ext _ _ _ _ _ h

/-- Reading without a check gives the same where the check succeeds. -/
theorem advanceUnchecked_eq (l : List Nat) (q : Nat × Nat) (hb : ∀ x ∈ l, x < 256) (h : advance l = some (some q)) : advanceUnchecked l = some q := by
  rcases l with _ | ⟨a, l⟩
  · cases h
  have ha := hb a (by simp)
  change (if a < 0x80 then some (a, 1) else if a = 0x80 then some (0x20AC, 1) else if a = 0xFF then some (0xFFFD, 1) else _) = _
  by_cases h1 : a < 0x80 ∨ a = 0x80 ∨ a = 0xFF
  · rw [adv1 a _ h1] at h
    split_ifs at h ⊢ <;> first | omega | simpa using h
  rcases l with _ | ⟨b, l⟩
  · rw [adv_one a (by omega) (by omega)] at h; cases h
  rw [adv2 _ _ _ (by omega) (by omega)] at h
  rw [if_neg (by omega), if_neg (by omega), if_neg (by omega)]
  change (if b = 0x7F then some (0xFFFD, 2) else if sub8 b 0x40 < 0xFF - 0x40 then (twoByte a b).map fun c => (c, 2)
    else if b < 0x30 ∨ b = 0xFF then some (0xFFFD, 2) else _) = _
  by_cases h4 : b = 0x7F
  · rw [if_pos h4] at h ⊢; simpa using h
  rw [if_neg h4] at h ⊢
  by_cases h5 : sub8 b 0x40 < 0xFF - 0x40
  · rw [if_pos h5] at h ⊢
    cases hx : twoByte a b <;> rw [hx] at h
    · cases h
    · simpa using h
  rw [if_neg h5] at h ⊢
  by_cases h6 : b < 0x30 ∨ b = 0xFF
  · rw [if_pos h6] at h ⊢; simpa using h
  rw [if_neg h6] at h ⊢
  rcases l with _ | ⟨c, _ | ⟨d, l⟩⟩
  · cases h
  · cases h
  rw [four2] at h
  change (if 0xFF - 0x81 ≤ sub8 c 0x81 then some (0xFFFD, 3) else if 0x40 - 0x30 ≤ sub8 d 0x30 then some (0xFFFD, 4)
    else some (byIndex (linear4 a b c d), 4)) = _
  split_ifs at h ⊢ <;> simpa using h

end Verif.Gb
