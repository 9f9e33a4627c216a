import Verif.CharCat.Model
import Mathlib.Tactic
/-!
# C45: character classification and case conversion

The class functions are proved for every value of every integral type, conversions for every value of the 8, 16 and 32 bit
types, signed or not. For 64-bit types the library converts to 32 bits first (`c45_wide_violated`).
-/
namespace Verif.CharCat
open Spec

/-- The widths of the integral types. -/
def CT.Real (t : CT) : Prop := t.w = 8 ∨ t.w = 16 ∨ t.w = 32 ∨ t.w = 64

theorem switchB_iff (tab : List Nat) (P : Int → Prop) (hb : ∀ c ∈ tab, c < 128) (hP : ∀ v, P v → 0 ≤ v ∧ v < 128)
    (hd : ∀ n : Fin 128, (switchB tab n.val = true ↔ P n.val)) (v : Int) : switchB tab v = true ↔ P v := by
  by_cases h : 0 ≤ v ∧ v < 128
  · have := hd ⟨v.toNat, by omega⟩
    simpa [Int.toNat_of_nonneg h.1] using this
  · constructor
    · intro hs
      exfalso
      simp only [switchB, List.any_eq_true, decide_eq_true_eq] at hs
      obtain ⟨c, hc, e⟩ := hs
      have := hb c hc
      omega
    · intro hp
      exact absurd (hP v hp) h

instance (v : Int) : Decidable (Upper v) := by unfold Upper; infer_instance
instance (v : Int) : Decidable (Lower v) := by unfold Lower; infer_instance
instance (v : Int) : Decidable (Digit v) := by unfold Digit; infer_instance
instance (v : Int) : Decidable (Alpha v) := by unfold Alpha; infer_instance
instance (v : Int) : Decidable (Alnum v) := by unfold Alnum; infer_instance
instance (v : Int) : Decidable (Xdigit v) := by unfold Xdigit; infer_instance
instance (v : Int) : Decidable (Graph v) := by unfold Graph; infer_instance
instance (v : Int) : Decidable (Print v) := by unfold Print; infer_instance
instance (v : Int) : Decidable (Punct v) := by unfold Punct; infer_instance
instance (v : Int) : Decidable (HtmlSpace v) := by unfold HtmlSpace; infer_instance

theorem c45_alnum (v : Int) : alnum v = true ↔ Alnum v :=
  switchB_iff alnumTab Alnum (by decide) (by intro v h; simp only [Alnum, Alpha, Upper, Lower, Digit] at h; omega)
    (by decide +kernel) v
theorem c45_alpha (v : Int) : alpha v = true ↔ Alpha v :=
  switchB_iff alphaTab Alpha (by decide) (by intro v h; simp only [Alpha, Upper, Lower] at h; omega) (by decide +kernel) v
theorem c45_lower (v : Int) : lower v = true ↔ Lower v :=
  switchB_iff lowerTab Lower (by decide) (by intro v h; simp only [Lower] at h; omega) (by decide +kernel) v
theorem c45_upper (v : Int) : upper v = true ↔ Upper v :=
  switchB_iff upperTab Upper (by decide) (by intro v h; simp only [Upper] at h; omega) (by decide +kernel) v
theorem c45_digit (v : Int) : digit v = true ↔ Digit v :=
  switchB_iff digitTab Digit (by decide) (by intro v h; simp only [Digit] at h; omega) (by decide +kernel) v
theorem c45_xdigit (v : Int) : xdigit v = true ↔ Xdigit v :=
  switchB_iff xdigitTab Xdigit (by decide) (by intro v h; simp only [Xdigit, Digit] at h; omega) (by decide +kernel) v
theorem c45_punct (v : Int) : punct v = true ↔ Punct v :=
  switchB_iff punctTab Punct (by decide) (by intro v h; simp only [Punct, Graph] at h; omega) (by decide +kernel) v
theorem c45_graph (v : Int) : graph v = true ↔ Graph v :=
  switchB_iff graphTab Graph (by decide) (by intro v h; simp only [Graph] at h; omega) (by decide +kernel) v
theorem c45_print (v : Int) : print v = true ↔ Print v :=
  switchB_iff printTab Print (by decide) (by intro v h; simp only [Print] at h; omega) (by decide +kernel) v

example : alnum 65 = true ∧ alnum (-63) = false ∧ punct 95 = true ∧ print 127 = false := by decide +kernel

/-- White space of the C locale, for the types of up to 32 bits. -/
theorem c45_space_partial (t : CT) (ht : t.Real) (h32 : t.w ≤ 32) (v : Int) (hv : t.Ok v) : space t v = true ↔ Space v := by
  obtain ⟨w, sg⟩ := t
  have key8 : ∀ n : Fin 256, spaceTb.getD n.val false = (decide (n.val = 32) || decide (9 ≤ n.val ∧ n.val ≤ 13)) := by
    decide +kernel
  rcases ht with h | h | h | h <;> simp only at h <;> subst h
  · have h8 := key8 ⟨toU 8 v, by unfold toU; norm_num; omega⟩
    simp only [space, if_true]
    simp only at h8
    rw [h8]
    simp only [toU, CT.Ok, Space] at *
    cases sg <;> norm_num at hv ⊢ <;> omega
  · simp only [space, spaceImpl, toU, CT.Ok, Space] at *
    cases sg <;> norm_num at hv ⊢ <;> omega
  · simp only [space, spaceImpl, toU, CT.Ok, Space] at *
    cases sg <;> norm_num at hv ⊢ <;> omega
  · simp at h32

/-- White space of HTML, for every type. -/
theorem c45_html (t : CT) (ht : t.Real) (v : Int) (hv : t.Ok v) : html t v = true ↔ HtmlSpace v := by
  have key := switchB_iff htmlTab HtmlSpace (by decide) (by intro v h; simp only [HtmlSpace] at h; omega) (by decide +kernel)
  obtain ⟨w, sg⟩ := t
  rcases ht with h | h | h | h <;> simp only at h <;> subst h <;> simp only [html] <;> norm_num <;> rw [key] <;>
    simp only [toU, CT.Ok, HtmlSpace] at * <;> cases sg <;> norm_num at hv ⊢ <;> omega

/-- `to_c_lower` maps exactly the upper-case letters to their lower-case letters. -/
theorem c45_to_lower_partial (t : CT) (ht : t.Real) (h32 : t.w ≤ 32) (v : Int) (hv : t.Ok v) : IsLowerOf v (toLower t v) := by
  obtain ⟨w, sg⟩ := t
  rcases ht with h | h | h | h <;> simp only at h <;> subst h
  case inr.inr.inr => simp at h32
  all_goals
    simp only [toLower, toLower32, toU, CT.cast, CT.Ok, IsLowerOf, Upper] at *
    cases sg <;> norm_num at hv ⊢ <;> constructor <;> intro hh <;> split_ifs <;> omega

/-- `to_c_upper` maps exactly the lower-case letters to their upper-case letters. -/
theorem c45_to_upper_partial (t : CT) (ht : t.Real) (h32 : t.w ≤ 32) (v : Int) (hv : t.Ok v) : IsUpperOf v (toUpper t v) := by
  obtain ⟨w, sg⟩ := t
  rcases ht with h | h | h | h <;> simp only at h <;> subst h
  case inr.inr.inr => simp at h32
  all_goals
    simp only [toUpper, toUpper32, toU, CT.cast, CT.Ok, IsUpperOf, Lower] at *
    cases sg <;> norm_num at hv ⊢ <;> constructor <;> intro hh <;> split_ifs <;> omega

theorem lowerOf_ok (t : CT) (ht : t.Real) (v r : Int) (hv : t.Ok v) (h : IsLowerOf v r) : t.Ok r := by
  obtain ⟨w, sg⟩ := t
  by_cases hu : Upper v
  · have e := h.1 hu
    unfold Upper at hu
    rcases ht with h | h | h | h <;> simp only at h <;> subst h <;> cases sg <;> simp only [CT.Ok] at * <;> norm_num at * <;> omega
  · rw [h.2 hu]; exact hv

theorem upperOf_ok (t : CT) (ht : t.Real) (v r : Int) (hv : t.Ok v) (h : IsUpperOf v r) : t.Ok r := by
  obtain ⟨w, sg⟩ := t
  by_cases hu : Lower v
  · have e := h.1 hu
    unfold Lower at hu
    rcases ht with h | h | h | h <;> simp only at h <;> subst h <;> cases sg <;> simp only [CT.Ok] at * <;> norm_num at * <;> omega
  · rw [h.2 hu]; exact hv

/-- Conversions are idempotent, stay in the type, and undo each other on letters. -/
theorem c45_idempotent_partial (t : CT) (ht : t.Real) (h32 : t.w ≤ 32) (v : Int) (hv : t.Ok v) :
    t.Ok (toLower t v) ∧ t.Ok (toUpper t v) ∧
    toLower t (toLower t v) = toLower t v ∧ toUpper t (toUpper t v) = toUpper t v ∧
    toLower t (toUpper t v) = toLower t v ∧ toUpper t (toLower t v) = toUpper t v := by
  have hl := c45_to_lower_partial t ht h32 v hv
  have hu := c45_to_upper_partial t ht h32 v hv
  have ol := lowerOf_ok t ht v _ hv hl
  have ou := upperOf_ok t ht v _ hv hu
  have hll := c45_to_lower_partial t ht h32 _ ol
  have huu := c45_to_upper_partial t ht h32 _ ou
  have hlu := c45_to_lower_partial t ht h32 _ ou
  have hul := c45_to_upper_partial t ht h32 _ ol
  refine ⟨ol, ou, ?_⟩
  generalize toLower t (toLower t v) = a at *
  generalize toUpper t (toUpper t v) = b at *
  generalize toLower t (toUpper t v) = c at *
  generalize toUpper t (toLower t v) = d at *
  generalize toLower t v = e at *
  generalize toUpper t v = f at *
  simp only [IsLowerOf, IsUpperOf, Upper, Lower] at *
  omega

/-- Non-vacuity: `char` with its negative values, and `char32_t`. -/
example : (CT.mk 8 true).Real ∧ (CT.mk 8 true).Ok (-1) ∧ toLower ⟨8, true⟩ (-1) = -1 ∧ toLower ⟨32, false⟩ 90 = 122 := by
  refine ⟨Or.inl rfl, ?_, by decide +kernel, by decide +kernel⟩
  simp [CT.Ok]

/-- 64-bit types are truncated to 32 bits: a value that is no letter becomes one, and one that is no white space is taken
for a blank. -/
theorem c45_wide_violated : ¬ (∀ v, (CT.mk 64 false).Ok v → IsLowerOf v (toLower ⟨64, false⟩ v)) ∧
    ¬ (∀ v, (CT.mk 64 false).Ok v → (space ⟨64, false⟩ v = true ↔ Space v)) := by
  constructor
  · intro h
    have h1 := (h 0x100000041 (by simp [CT.Ok])).2 (by unfold Upper; omega)
    have h2 : toLower ⟨64, false⟩ 0x100000041 = 0x61 := by decide +kernel
    omega
  · intro h
    have h1 := (h 0x100000020 (by simp [CT.Ok])).1 (by decide +kernel)
    unfold Space at h1
    omega

/-- Half- and fullwidth forms, for types of 32 bits and more. -/
theorem c45_width_partial (t : CT) (ht : t.Real) (h32 : 32 ≤ t.w) (v : Int) (hv : t.Ok v) :
    (halfwidth t v = true ↔ Halfwidth v) ∧ (fullwidth t v = true ↔ Fullwidth v) ∧ IsHalfOf v (toHalf t v) := by
  obtain ⟨w, sg⟩ := t
  rcases ht with h | h | h | h <;> simp only at h <;> subst h
  · simp at h32
  · simp at h32
  all_goals
    refine ⟨?_, ?_, ?_⟩
    · simp only [halfwidth, toU, CT.Ok, Halfwidth] at *
      cases sg <;> norm_num at hv ⊢ <;> omega
    · simp only [fullwidth, toU, CT.Ok, Fullwidth] at *
      cases sg <;> norm_num at hv ⊢ <;> omega
    · simp only [toHalf, toU, CT.cast, CT.Ok, IsHalfOf, Fullwidth] at *
      cases sg <;> norm_num at hv ⊢ <;> constructor <;> intro hh <;> split_ifs <;> omega

example : (CT.mk 32 false).Ok 0xFF21 ∧ toHalf ⟨32, false⟩ 0xFF21 = 65 := by
  refine ⟨by simp [CT.Ok], by decide +kernel⟩

/-- For types below 32 bits every character but zero is called halfwidth and fullwidth, and the fullwidth characters of
`char16_t` are not converted. -/
theorem c45_width_violated (t : CT) (h : t.w < 32) (v : Int) (hv : v ≠ 0) :
    halfwidth t v = true ∧ fullwidth t v = true ∧ toHalf t v = v ∧
      (CT.mk 16 false).Ok 0xFF21 ∧ ¬ IsHalfOf 0xFF21 (toHalf ⟨16, false⟩ 0xFF21) := by
  refine ⟨by simp [halfwidth, h, hv], by simp [fullwidth, h, hv], by simp [toHalf, h], by simp [CT.Ok], ?_⟩
  intro hh
  have := hh.1 (by unfold Fullwidth; omega)
  revert this
  decide +kernel

end Verif.CharCat
