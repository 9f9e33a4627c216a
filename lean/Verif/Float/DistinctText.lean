import Verif.Float.Distinct
/-! # C46: a decimal text has one value -/
namespace Verif.Float
open Verif Verif.IntPrint

theorem split_unique {α : Type} (P : α → Prop) : ∀ (a b a' b' : List α), (∀ x ∈ a, P x) → (∀ x ∈ a', P x) →
    (∀ x, b.head? = some x → ¬ P x) → (∀ x, b'.head? = some x → ¬ P x) → a ++ b = a' ++ b' → a = a' ∧ b = b' := by
  intro a
  induction a with
  | nil =>
    intro b a' b' _ ha' hb _ h
    cases a' with
    | nil => exact ⟨rfl, h⟩
    | cons x t =>
      simp only [List.nil_append] at h
      exact absurd (ha' x (by simp)) (hb x (by rw [h]; rfl))
  | cons y t ih =>
    intro b a' b' ha ha' hb hb' h
    cases a' with
    | nil =>
      simp only [List.nil_append] at h
      exact absurd (ha y (by simp)) (hb' y (by rw [← h]; rfl))
    | cons x u =>
      simp only [List.cons_append, List.cons.injEq] at h
      obtain ⟨h1, h2⟩ := ih b u b' (fun z hz => ha z (List.mem_cons_of_mem _ hz)) (fun z hz => ha' z (List.mem_cons_of_mem _ hz))
        hb hb' h.2
      exact ⟨by rw [h.1, h1], h2⟩

/-- Decimal digits. -/
def IsDig (c : Nat) : Prop := 48 ≤ c ∧ c ≤ 57

theorem dig_map (l : List Nat) (h : ∀ d ∈ l, d < 10) : ∀ c ∈ l.map (digitChar false), IsDig c := by
  intro c hc
  rw [List.mem_map] at hc
  obtain ⟨d, hd, rfl⟩ := hc
  have := h d hd
  unfold digitChar IsDig
  rw [if_pos this]
  omega

theorem map_dig_inj : ∀ (l l' : List Nat), (∀ d ∈ l, d < 10) → (∀ d ∈ l', d < 10) →
    l.map (digitChar false) = l'.map (digitChar false) → l = l' := by
  intro l
  induction l with
  | nil => intro l' _ _ h; cases l' <;> simp_all
  | cons x t ih =>
    intro l' h1 h2 h
    cases l' with
    | nil => simp at h
    | cons y u =>
      simp only [List.map_cons, List.cons.injEq] at h
      have hx := h1 x (by simp)
      have hy := h2 y (by simp)
      have h3 := h.1
      unfold digitChar at h3
      rw [if_pos hx, if_pos hy] at h3
      rw [ih u (fun d hd => h1 d (List.mem_cons_of_mem _ hd)) (fun d hd => h2 d (List.mem_cons_of_mem _ hd)) h.2]
      congr 1
      omega

/-- The part of the text behind the integer digits. -/
def fracPart (comma : Bool) (frac : List Nat) : List Nat :=
  if frac = [] then [] else (if comma then 44 else 46) :: frac.map (digitChar false)

/-- The part of the text behind the fraction. -/
def expoPart (upperE : Bool) : Option Int → List Nat
  | none => []
  | some e => [if upperE then 69 else 101, if e < 0 then 45 else 43] ++ (if e.natAbs < 10 then [48] else []) ++ decText e.natAbs

theorem decNumeral_parts (comma upperE : Bool) (int frac : List Nat) (ex : Option Int) :
    Spec.decNumeral comma upperE int frac ex = int.map (digitChar false) ++ (fracPart comma frac ++ expoPart upperE ex) := by
  unfold Spec.decNumeral fracPart expoPart
  cases ex <;> simp

theorem expoPart_head (upperE : Bool) (ex : Option Int) (x : Nat) (h : (expoPart upperE ex).head? = some x) : x = 69 ∨ x = 101 := by
  cases ex with
  | none => simp [expoPart] at h
  | some e => simp [expoPart] at h; cases upperE <;> simp_all

theorem fracPart_head (comma upperE : Bool) (frac : List Nat) (ex : Option Int) (x : Nat)
    (h : (fracPart comma frac ++ expoPart upperE ex).head? = some x) : ¬ IsDig x := by
  unfold fracPart at h
  unfold IsDig
  split at h
  · rcases expoPart_head _ _ _ h with h | h <;> omega
  · simp at h; cases comma <;> simp_all <;> omega

theorem digitsValue_zero_cons (l : List Nat) : digitsValue 10 (0 :: l) = digitsValue 10 l := by
  simp [digitsValue]

theorem expoPart_inj (upperE : Bool) (ex ex' : Option Int) (h : expoPart upperE ex = expoPart upperE ex') : ex = ex' := by
  cases ex with
  | none => cases ex' <;> simp_all [expoPart]
  | some e =>
    cases ex' with
    | none => simp [expoPart] at h
    | some e' =>
      unfold expoPart at h
      simp only [List.cons_append, List.nil_append, List.cons.injEq] at h
      obtain ⟨-, hs, hd⟩ := h
      have key : ∀ n : Nat, ((if n < 10 then [48] else []) ++ decText n : List Nat) =
          ((if n < 10 then [0] else []) ++ numeral 10 n).map (digitChar false) := by
        intro n
        unfold decText
        split <;> simp [digitChar]
      have lt : ∀ n : Nat, ∀ d ∈ ((if n < 10 then [0] else []) ++ numeral 10 n : List Nat), d < 10 := by
        intro n d hd
        rw [List.mem_append] at hd
        rcases hd with hd | hd
        · split at hd <;> simp_all
        · exact (numeral_isNumeral (b := 10) (by norm_num) n).digits_lt d hd
      have val : ∀ n : Nat, digitsValue 10 ((if n < 10 then [0] else []) ++ numeral 10 n : List Nat) = n := by
        intro n
        split
        · rw [List.singleton_append, digitsValue_zero_cons]; exact (numeral_isNumeral (b := 10) (by norm_num) n).value
        · exact (numeral_isNumeral (b := 10) (by norm_num) n).value
      rw [key, key] at hd
      have := map_dig_inj _ _ (lt _) (lt _) hd
      have hn : e.natAbs = e'.natAbs := by rw [← val e.natAbs, this, val]
      have hsg : e < 0 ↔ e' < 0 := by
        by_cases p : e < 0 <;> by_cases q : e' < 0 <;> simp only [p, q, if_true, if_false] at hs ⊢ <;> omega
      congr 1
      omega

/-- The text determines the digits and the exponent. -/
theorem decNumeral_inj (comma upperE : Bool) (int frac int' frac' : List Nat) (ex ex' : Option Int)
    (h1 : ∀ d ∈ int ++ frac, d < 10) (h2 : ∀ d ∈ int' ++ frac', d < 10)
    (h : Spec.decNumeral comma upperE int frac ex = Spec.decNumeral comma upperE int' frac' ex') :
    int = int' ∧ frac = frac' ∧ ex = ex' := by
  have a1 : ∀ d ∈ int, d < 10 := fun d hd => h1 d (List.mem_append_left _ hd)
  have a2 : ∀ d ∈ frac, d < 10 := fun d hd => h1 d (List.mem_append_right _ hd)
  have b1 : ∀ d ∈ int', d < 10 := fun d hd => h2 d (List.mem_append_left _ hd)
  have b2 : ∀ d ∈ frac', d < 10 := fun d hd => h2 d (List.mem_append_right _ hd)
  rw [decNumeral_parts, decNumeral_parts] at h
  obtain ⟨g1, g2⟩ := split_unique IsDig _ _ _ _ (dig_map _ a1) (dig_map _ b1) (fracPart_head _ _ _ _) (fracPart_head _ _ _ _) h
  refine ⟨map_dig_inj _ _ a1 b1 g1, ?_⟩
  have nd : ∀ (o : Option Int) x, (expoPart upperE o).head? = some x → ¬ IsDig x := by
    intro o x hx
    unfold IsDig
    rcases expoPart_head _ _ _ hx with h | h <;> omega
  have nh : ∀ o : Option Int, (expoPart upperE o).head? ≠ some (if comma then 44 else 46) := by
    intro o hh
    have := expoPart_head upperE o _ hh
    cases comma <;> simp at this
  unfold fracPart at g2
  by_cases p : frac = []
  · by_cases q : frac' = []
    · rw [if_pos p, if_pos q] at g2
      exact ⟨by rw [p, q], expoPart_inj _ _ _ (by simpa using g2)⟩
    · rw [if_pos p, if_neg q, List.nil_append] at g2
      exact absurd (by rw [g2]; rfl) (nh ex)
  · by_cases q : frac' = []
    · rw [if_neg p, if_pos q, List.nil_append] at g2
      exact absurd (by rw [← g2]; rfl) (nh ex')
    · rw [if_neg p, if_neg q] at g2
      simp only [List.cons_append, List.cons.injEq, true_and] at g2
      obtain ⟨k1, k2⟩ := split_unique IsDig _ _ _ _ (dig_map _ a2) (dig_map _ b2) (nd _) (nd _) g2
      exact ⟨map_dig_inj _ _ a2 b2 k1, expoPart_inj _ _ _ k2⟩

end Verif.Float
