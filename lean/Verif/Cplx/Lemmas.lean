import Verif.Cplx.Spec
import Verif.Cplx.Model
import Verif.Float.HexProps
import Verif.Float.RtProps
/-! # Lemmas for the texts of complex numbers -/
namespace Verif.Cplx
open Verif Verif.IntPrint Verif.Float

theorem digitChar_ge (u : Bool) (d : Nat) : 48 ≤ digitChar u d := by
  unfold digitChar; split
  · omega
  · split <;> omega

theorem sep_lt (c : Bool) : Spec.separator c = 44 ∨ Spec.separator c = 46 := by cases c <;> simp [Spec.separator]

theorem not_mem_map (c u : Bool) (l : List Nat) : Spec.separator c ∉ l.map (digitChar u) := by
  intro h
  rw [List.mem_map] at h
  obtain ⟨d, -, h⟩ := h
  have := digitChar_ge u d
  rcases sep_lt c with h' | h' <;> omega

theorem not_mem_sign (c p s : Bool) : Spec.separator c ∉ Float.Spec.signText p s := by
  cases c <;> cases p <;> cases s <;> decide

theorem not_mem_special (c u n : Bool) : Spec.separator c ∉ Float.Spec.specialText u n := by
  cases c <;> cases u <;> cases n <;> decide

theorem not_mem_point (c u : Bool) (l : List Nat) :
    Spec.separator c ∉ (if l = [] then [] else (if c then 44 else 46) :: l.map (digitChar u)) := by
  split
  · simp
  · rw [List.mem_cons]
    rintro (h | h)
    · cases c <;> simp [Spec.separator] at h
    · exact not_mem_map _ _ _ h

theorem not_mem_decText (c : Bool) (n : Nat) : Spec.separator c ∉ decText n := not_mem_map _ _ _

theorem not_mem_decimal (c u : Bool) (int frac : List Nat) (ex : Option Int) :
    Spec.separator c ∉ Float.Spec.decNumeral c u int frac ex := by
  unfold Float.Spec.decNumeral
  simp only [List.mem_append, not_or]
  refine ⟨⟨not_mem_map _ _ _, not_mem_point _ _ _⟩, ?_⟩
  cases ex with
  | none => simp
  | some e =>
    simp only [List.mem_append, List.mem_cons, List.not_mem_nil, or_false, not_or]
    refine ⟨⟨⟨?_, ?_⟩, ?_⟩, not_mem_decText _ _⟩
    · cases c <;> cases u <;> simp [Spec.separator]
    · intro hh; rcases sep_lt c with h' | h' <;> rw [h'] at hh <;> split at hh <;> omega
    · split <;> cases c <;> simp [Spec.separator]

theorem not_mem_dec {mb eb : Nat} {st : Float.Spec.Style} {p u uE c tr : Bool} {good : ℚ → Nat → Nat → Prop} {bits : Nat}
    {txt : List Nat} (h : Float.Spec.IsDecFloat mb eb st p u uE c tr good bits txt) : Spec.separator c ∉ txt := by
  unfold Float.Spec.IsDecFloat at h
  split at h
  · rw [h, List.mem_append]
    exact not_or.mpr ⟨not_mem_sign _ _ _, not_mem_special _ _ _⟩
  split at h
  · rw [h, List.mem_append]
    refine not_or.mpr ⟨not_mem_sign _ _ _, ?_⟩
    split <;> cases uE <;> cases c <;> simp [Spec.separator]
  · obtain ⟨body, x, rfl, ⟨int, frac, ex, rfl, -⟩, -⟩ := h
    rw [List.mem_append]
    exact not_or.mpr ⟨not_mem_sign _ _ _, not_mem_decimal _ _ _ _ _⟩

theorem not_mem_hex {mb eb : Nat} {sb us p u uD uP c : Bool} {bits : Nat}
    {txt : List Nat} (h : Float.Spec.IsHexFloat mb eb sb us p u uD uP c bits txt) : Spec.separator c ∉ txt := by
  unfold Float.Spec.IsHexFloat at h
  split at h
  · rw [h, List.mem_append]
    exact not_or.mpr ⟨not_mem_sign _ _ _, not_mem_special _ _ _⟩
  · obtain ⟨body, rfl, lead, frac, e, rfl, -⟩ := h
    unfold Float.Spec.hexText
    simp only [List.mem_append, not_or]
    refine ⟨⟨not_mem_sign _ _ _, ?_⟩, ⟨⟨?_, not_mem_point _ _ _⟩, ?_⟩, not_mem_decText _ _⟩
    · cases sb <;> cases us <;> cases c <;> simp [Spec.separator]
    · rw [List.mem_singleton]
      intro hh
      have := digitChar_ge uD lead
      rcases sep_lt c with h' | h' <;> omega
    · simp only [List.mem_cons, List.not_mem_nil, or_false, not_or]
      refine ⟨?_, ?_⟩
      · cases c <;> cases uP <;> simp [Spec.separator]
      · intro hh; rcases sep_lt c with h' | h' <;> rw [h'] at hh <;> split at hh <;> omega

/-- The separator occurs once, so the text has one reading. -/
theorem pair_unique (c : Bool) (a b a' b' : List Nat) (ha : Spec.separator c ∉ a) (hb : Spec.separator c ∉ b)
    (h : Spec.pairText c a b = Spec.pairText c a' b') : a' = a ∧ b' = b := by
  unfold Spec.pairText at h
  have h : a ++ Spec.separator c :: b = a' ++ Spec.separator c :: b' := by
    have h2 := List.append_inj_left' h rfl
    simpa using h2
  generalize Spec.separator c = s at ha hb h
  clear * - ha hb h
  induction a generalizing a' with
  | nil =>
    cases a' with
    | nil => simpa using h.symm
    | cons x t =>
      simp only [List.nil_append, List.cons_append, List.cons.injEq] at h
      exact absurd (by rw [h.2]; simp) hb
  | cons y t ih =>
    cases a' with
    | nil =>
      simp only [List.nil_append, List.cons_append, List.cons.injEq] at h
      exact absurd (by rw [h.1]; simp) ha
    | cons x u =>
      simp only [List.cons_append, List.cons.injEq] at h
      obtain ⟨h1, h2⟩ := ih u (fun hh => ha (List.mem_cons_of_mem _ hh)) h.2
      exact ⟨by rw [h1, h.1], h2⟩

theorem printPair_eq (c : Bool) (part : Mem → Nat → Nat → Option (Mem × Nat)) (P : Nat → List Nat → Prop)
    (re im : Nat)
    (hpart : ∀ m iter bits, bits = re ∨ bits = im →
      ∃ txt, part m iter bits = some (store m iter txt, iter + txt.length) ∧ P bits txt)
    (hsep : ∀ bits txt, P bits txt → Spec.separator c ∉ txt) (m : Mem) (iter : Nat) :
    ∃ a b, printPair c part m iter re im = some (store m iter (Spec.pairText c a b), iter + (Spec.pairText c a b).length) ∧
      P re a ∧ P im b ∧ Spec.IsPairText c (P re) (P im) (Spec.pairText c a b) := by
  have h1 := hpart (store m iter [40]) (iter + 1) re (Or.inl rfl)
  obtain ⟨a, ha, pa⟩ := h1
  have h2 := hpart (store (store (store m iter [40]) (iter + 1) a) (iter + 1 + a.length) [if c then 46 else 44])
    (iter + 1 + a.length + 1) im (Or.inr rfl)
  obtain ⟨b, hb, pb⟩ := h2
  refine ⟨a, b, ?_, pa, pb, a, b, rfl, pa, pb, fun a' b' h => pair_unique c a b a' b' (hsep _ _ pa) (hsep _ _ pb) h⟩
  unfold printPair
  simp only [ha, hb, bind, Option.bind_some, pure]
  unfold Spec.pairText Spec.separator
  rw [store_store_at _ iter (iter + 1) _ _ rfl, store_store_at _ iter _ _ _ (by simp; omega),
    store_store_at _ iter _ _ _ (by simp; omega), store_store_at _ iter _ _ _ (by simp; omega)]
  simp
  omega

theorem pair_length (c : Bool) (a b : List Nat) (v : Nat) (ha : a.length ≤ v) (hb : b.length ≤ v) :
    (Spec.pairText c a b).length ≤ complexSize v := by
  unfold Spec.pairText complexSize
  simp
  omega

end Verif.Cplx
