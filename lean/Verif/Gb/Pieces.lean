import Verif.Gb.TextProps
import Verif.Utf.Props
/-!
# C82: UTF-16 in pieces to GB 18030
-/
namespace Verif.Gb
open Verif

theorem _root_.Verif.Utf.Paired.tail {x : Nat} {l : List Nat} (h : Utf.Paired (x :: l)) : Utf.Paired l := fun i a b h1 h2 => h (i + 1) a b (by simpa using h1) (by simpa using h2)

theorem from16_nil (o : Utf.Out) : from16 [] o = some ([], o) := by rw [from16]

theorem from16_high (c : Nat) (o : Utf.Out) (s1 : Utf.isSurrogate c = true) (s2 : Utf.isHigh c = true) : from16 [c] o = some ([c], o) := by
  rw [from16, if_pos s1, if_pos s2]

theorem from16_pair (c x : Nat) (l : List Nat) (o : Utf.Out) (s1 : Utf.isSurrogate c = true) (s2 : Utf.isHigh c = true) (s3 : Utf.isLow x = true) :
    from16 (c :: x :: l) o = from16 l (Utf.put o (gbOf (Utf.surrogates c x))) := by
  rw [from16, if_pos s1, if_pos s2, if_pos s3, (gbOf_all _).1, Option.bind_some]

theorem from16_low (c : Nat) (l : List Nat) (o : Utf.Out) (s1 : Utf.isSurrogate c = true) (s2 : ¬ Utf.isHigh c = true) :
    from16 (c :: l) o = from16 l (Utf.put o invalidUnits) := by
  cases l with
  | nil => rw [from16_nil, from16, if_pos s1, if_neg s2]
  | cons x l => rw [from16, if_pos s1, if_neg s2]

theorem from16_plain (c : Nat) (l : List Nat) (o : Utf.Out) (s1 : ¬ Utf.isSurrogate c = true) : from16 (c :: l) o = from16 l (Utf.put o (gbOf c)) := by
  cases l with
  | nil => rw [from16_nil, from16, if_neg s1, (gbOf_all _).1, Option.bind_some]
  | cons x l => rw [from16, if_neg s1, (gbOf_all _).1, Option.bind_some]

theorem from16_append : ∀ (n : Nat) (a b : List Nat) (o : Utf.Out), a.length ≤ n → (∀ u ∈ a ++ b, u < 2 ^ 16) → Utf.Paired (a ++ b) →
    from16 (a ++ b) o = (from16 a o).bind fun r => from16 (r.1 ++ b) r.2 := by
  intro n
  induction n with
  | zero =>
    intro a b o hn _ _
    obtain rfl := List.length_eq_zero_iff.mp (Nat.le_zero.mp hn)
    rw [from16_nil, Option.bind_some]
  | succ n ih =>
    intro a b o hn hb hp
    cases a with
    | nil => rw [from16_nil, Option.bind_some]
    | cons c a =>
      simp only [List.length_cons] at hn
      rw [List.cons_append] at hb hp ⊢
      have hb1 : ∀ u ∈ a ++ b, u < 2 ^ 16 := fun u hu => hb u (List.mem_cons_of_mem _ hu)
      have hp1 : Utf.Paired (a ++ b) := Utf.Paired.tail hp
      by_cases s1 : Utf.isSurrogate c = true
      · by_cases s2 : Utf.isHigh c = true
        · cases a with
          | nil => rw [from16_high c o s1 s2, Option.bind_some, List.nil_append, List.singleton_append]
          | cons x a =>
            simp only [List.length_cons] at hn
            rw [List.cons_append] at hb1 hp1 hb hp ⊢
            have hc := hb c (by simp)
            have hx := hb x (by simp)
            have t1 := s1
            have t2 := s2
            rw [Utf.isSurrogate_iff c hc] at t1
            rw [Utf.isHigh_iff c hc] at t2
            have s3 := (Utf.isLow_iff x hx).mpr (hp 0 c x (by simp) (by simp) t1.1 (by omega))
            rw [from16_pair c x _ o s1 s2 s3, from16_pair c x _ o s1 s2 s3]
            exact ih a b _ (by omega) (fun u hu => hb1 u (List.mem_cons_of_mem _ hu)) (Utf.Paired.tail hp1)
        · rw [from16_low c _ o s1 s2, from16_low c _ o s1 s2]
          exact ih a b _ (by omega) hb1 hp1
      · rw [from16_plain c _ o s1, from16_plain c _ o s1]
        exact ih a b _ (by omega) hb1 hp1

theorem from16_rest : ∀ (n : Nat) (l : List Nat) (o : Utf.Out), l.length ≤ n → ∃ t : Option Nat, ∃ o', from16 l o = some (t.toList, o') ∧
    (∀ h ∈ t, Utf.isSurrogate h = true ∧ Utf.isHigh h = true) ∧ ∃ a, l = a ++ t.toList
  | _, [], o, _ => ⟨none, o, rfl, by simp, [], rfl⟩
  | n, [c], o, _ => by
    rw [from16]
    split_ifs with s1 s2
    · exact ⟨some c, o, rfl, by simpa using ⟨s1, s2⟩, [], rfl⟩
    · exact ⟨none, _, rfl, by simp, [c], rfl⟩
    · rw [(gbOf_all c).1]; exact ⟨none, _, rfl, by simp, [c], rfl⟩
  | n, c :: x :: l, o, hn => by
    simp only [List.length_cons] at hn
    obtain ⟨n, rfl⟩ : ∃ k, n = k + 1 := ⟨n - 1, by omega⟩
    have h1 := fun o => from16_rest n l o (by omega)
    have h2 := fun o => from16_rest n (x :: l) o (by simp only [List.length_cons]; omega)
    have k1 : ∀ o, ∃ t : Option Nat, ∃ o', from16 l o = some (t.toList, o') ∧ (∀ h ∈ t, Utf.isSurrogate h = true ∧ Utf.isHigh h = true) ∧
        ∃ a, c :: x :: l = a ++ t.toList := fun o => by
      obtain ⟨t, o', e, h, a, ha⟩ := h1 o
      exact ⟨t, o', e, h, c :: x :: a, by rw [ha]; rfl⟩
    have k2 : ∀ o, ∃ t : Option Nat, ∃ o', from16 (x :: l) o = some (t.toList, o') ∧ (∀ h ∈ t, Utf.isSurrogate h = true ∧ Utf.isHigh h = true) ∧
        ∃ a, c :: x :: l = a ++ t.toList := fun o => by
      obtain ⟨t, o', e, h, a, ha⟩ := h2 o
      exact ⟨t, o', e, h, c :: a, by rw [ha]; rfl⟩
    rw [from16]
    split_ifs
    · rw [(gbOf_all _).1, Option.bind_some]; exact k1 _
    · exact k1 _
    · exact k2 _
    · rw [(gbOf_all _).1, Option.bind_some]; exact k2 _

theorem from16State_eq (st : Option Nat) (hst : ∀ h ∈ st, Utf.isSurrogate h = true ∧ Utf.isHigh h = true) (l : List Nat) (o : Utf.Out)
    (hb : ∀ u ∈ st.toList ++ l, u < 2 ^ 16) (hp : Utf.Paired (st.toList ++ l)) :
    from16State st l o = (from16 (st.toList ++ l) o).map fun r => (r.1.head?, r.2) := by
  cases st with
  | none => rfl
  | some c =>
    obtain ⟨s1, s2⟩ := hst c rfl
    cases l with
    | nil =>
      rw [from16State, Option.toList_some, List.append_nil, from16, if_pos s1, if_pos s2]
      rfl
    | cons x l =>
      have hc := hb c (by simp)
      have hx := hb x (by simp)
      have t1 := s1
      have t2 := s2
      rw [Utf.isSurrogate_iff c hc] at t1
      rw [Utf.isHigh_iff c hc] at t2
      have s3 := (Utf.isLow_iff x hx).mpr (hp 0 c x (by simp) (by simp) t1.1 (by omega))
      simp only [from16State, Option.toList_some, List.singleton_append]
      rw [if_pos s3, from16, if_pos s1, if_pos s2, if_pos s3, (gbOf_all _).1, Option.bind_some, Option.bind_some]

theorem _root_.Verif.Utf.Paired.left {a b : List Nat} (h : Utf.Paired (a ++ b)) : Utf.Paired a := fun i c x e1 e2 => by
  have l1 := (List.getElem?_eq_some_iff.mp e1).1
  have l2 := (List.getElem?_eq_some_iff.mp e2).1
  exact h i c x (by rw [List.getElem?_append_left l1]; exact e1) (by rw [List.getElem?_append_left l2]; exact e2)

theorem _root_.Verif.Utf.Paired.right : ∀ {a b : List Nat}, Utf.Paired (a ++ b) → Utf.Paired b
  | [], _, h => h
  | _ :: a, _, h => Utf.Paired.right (a := a) (Utf.Paired.tail h)

theorem from16Chunks_eq : ∀ (ls : List (List Nat)) (st : Option Nat), (∀ h ∈ st, Utf.isSurrogate h = true ∧ Utf.isHigh h = true) → ∀ o : Utf.Out,
    (∀ u ∈ st.toList ++ ls.flatten, u < 2 ^ 16) → Utf.Paired (st.toList ++ ls.flatten) →
    from16Chunks st ls o = (from16 (st.toList ++ ls.flatten) o).map fun r => (r.1.head?, r.2)
  | [], st, hst, o, hb, hp => by
    rw [from16Chunks]
    cases st with
    | none => rfl
    | some c =>
      obtain ⟨s1, s2⟩ := hst c rfl
      rw [Option.toList_some, List.flatten_nil, List.append_nil, from16, if_pos s1, if_pos s2]
      rfl
  | l :: ls, st, hst, o, hb, hp => by
    rw [List.flatten_cons, ← List.append_assoc] at hb hp
    rw [from16Chunks, List.flatten_cons, ← List.append_assoc, from16_append _ _ _ o (le_refl _) hb hp,
      from16State_eq st hst l o (fun u hu => hb u (by rw [List.mem_append]; exact Or.inl hu)) hp.left]
    obtain ⟨t, o', e, h, a, ha⟩ := from16_rest _ (st.toList ++ l) o (le_refl _)
    rw [ha, List.append_assoc] at hb hp
    rw [e, Option.map_some, Option.bind_some, Option.bind_some, show (t.toList, o').1.head? = t by cases t <;> rfl]
    exact from16Chunks_eq ls t h o' (fun u hu => hb u (by rw [List.mem_append]; exact Or.inr hu)) hp.right

/-- UTF-16 in pieces: as at once, if no high surrogate is followed by something that is no low surrogate. -/
theorem c82_from_utf16_chunks_partial (l : List Nat) (hb : ∀ u ∈ l, u < 2 ^ 16)
    (hp : ∀ i h x, l[i]? = some h → l[i + 1]? = some x → 0xD800 ≤ h → h < 0xDC00 → 0xDC00 ≤ x ∧ x < 0xE000) :
    ∃ cs t us, Utf.Reads .u16 l cs t.toList ∧ cs.mapM encode = some us ∧
      ∀ (ls : List (List Nat)) (o : Utf.Out), ls.flatten = l → ∃ o', from16Chunks none ls o = some (t, o') ∧ Output (4 * l.length) o o' us.flatten := by
  obtain ⟨cs, t, o1, us, e1, e2, e3, _⟩ := c82_from_utf16 l hb (fun _ => 0, 0)
  obtain ⟨t', o1', f1, _⟩ := from16_rest _ l (fun _ => 0, 0) (le_refl _)
  rw [e3] at f1
  simp only [Option.some.injEq, Prod.mk.injEq] at f1
  obtain ⟨rfl, -⟩ := f1
  refine ⟨cs, t', us, e1, e2, ?_⟩
  intro ls o hls
  obtain ⟨cs', t, o', us', g1, g2, g3, g4⟩ := c82_from_utf16 l hb o
  obtain ⟨rfl, rfl⟩ := Utf.Reads.det (Utf.prefixFree .u16) e1 g1
  rw [e2] at g2
  cases g2
  refine ⟨o', ?_, g4⟩
  rw [from16Chunks_eq ls none (by simp) o (by rw [hls]; exact hb) (by rw [hls]; exact hp), Option.toList_none, List.nil_append, hls, g3, Option.map_some]
  cases t' <;> rfl

example : (from16Chunks none [[0x4E2D, 0xD83D], [], [0xDE00, 0xDC00], [0x41, 0xD800]] (fun _ => 0, 0)).map (fun r => (r.1, load r.2.1 0 r.2.2)) =
    some (some 0xD800, [0xD6, 0xD0, 0x94, 0x39, 0xFC, 0x36, 0x84, 0x31, 0xA4, 0x37, 0x41]) := by decide +kernel

/-- Violated: what follows a lone high surrogate is lost if it comes in the same piece. -/
theorem c82_utf16_pieces_violated :
    (from16Chunks none [[0xD800, 0x41]] (fun _ => 0, 0)).map (fun r => load r.2.1 0 r.2.2) = some [0x84, 0x31, 0xA4, 0x37] ∧
    (from16Chunks none [[0xD800], [0x41]] (fun _ => 0, 0)).map (fun r => load r.2.1 0 r.2.2) = some [0x84, 0x31, 0xA4, 0x37, 0x41] := by decide +kernel

end Verif.Gb
