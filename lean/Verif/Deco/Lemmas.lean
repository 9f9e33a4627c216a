import Verif.Deco.Model
import Verif.Utf.Props
/-!
# What the converters guarantee to the buffers
-/
namespace Verif.Deco
open Verif Verif.Utf

/-- A decorator that handles inputs `ok` in pieces of up to `bfs` characters; `R st h out`: after `h` it has put out `out` and is in state `st`. -/
structure Lawful {σ : Type} (D : Deco σ) (bfs : Nat) (ok : List Nat → Prop) (R : σ → List Nat → List Nat → Prop) : Prop where
  left : ∀ a b, ok (a ++ b) → ok a
  size : ∀ n, n ≤ bfs → ∃ m, D.size n = some m
  step : ∀ st h out l, R st h out → ok (h ++ l) → l.length ≤ bfs → ∃ st' o, D.step st l = some (st', o) ∧ R st' (h ++ l) (out ++ o) ∧
    (∀ n m, l.length ≤ n → D.size n = some m → o.length ≤ m) ∧ (5 ≤ l.length → o ≠ [])

theorem paired_left {a b : List Nat} (h : Paired (a ++ b)) : Paired a := by
  intro i x y hx hy
  refine h i x y ?_ ?_
  · rw [List.getElem?_append_left (by obtain ⟨h, _⟩ := List.getElem?_eq_some_iff.1 hx; exact h)]; exact hx
  · rw [List.getElem?_append_left (by obtain ⟨h, _⟩ := List.getElem?_eq_some_iff.1 hy; exact h)]; exact hy

theorem paired_right {a b : List Nat} (h : Paired (a ++ b)) : Paired b := by
  intro i x y hx hy
  refine h (a.length + i) x y ?_ ?_
  · rw [List.getElem?_append_right (by omega)]; simpa using hx
  · rw [List.getElem?_append_right (by omega)]
    have : a.length + i + 1 - a.length = i + 1 := by omega
    rw [this]; exact hy

theorem size_some {s d : Enc} {bfs : Nat} (hb : bfs ≤ 2 ^ 58) (n : Nat) (hn : n ≤ bfs) : ∃ m, (decoReserve s d n) = some m := by
  have h : n ≤ 2 ^ 58 := by omega
  norm_num at h
  cases s <;> cases d <;> simp only [decoReserve, fullReserve, Enc.bytes] <;> norm_num <;> omega

theorem enc_nonempty (d : Enc) (c : Nat) : enc d c ≠ [] := by
  cases d with
  | u32 => simp [enc]
  | u8 => simp only [enc, enc8]; split_ifs <;> simp
  | u16 => simp only [enc, enc16]; split_ifs <;> simp
  | ebcdic => simp only [enc, encI8]; split_ifs <;> simp

/-- The pieces of a lawful input, one at a time. -/
theorem accepted_step {s d : Enc} (hsd : s ≠ d) (sse : Bool) {st h cs l : List Nat} (hr : Reads s h cs st) (hok : Accepted s d (h ++ l)) :
    StepOk s ⟨d, false, sse⟩ st l := by
  obtain ⟨a, ha⟩ := hr.tail_suffix
  rcases hok with ⟨rfl, hb⟩ | ⟨rfl, hd, hb, hp⟩ | ⟨b, cs0, hcs, e⟩
  · exact state_u8 ⟨d, false, sse⟩ (fun h => hsd h.symm) (fun _ => Or.inr rfl) st l hr.tail_ok (fun u hu => hb u (by simp [hu]))
  · refine state_u16 ⟨d, false, sse⟩ ⟨fun h => hsd h.symm, by simp⟩ hd st l hr.tail_ok (fun u hu => hb u (by simp [hu])) ?_
    have h1 : Paired (h ++ l) := hp
    rw [ha, List.append_assoc] at h1
    exact paired_right h1
  · intro o
    have e' : h ++ (l ++ b) = encText s cs0 ++ [] := by simpa using e
    obtain ⟨c1, t1, c2, rfl, e2, e3, e4⟩ := text_split cs0 h (l ++ b) [] hcs (Or.inl rfl) e'
    have h1 : ∀ x ∈ c1, Scalar x := fun x hx => hcs x (by simp [hx])
    rw [e2] at hr
    obtain ⟨rfl, rfl⟩ := reads_text_det h1 e3 hr
    rw [← List.append_assoc] at e4
    obtain ⟨c3, t3, c4, rfl, f2, f3, f4⟩ := text_split c2 (st ++ l) b [] (fun x hx => hcs x (by simp [hx])) (Or.inl rfl) e4
    have h3 : ∀ x ∈ c3, Scalar x := fun x hx => hcs x (by simp [hx])
    obtain ⟨o', g1, g2, g3⟩ := state_text s ⟨d, false, sse⟩ ⟨by simp, by simp⟩ hsd st l c3 t3 e3 h3 f3 f2 o
    exact ⟨c3, t3, o', g1, by rw [f2]; exact reads_text c3 h3 t3 f3, g2, g3⟩

theorem accepted_left {s d : Enc} (a b : List Nat) (h : Accepted s d (a ++ b)) : Accepted s d a := by
  rcases h with ⟨hs, h⟩ | ⟨hs, hd, h, hp⟩ | ⟨c, h⟩
  · exact Or.inl ⟨hs, fun u hu => h u (by simp [hu])⟩
  · exact Or.inr (Or.inl ⟨hs, hd, fun u hu => h u (by simp [hu]), paired_left hp⟩)
  · exact Or.inr (Or.inr ⟨b ++ c, by rwa [← List.append_assoc]⟩)

/-- The converters are lawful. -/
theorem converter_lawful (s d : Enc) (hsd : s ≠ d) (sse : Bool) (bfs : Nat) (hb : bfs ≤ 2 ^ 58) :
    Lawful (converter s d sse) bfs (Accepted s d) (fun st h out => ConvertedUpTo s d h out st) where
  left := accepted_left
  size := size_some hb
  step := by
    rintro st h out l ⟨cs, hr, rfl⟩ hok hl
    obtain ⟨cs', t, o', e1, e2, e3, e4⟩ := accepted_step hsd sse hr hok (fun _ => 0, 0)
    have hlen : o'.2 = (encText d cs').length := by simpa [encOut] using e3
    have hload : load o'.1 0 o'.2 = encText d cs' := by rw [hlen]; exact e4.2.1
    refine ⟨t, encText d cs', ?_, ⟨cs ++ cs', hr.append e2, by simp [encText]⟩, ?_⟩
    · simp only [converter, e1, Option.map_some, hload]
    constructor
    swap
    · intro h5 hn
      have h1 : cs' = [] := by
        cases cs' with
        | nil => rfl
        | cons c cs' =>
          have : enc d c = [] := by
            simp only [encText, List.flatMap_cons, List.append_eq_nil_iff] at hn
            exact hn.1
          exact absurd this (enc_nonempty d c)
      subst h1
      have h2 : st ++ l = t := by
        have h0 : ∀ {l t : List Nat}, Reads s l [] t → l = t := fun h => by cases h; rfl
        exact h0 e2
      have h3 : t.length ≤ 4 := by
        rcases e2.tail_ok with h | h
        · rw [h]; simp
        · exact incomplete_len h
      rw [← h2, List.length_append] at h3
      omega
    · intro n m hn hm
      have h1 := decoReserve_ge (show decoReserve s d n = some m from hm)
      have h2 : (encText d cs').length ≤ factor s d * (st.length + l.length) := e4.1
      have h3 : st.length ≤ (match s.bytes with | 4 => 0 | 2 => 1 | _ => 7) := by
        rcases hr.tail_ok with h | h
        · rw [h]; simp
        · obtain ⟨_, c, _, hp, hne⟩ := h
          have h5 := hp.length_le
          have h6 : (enc s c).length ≤ (match s.bytes with | 4 => 1 | 2 => 2 | _ => 5) := by
            cases s with
            | u32 => simp [enc, Enc.bytes]
            | u8 => simp only [enc, enc8, Enc.bytes]; split_ifs <;> simp
            | u16 => simp only [enc, enc16, Enc.bytes]; split_ifs <;> simp
            | ebcdic => simp only [enc, encI8, Enc.bytes, List.length_map]; split_ifs <;> simp
          have h7 : st.length < (enc s c).length := by
            by_contra hc
            exact hne (hp.eq_of_length (by omega))
          revert h6
          cases s <;> simp only [Enc.bytes] <;> omega
      have h4 : factor s d * (st.length + l.length) ≤ factor s d * (n + (match s.bytes with | 4 => 0 | 2 => 1 | _ => 7)) :=
        Nat.mul_le_mul_left _ (by omega)
      have h5 := Nat.mul_add (factor s d) n (match s.bytes with | 4 => 0 | 2 => 1 | _ => 7)
      exact h2.trans (h4.trans (h5.le.trans h1))

end Verif.Deco
