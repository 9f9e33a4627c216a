import Verif.Utf.Lemmas7
/-!
# Where the conversions write, for arbitrary input
-/
namespace Verif.Utf
open Verif

/-- Between `o` and `o'` only the `cap` cells from `o.2` on may differ, and the end lies within them. -/
def Confined (cap : Nat) (o o' : Out) : Prop := o.2 ≤ o'.2 ∧ o'.2 ≤ o.2 + cap ∧ ∀ a, a < o.2 ∨ o.2 + cap ≤ a → o'.1 a = o.1 a

theorem Confined.refl (cap : Nat) (o : Out) : Confined cap o o := ⟨le_refl _, by omega, fun _ _ => rfl⟩

theorem Confined.put {cap : Nat} (o : Out) (u : List Nat) (h : u.length ≤ cap) : Confined cap o (put o u) :=
  ⟨by simp [Utf.put], by simp only [Utf.put]; omega, fun a ha => store_outside _ _ _ a (by omega)⟩

theorem Confined.trans {a b cap : Nat} {o o1 o2 : Out} (h1 : Confined a o o1) (h2 : Confined b o1 o2) (h : a + b ≤ cap) : Confined cap o o2 := by
  obtain ⟨p1, p2, p3⟩ := h1
  obtain ⟨q1, q2, q3⟩ := h2
  refine ⟨by omega, by omega, ?_⟩
  intro x hx
  rw [q3 x (by omega), p3 x (by omega)]

theorem Confined.mono {a b : Nat} {o o1 : Out} (h1 : Confined a o o1) (h : a ≤ b) : Confined b o o1 :=
  ⟨h1.1, by have := h1.2.1; omega, fun x hx => h1.2.2 x (by omega)⟩

theorem codeUnits_bound (s d : Enc) (swap : Bool) (c : Nat) : ∃ u, codeUnits d swap c = some u ∧ u.length ≤ factor s d := by
  cases d with
  | u32 => exact ⟨_, rfl, by simp [factor, Enc.bytes]⟩
  | u16 =>
    unfold codeUnits
    simp only
    split_ifs
    · exact ⟨_, rfl, by simp [factor, Enc.bytes]⟩
    · exact ⟨_, rfl, by simp [factor, Enc.bytes]⟩
  | u8 =>
    unfold codeUnits
    simp only
    split_ifs <;> exact ⟨_, rfl, by simp [factor, Enc.bytes]⟩
  | ebcdic =>
    simp only [codeUnits]
    by_cases hc : c < 0x110000
    · rw [ebcdicUnits_eq c hc]
      refine ⟨_, rfl, ?_⟩
      have := enc_len_le .ebcdic c
      simp only [factor, Enc.bytes]; omega
    · refine ⟨[0xDD, 0x73, 0x66, 0x73], ?_, by simp [factor, Enc.bytes]⟩
      unfold ebcdicUnits
      simp only
      rw [if_neg (by omega), if_neg (by omega), if_neg (by omega), if_neg (by omega), if_neg hc]

theorem invalid_bound (s d : Enc) (swap : Bool) : (invalidUnits d swap).length ≤ factor s d := by
  cases d <;> simp [invalidUnits, factor, Enc.bytes]

theorem factor_pos (s d : Enc) : 1 ≤ factor s d := by cases d <;> simp [factor, Enc.bytes]

theorem putCode_bound (s d : Enc) (swap native : Bool) (c : Nat) (o : Out) : ∃ o', putCode d swap native c o = some o' ∧ Confined (factor s d) o o' := by
  unfold putCode
  split_ifs with h
  · exact ⟨_, rfl, Confined.put o _ (by have := factor_pos s d; simpa using this)⟩
  · obtain ⟨u, h1, h2⟩ := codeUnits_bound s d swap c
    rw [h1]
    exact ⟨_, rfl, Confined.put o u h2⟩

theorem loop32_bound (s d : Enc) (swap : Bool) : ∀ (l : List Nat) (o : Out), ∃ o', loop32 d swap l o = some o' ∧ Confined (factor s d * l.length) o o'
  | [], o => ⟨o, rfl, Confined.refl _ _⟩
  | c :: l, o => by
    obtain ⟨u, h1, h2⟩ := codeUnits_bound s d swap c
    obtain ⟨o', e1, e2⟩ := loop32_bound s d swap l (put o u)
    refine ⟨o', by rw [loop32, h1, Option.bind_some]; exact e1, (Confined.put o u h2).trans e2 ?_⟩
    rw [List.length_cons, Nat.mul_succ]; omega

/-- What a loop over a source leaves: a rest of at most `k` units, and everything written in front of the place for the rest. -/
def Leaves (f : Nat) (k : Nat) (l : List Nat) (o : Out) (r : Option (List Nat × Out)) : Prop :=
  ∃ t o', r = some (t, o') ∧ t.length ≤ l.length ∧ t.length ≤ k ∧ Confined (f * l.length) o o' ∧ o'.2 + f * t.length ≤ o.2 + f * l.length

theorem Leaves.step {f k : Nat} {l l' : List Nat} {o : Out} {u : List Nat} {r : Option (List Nat × Out)} (hl : l'.length + 1 ≤ l.length)
    (hu : u.length ≤ f) (h : Leaves f k l' (put o u) r) : Leaves f k l o r := by
  obtain ⟨t, o', e1, e2, e3, e4, e5⟩ := h
  have h1 : f * (l'.length + 1) ≤ f * l.length := Nat.mul_le_mul_left _ hl
  rw [Nat.mul_succ] at h1
  refine ⟨t, o', e1, by omega, e3, (Confined.put o u hu).trans e4 (by omega), ?_⟩
  simp only [put] at e5
  omega

theorem loop16_bound (s d : Enc) (swap : Bool) : ∀ (n : Nat) (l : List Nat) (o : Out), l.length ≤ n → Leaves (factor s d) 1 l o (loop16 d swap l o)
  | _, [], o, _ => ⟨[], o, loop16_nil d swap o, by simp, by simp, Confined.refl _ _, by simp⟩
  | n, [c], o, _ => by
    rw [loop16]
    split_ifs with h1 h2 h3
    · exact ⟨[c], o, rfl, by simp, by simp, Confined.refl _ _, le_refl _⟩
    · exact Leaves.step (l' := []) (by simp) (invalid_bound s d swap) ⟨[], _, rfl, by simp, by simp, Confined.refl _ _, by simp⟩
    · exact Leaves.step (l' := []) (u := [bsw .u32 swap c]) (by simp) (by have := factor_pos s d; simpa using this)
        ⟨[], _, rfl, by simp, by simp, Confined.refl _ _, by simp⟩
    · obtain ⟨u, e1, e2⟩ := codeUnits_bound s d swap c
      rw [e1, Option.bind_some]
      exact Leaves.step (l' := []) (by simp) e2 ⟨[], _, rfl, by simp, by simp, Confined.refl _ _, by simp⟩
  | n, c :: x :: l, o, hn => by
    simp only [List.length_cons] at hn
    obtain ⟨n, rfl⟩ : ∃ k, n = k + 2 := ⟨n - 2, by omega⟩
    rw [loop16]
    split_ifs with h1 h2 h3 h4 h5
    · exact Leaves.step (u := [surrogates c x]) (by simp) (by have := factor_pos s d; simpa using this) (loop16_bound s d swap n l _ (by omega))
    · obtain ⟨u, e1, e2⟩ := codeUnits_bound s d swap (surrogates c x)
      rw [e1, Option.bind_some]
      exact Leaves.step (by simp) e2 (loop16_bound s d swap n l _ (by omega))
    · exact Leaves.step (by simp) (invalid_bound s d swap) (loop16_bound s d swap n l _ (by omega))
    · exact Leaves.step (by simp) (invalid_bound s d swap) (loop16_bound s d swap (n + 1) (x :: l) _ (by simp; omega))
    · exact Leaves.step (u := [bsw .u32 swap c]) (by simp) (by have := factor_pos s d; simpa using this)
        (loop16_bound s d swap (n + 1) (x :: l) _ (by simp; omega))
    · obtain ⟨u, e1, e2⟩ := codeUnits_bound s d swap c
      rw [e1, Option.bind_some]
      exact Leaves.step (by simp) e2 (loop16_bound s d swap (n + 1) (x :: l) _ (by simp; omega))

theorem i8_some : ∀ u < 256, ∃ c, ebcdicToI8[u]? = some c := by
  intro u hu
  have : ebcdicToI8.length = 256 := by decide +kernel
  exact ⟨_, List.getElem?_eq_getElem (by omega)⟩

theorem shadow_le : ∀ u < 256, shadowFlags[u]? = some (shadowFlags.getD u 0) ∧ shadowFlags.getD u 0 ≤ 9 := by decide +kernel

theorem ebcdicLoop_bound : ∀ (l : List Nat) (i res : Nat), (∀ u ∈ l, u < 256) → 1 ≤ i →
    ∃ r, ebcdicLoop l i res = some r ∧ ∀ j, r = .inl j → 1 ≤ j ∧ j ≤ i + l.length
  | [], i, res, _, _ => ⟨_, rfl, by simp⟩
  | b :: l, i, res, hb, hi => by
    obtain ⟨c, hc⟩ := i8_some b (hb b (by simp))
    rw [ebcdicLoop, hc]
    simp only [Option.bind_eq_bind, Option.bind_some]
    split_ifs
    · exact ⟨_, rfl, by intro j hj; injection hj with hj; simp; omega⟩
    · obtain ⟨r, e1, e2⟩ := ebcdicLoop_bound l (i + 1) _ (fun u hu => hb u (by simp [hu])) (by omega)
      exact ⟨r, e1, fun j hj => by have := e2 j hj; simp; omega⟩

/-- The decoder stays in the source, and consumes something. -/
theorem ebcdicAdvance_bound (l : List Nat) (hl : l ≠ []) (hb : ∀ u ∈ l, u < 256) :
    (ebcdicAdvance l = some none ∧ l.length ≤ 7) ∨ ∃ c n, ebcdicAdvance l = some (some (c, n)) ∧ 1 ≤ n ∧ n ≤ l.length := by
  rcases l with _ | ⟨b, l⟩
  · exact absurd rfl hl
  have hb0 := hb b (by simp)
  obtain ⟨s1, s2⟩ := shadow_le b hb0
  obtain ⟨i8, hi⟩ := i8_some b hb0
  generalize hs : shadowFlags.getD b 0 = s at *
  simp only [ebcdicAdvance, s1, hi, Option.bind_eq_bind, Option.bind_some]
  by_cases h1 : s < 2
  · rw [if_pos h1]; exact Or.inr ⟨i8, 1, rfl, le_refl _, by simp⟩
  rw [if_neg h1]
  by_cases h2 : s = 9
  · rw [if_pos h2]; exact Or.inr ⟨_, 1, rfl, le_refl _, by simp⟩
  rw [if_neg h2]
  by_cases h3 : (b :: l).length < s
  · rw [if_pos h3]; exact Or.inl ⟨rfl, by omega⟩
  rw [if_neg h3]
  simp only [List.length_cons] at h3 ⊢
  obtain ⟨r, e1, e2⟩ := ebcdicLoop_bound (l.take (s - 1)) 1 0 (fun u hu => hb u (by simp [List.mem_of_mem_take hu])) (le_refl _)
  rw [e1, Option.bind_some]
  right
  cases r with
  | inl j =>
    have := e2 j rfl
    simp only [List.length_take] at this
    exact ⟨_, j, rfl, by omega, by omega⟩
  | inr res =>
    simp only
    split_ifs with g1 g2 g3 g4
    · exact ⟨_, _, rfl, by omega, by omega⟩
    · exact ⟨_, _, rfl, by omega, by omega⟩
    · exact ⟨_, _, rfl, by omega, by omega⟩
    · exact ⟨_, _, rfl, by omega, by omega⟩
    · exact ⟨_, _, rfl, by omega, by omega⟩

theorem loopE_bound (s d : Enc) (swap : Bool) : ∀ (fuel : Nat) (l : List Nat) (o : Out), l.length < fuel → (∀ u ∈ l, u < 256) →
    Leaves (factor s d) 7 l o (loopE d swap fuel l o)
  | 0, _, _, h, _ => by omega
  | fuel + 1, l, o, hf, hb => by
    rw [loopE]
    by_cases h : l = []
    · rw [if_pos h]; subst h; exact ⟨[], o, rfl, by simp, by simp, Confined.refl _ _, by simp⟩
    rw [if_neg h]
    rcases ebcdicAdvance_bound l h hb with ⟨e, h7⟩ | ⟨c, n, e, h1, h2⟩
    · rw [e, Option.bind_some]
      exact ⟨l, o, rfl, le_refl _, h7, Confined.refl _ _, le_refl _⟩
    · rw [e, Option.bind_some]
      simp only
      obtain ⟨o1, p1, p2⟩ := putCode_bound s d swap false c o
      rw [p1, Option.bind_some]
      obtain ⟨t, o', q1, q2, q3, q4, q5⟩ := loopE_bound s d swap fuel (l.drop n) o1 (by simp; omega) (fun u hu => hb u (List.mem_of_mem_drop hu))
      have hm : factor s d * ((l.drop n).length + 1) ≤ factor s d * l.length := Nat.mul_le_mul_left _ (by simp; omega)
      rw [Nat.mul_succ] at hm
      simp only [List.length_drop] at q2
      have := p2.2.1
      exact ⟨t, o', q1, by omega, q3, p2.trans q4 (by omega), by omega⟩

/-- Native conversions of arbitrary units: total, within the reserved space. -/
theorem cvt_bound (s d : Enc) (sse : Bool) (l : List Nat) (hb : ∀ u ∈ l, u < 2 ^ (8 * s.bytes)) (o : Out) :
    Leaves (factor s d) 7 l o (cvt s ⟨d, false, sse⟩ l o) := by
  unfold cvt
  by_cases hsd : s = d
  · rw [if_pos ⟨hsd, Or.inl rfl⟩]
    have : l.length ≤ factor s d * l.length := Nat.le_mul_of_pos_left _ (factor_pos s d)
    exact ⟨[], _, rfl, by simp, by simp, Confined.put o l this, by simp only [put]; simpa using this⟩
  rw [if_neg (fun h => hsd h.1), if_neg hsd]
  cases s with
  | u32 =>
    obtain ⟨o', e1, e2⟩ := loop32_bound .u32 d false l o
    simp only
    rw [e1, Option.map_some]
    exact ⟨[], o', rfl, by simp, by simp, e2, by simpa using e2.2.1⟩
  | u16 =>
    obtain ⟨t, o', e1, e2, e3, e4⟩ := loop16_bound .u16 d false l.length l o (le_refl _)
    exact ⟨t, o', e1, e2, by omega, e4⟩
  | ebcdic => exact loopE_bound .ebcdic d false _ l o (by omega) hb
  | u8 =>
    obtain ⟨cs, t, o', e1, e2, e3, e4⟩ := cvt_u8 ⟨d, false, sse⟩ (fun h => hsd h.symm) (fun _ => Or.inr rfl) l hb o
    unfold cvt at e1
    rw [if_neg (fun h => hsd h.1), if_neg hsd] at e1
    simp only at e1 e3 e4
    have ht := e2.tail_ok
    have h1 := reads_factor (d := d) e2
    rw [← encOut_length d false] at h1
    refine ⟨t, o', e1, ?_, ?_, ⟨by omega, by rw [e3]; have := e4.1; omega, e4.2.2⟩, by omega⟩
    · obtain ⟨a, rfl⟩ := e2.tail_suffix; simp
    · rcases ht with h | h
      · rw [h]; simp
      · have := incomplete_len h; omega

end Verif.Utf
