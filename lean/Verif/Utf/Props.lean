import Verif.Utf.Lemmas8
/-!
# C15, C16, C17, C58, C59, C60: transcoding
-/
namespace Verif.Utf
open Verif

/-! ## C15: texts -/

/-- Every text, in every encoding, is converted to the standard encoding of the same text, in native byte order. -/
theorem c15_text (s d : Enc) (sse : Bool) (cs : List Nat) (h : ∀ x ∈ cs, Scalar x) (o : Out) :
    ∃ o', cvtFull s ⟨d, false, sse⟩ (encText s cs) o = some o' ∧ o'.2 = o.2 + (encText d cs).length ∧
      load o'.1 o.2 (encText d cs).length = encText d cs := by
  obtain ⟨o', e1, e2, e3⟩ := cvt_whole s ⟨d, false, sse⟩ ⟨by simp, by simp⟩ cs h o
  refine ⟨o', ?_, e2, e3.2.1⟩
  rw [cvtFull, e1, Option.map_some]
  rfl

/-- Converting there and back gives the code units one started from. -/
theorem c15_roundtrip (s d : Enc) (sse sse' : Bool) (l : List Nat) (h : WellFormed s l) (o o2 : Out) :
    ∃ o', cvtFull s ⟨d, false, sse⟩ l o = some o' ∧
      ∃ o'', cvtFull d ⟨s, false, sse'⟩ (load o'.1 o.2 (o'.2 - o.2)) o2 = some o'' ∧ load o''.1 o2.2 (o''.2 - o2.2) = l := by
  obtain ⟨cs, hcs, rfl⟩ := h
  obtain ⟨o', e1, e2, e3⟩ := c15_text s d sse cs hcs o
  obtain ⟨o'', f1, f2, f3⟩ := c15_text d s sse' cs hcs o2
  refine ⟨o', e1, o'', ?_, ?_⟩
  · rw [e2, Nat.add_sub_cancel_left, e3]; exact f1
  · rw [f2, Nat.add_sub_cancel_left, f3]

/-- One scalar value encodes to one character and distinct scalar values to distinct sequences (so decoding is well defined). -/
theorem c15_injective (e : Enc) (cs cs' : List Nat) (h : ∀ x ∈ cs, Scalar x) (h' : ∀ x ∈ cs', Scalar x) (heq : encText e cs = encText e cs') :
    cs = cs' := by
  have h1 := reads_text cs h [] (Or.inl rfl) (e := e)
  have h2 := reads_text cs' h' [] (Or.inl rfl) (e := e)
  rw [← heq] at h2
  exact (Reads.det (prefixFree e) h2 h1).1

example : (∀ x ∈ [0x24, 0x20AC, 0x10437], Scalar x) ∧ encText .u8 [0x24, 0x20AC, 0x10437] = [0x24, 0xE2, 0x82, 0xAC, 0xF0, 0x90, 0x90, 0xB7] ∧
    encText .u16 [0x24, 0x20AC, 0x10437] = [0x24, 0x20AC, 0xD801, 0xDC37] := by decide +kernel

/-! ## C16: ill-formed input -/

/-- UTF-8 and UTF-16 input of any content. The text read is that of the characters, each ill-formed piece giving U+FFFD; the output is
its encoding — for four-byte destinations always, otherwise provided the input does not end within a character.
Missing: input ending within a character, UTF-32 and UTF-EBCDIC sources, UTF-16 to UTF-EBCDIC, equal encodings. -/
theorem c16_replaced_partial (s d : Enc) (hs : s = .u8 ∨ s = .u16) (hd : s ≠ d) (he : ¬ (s = .u16 ∧ d = .ebcdic)) (sse : Bool) (l : List Nat)
    (hb : ∀ u ∈ l, u < 2 ^ (8 * s.bytes)) (o : Out) :
    ∃ cs t, Reads s l cs t ∧ (∀ x ∈ cs, Scalar x) ∧ (t = [] ∨ d = .u32 → ∀ cs', cs' = (if t = [] then cs else cs ++ [0xFFFD]) →
      ∃ o', cvtFull s ⟨d, false, sse⟩ l o = some o' ∧ o'.2 = o.2 + (encText d cs').length ∧
        load o'.1 o.2 (encText d cs').length = encText d cs') := by
  have main : ∃ cs t o', cvt s ⟨d, false, sse⟩ l o = some (t, o') ∧ Reads s l cs t ∧ o'.2 = o.2 + (encText d cs).length ∧
      load o'.1 o.2 (encText d cs).length = encText d cs := by
    rcases hs with rfl | rfl
    · obtain ⟨cs, t, o', e1, e2, e3, e4⟩ := cvt_u8 ⟨d, false, sse⟩ (fun h => hd h.symm) (fun _ => Or.inr rfl) l hb o
      exact ⟨cs, t, o', e1, e2, e3, e4.2.1⟩
    · obtain ⟨cs, t, e1, e2⟩ := loop16_ok d false ⟨fun h => hd h.symm, by simp⟩ (fun h => he ⟨rfl, h⟩) l.length l o (le_refl _) hb
      refine ⟨cs, t, _, ?_, e2, rfl, (put_wrote o _).2.1⟩
      unfold cvt
      rw [if_neg (fun h => hd h.1), if_neg hd]
      exact e1
  obtain ⟨cs, t, o', e1, e2, e3, e4⟩ := main
  refine ⟨cs, t, e2, e2.scalars, ?_⟩
  intro hcase cs' hcs'
  by_cases ht : t = []
  · rw [if_pos ht] at hcs'
    subst hcs'
    exact ⟨o', by rw [cvtFull, e1, Option.map_some, if_pos ht], e3, e4⟩
  · rw [if_neg ht] at hcs'
    have hdd : d = .u32 := by rcases hcase with h | h; exacts [absurd h ht, h]
    subst hdd hcs'
    refine ⟨put o' (invalidUnits .u32 false), by rw [cvtFull, e1, Option.map_some]; simp only; rw [if_neg ht]; rfl, ?_, ?_⟩
    · simp only [put, e3, encText, List.flatMap_append, List.length_append]
      rfl
    · have h1 : encText .u32 (cs ++ [0xFFFD]) = encText .u32 cs ++ [0xFFFD] := by
        unfold encText; rw [List.flatMap_append]; rfl
      have h2 : (encText .u32 cs ++ [0xFFFD]).length = (encText .u32 cs).length + 1 := by simp
      rw [h1, h2]
      simp only [put, invalidUnits]
      have h3 := (load_eq_iff o'.1 o.2 (encText .u32 cs)).mp e4
      have h4 : ∀ i (hi : i < (encText .u32 cs ++ [0xFFFD]).length),
          store o'.1 o'.2 [0xFFFD] (o.2 + i) = (encText .u32 cs ++ [0xFFFD])[i] := by
        intro i hi
        by_cases hlt : i < (encText .u32 cs).length
        · rw [List.getElem_append_left hlt, store_outside _ _ _ _ (by omega), h3 i hlt]
        · rw [List.length_append, List.length_singleton] at hi
          have hi' : i = (encText .u32 cs).length := by omega
          subst hi'
          rw [List.getElem_append_right (le_refl _), e3, store_apply]
          simp
      have h5 := (load_eq_iff (store o'.1 o'.2 [0xFFFD]) o.2 (encText .u32 cs ++ [0xFFFD])).mpr h4
      rwa [h2] at h5

/-- With pending input kept between writes, UTF-8 input of any content always gives the encoding of the text read. -/
theorem c16_stream (d : Enc) (hd : d ≠ .u8) (sse : Bool) (ls : List (List Nat)) (hb : ∀ u ∈ ls.flatten, u < 256) (o : Out) :
    ∃ cs t o', cvtChunks .u8 ⟨d, false, sse⟩ [] ls o = some (t, o') ∧ Reads .u8 ls.flatten cs t ∧ (∀ x ∈ cs, Scalar x) ∧
      o'.2 = o.2 + (encText d cs).length ∧ load o'.1 o.2 (encText d cs).length = encText d cs := by
  obtain ⟨cs, t, o', e1, e2, e3, e4⟩ := chunks_ok .u8 ⟨d, false, sse⟩ (fun l => ∀ u ∈ l, u < 256)
    (fun st l hl hst => state_u8 ⟨d, false, sse⟩ hd (fun _ => Or.inr rfl) st l hst (fun u hu => hl u (by simp [hu])))
    (fun a b h u hu => h u (by simp [hu])) (fun a b h u hu => h u (by simp [hu])) ls [] (Or.inl rfl) (by simpa using hb) o
  exact ⟨cs, t, o', e1, by simpa using e2, e2.scalars, e3, e4.2.1⟩

/-- Overlong, surrogate and out-of-range UTF-8 is read as U+FFFD. -/
example : cvtFull .u8 ⟨.u32, false, false⟩ [0xC0, 0x80, 0x41, 0xED, 0xA0, 0x80, 0xF4, 0x90, 0x42] (fun _ => 0, 0) ≠ none ∧
    (cvtFull .u8 ⟨.u32, false, false⟩ [0xC0, 0x80, 0x41, 0xED, 0xA0, 0x80, 0xF4, 0x90, 0x42] (fun _ => 0, 0)).map (fun o => load o.1 0 o.2) =
      some [0xFFFD, 0xFFFD, 0x41, 0xFFFD, 0xFFFD, 0xFFFD, 0x42] := by
  decide +kernel

/-- Violated: for input that ends within a character the replacement overwrites the beginning of the output, and the place at the end is
left as it was: the output depends on what the memory contained before. -/
theorem c16_truncated_violated : ∀ m : Mem, (cvtFull .u8 ⟨.u16, false, false⟩ [0x41, 0xC3] (m, 0)).map (fun o => (o.2, load o.1 0 2)) =
    some (2, [0xFFFD, m 1]) := by
  intro m
  have e : cvt .u8 ⟨.u16, false, false⟩ [0x41, 0xC3] (m, 0) = some ([0xC3], put (m, 0) [0x41]) := rfl
  rw [cvtFull, e]
  simp [put, invalidUnits, bsw, load, store, List.range_succ]

theorem not_wf8 {l r : List Nat} {u : Nat} {t : List Nat} (hl : l = u :: t) (hu : u ≠ 0xEF) (hb : ∀ x ∈ l, x < 256)
    (h : advance l = some (some (r, 0xFFFD))) : ¬ WellFormed .u8 l := by
  rintro ⟨cs, hcs, e⟩
  rcases cs with _ | ⟨c, cs⟩
  · rw [e] at hl; simp [encText] at hl
  · have e' : l = enc8 c ++ encText .u8 cs := by rw [e]; simp [encText, enc]
    have hb' : ∀ x ∈ encText .u8 cs, x < 256 := fun x hx => hb x (by rw [e']; simp [hx])
    have h2 := advance_char c (hcs c (by simp)) (encText .u8 cs) hb'
    rw [← e', h] at h2
    simp only [Option.some.injEq, Prod.mk.injEq] at h2
    have h3 : enc8 c = [0xEF, 0xBF, 0xBD] := by rw [← h2.2]; decide
    rw [e', h3] at hl
    simp at hl
    exact hu hl.1.symm

/-- C16 (partial: surrogates excluded, see `c16_utf32_violated`; only to UTF-8, see `c16_utf32_range_violated`): UTF-32
units beyond U+10FFFF are replaced by U+FFFD, all others are encoded. -/
theorem c16_utf32_partial (sse : Bool) (l : List Nat) (h : ∀ u ∈ l, Scalar u ∨ 0x10FFFF < u) (o : Out) :
    let cs := l.map fun u => if 0x10FFFF < u then 0xFFFD else u
    ∃ o', cvtFull .u32 ⟨.u8, false, sse⟩ l o = some o' ∧ o'.2 = o.2 + (encText .u8 cs).length ∧
      load o'.1 o.2 (encText .u8 cs).length = encText .u8 cs := by
  intro cs
  have hcs : ∀ x ∈ cs, Scalar x := by
    intro x hx
    obtain ⟨u, hu, rfl⟩ := List.mem_map.mp hx
    split
    · unfold Scalar; omega
    · rcases h u hu with h | h
      · exact h
      · omega
  have hloop : ∀ (l : List Nat) (o : Out), loop32 .u8 false l o = loop32 .u8 false (l.map fun u => if 0x10FFFF < u then 0xFFFD else u) o := by
    intro l
    induction l with
    | nil => intro o; rfl
    | cons u l ih =>
      intro o
      simp only [List.map_cons, loop32]
      have : codeUnits .u8 false u = codeUnits .u8 false (if 0x10FFFF < u then 0xFFFD else u) := by
        split
        · rename_i hu
          simp only [codeUnits]
          rw [if_neg (by omega), if_neg (by omega), if_neg (by omega), if_neg (by omega)]
          decide +kernel
        · rfl
      rw [this]
      congr 1
      funext v
      exact ih _
  obtain ⟨o', e1, e2, e3⟩ := c15_text .u32 .u8 sse cs hcs o
  refine ⟨o', ?_, e2, e3⟩
  have henc : encText .u32 cs = cs := List.flatMap_singleton' cs
  rw [henc] at e1
  rw [← e1]
  simp only [cvtFull, cvt]
  simp only [reduceCtorEq, false_and, if_false, hloop l o]
  rfl

example : (cvtFull .u32 ⟨.u8, false, false⟩ [0x20AC, 0x110000, 0x41] (fun _ => 0, 0)).map (fun o => load o.1 0 o.2) =
    some [0xE2, 0x82, 0xAC, 0xEF, 0xBF, 0xBD, 0x41] := by decide +kernel

/-- Violated: surrogates in UTF-32 input are encoded instead of replaced; the UTF-8 written is ill-formed. -/
theorem c16_utf32_violated : ∃ o', cvtFull .u32 ⟨.u8, false, false⟩ [0xD800] (fun _ => 0, 0) = some o' ∧
    ¬ WellFormed .u8 (load o'.1 0 o'.2) := by
  refine ⟨put (fun _ => 0, 0) [0xED, 0xA0, 0x80], rfl, ?_⟩
  have : load (put (fun _ => 0, 0) [0xED, 0xA0, 0x80]).1 0 (put (fun _ => 0, 0) [0xED, 0xA0, 0x80]).2 = [0xED, 0xA0, 0x80] := by decide +kernel
  rw [this]
  exact not_wf8 rfl (by decide) (by decide) (r := [0x80]) (by decide +kernel)

/-- Violated: UTF-32 beyond U+10FFFF becomes an unpaired surrogate sequence in UTF-16. -/
theorem c16_utf32_range_violated : (cvtFull .u32 ⟨.u16, false, false⟩ [0x110000] (fun _ => 0, 0)).map (fun o => load o.1 0 o.2) =
    some [0xDC00, 0xDC00] := by decide +kernel

/-- Violated: between equal encodings everything is copied, well-formed or not. -/
theorem c16_same_violated : ∃ o', cvtFull .u8 ⟨.u8, false, false⟩ [0xFF] (fun _ => 0, 0) = some o' ∧
    ¬ WellFormed .u8 (load o'.1 0 o'.2) := by
  refine ⟨put (fun _ => 0, 0) [0xFF], rfl, ?_⟩
  have : load (put (fun _ => 0, 0) [0xFF]).1 0 (put (fun _ => 0, 0) [0xFF]).2 = [0xFF] := by decide +kernel
  rw [this]
  exact not_wf8 rfl (by decide) (by decide) (r := []) (by decide +kernel)

/-- Violated: UTF-EBCDIC input encoding a surrogate is converted to ill-formed UTF-8. -/
theorem c16_ebcdic_violated : ∃ o', cvtFull .ebcdic ⟨.u8, false, false⟩ (enc .ebcdic 0xD800) (fun _ => 0, 0) = some o' ∧
    ¬ WellFormed .u8 (load o'.1 0 o'.2) := by
  refine ⟨put (fun _ => 0, 0) [0xED, 0xA0, 0x80], rfl, ?_⟩
  have : load (put (fun _ => 0, 0) [0xED, 0xA0, 0x80]).1 0 (put (fun _ => 0, 0) [0xED, 0xA0, 0x80]).2 = [0xED, 0xA0, 0x80] := by decide +kernel
  rw [this]
  exact not_wf8 rfl (by decide) (by decide) (r := [0x80]) (by decide +kernel)

/-- Violated: towards UTF-EBCDIC the constant written for ill-formed UTF-16 is not U+FFFD but the byte order mark U+FEFF. -/
theorem c16_ebcdic_replacement_violated : (cvtFull .u16 ⟨.ebcdic, false, false⟩ [0xDC00] (fun _ => 0, 0)).map (fun o => load o.1 0 o.2) =
    some (enc .ebcdic 0xFEFF) ∧ enc .ebcdic 0xFEFF ≠ enc .ebcdic 0xFFFD := by decide +kernel

/-! ## C17: chunks -/

/-- UTF-8 input of any content: the output and the pending bytes depend on the bytes written only, not on their split into writes. -/
theorem c17_utf8 (c : Cfg) (hd : c.d ≠ .u8) (hs : c.sse = true → c.d = .ebcdic ∨ c.swap = false) (l : List Nat) (hb : ∀ u ∈ l, u < 256) :
    ∃ cs t, Reads .u8 l cs t ∧ ∀ ls : List (List Nat), ls.flatten = l → ∀ o : Out,
      ∃ o', cvtChunks .u8 c [] ls o = some (t, o') ∧ o'.2 = o.2 + (encOut c.d c.swap cs).length ∧
        load o'.1 o.2 (encOut c.d c.swap cs).length = encOut c.d c.swap cs := by
  have key : ∀ ls : List (List Nat), ls.flatten = l → ∀ o : Out, ∃ cs t o', cvtChunks .u8 c [] ls o = some (t, o') ∧ Reads .u8 l cs t ∧
      o'.2 = o.2 + (encOut c.d c.swap cs).length ∧ load o'.1 o.2 (encOut c.d c.swap cs).length = encOut c.d c.swap cs := by
    rintro ls rfl o
    obtain ⟨cs, t, o', e1, e2, e3, e4⟩ := chunks_ok .u8 c (fun l => ∀ u ∈ l, u < 256)
      (fun st l hl hst => state_u8 c hd hs st l hst (fun u hu => hl u (by simp [hu])))
      (fun a b h u hu => h u (by simp [hu])) (fun a b h u hu => h u (by simp [hu])) ls [] (Or.inl rfl) (by simpa using hb) o
    exact ⟨cs, t, o', e1, by simpa using e2, e3, e4.2.1⟩
  obtain ⟨cs, t, _, _, hr, _, _⟩ := key [l] (by simp) (fun _ => 0, 0)
  refine ⟨cs, t, hr, ?_⟩
  intro ls hls o
  obtain ⟨cs', t', o', e1, e2, e3, e4⟩ := key ls hls o
  obtain ⟨rfl, rfl⟩ := Reads.det (prefixFree .u8) hr e2
  exact ⟨o', e1, e3, e4⟩

/-- The same for UTF-16, of any content in which no high surrogate is followed by something that is not a low surrogate. Missing: such
input, for which the claim is false. -/
theorem c17_utf16_partial (c : Cfg) (hd : c.d ≠ .u16 ∧ (c.swap = true → c.d ≠ .u32)) (he : c.d ≠ .ebcdic) (l : List Nat)
    (hb : ∀ u ∈ l, u < 2 ^ 16)
    (hp : ∀ i h x, l[i]? = some h → l[i + 1]? = some x → 0xD800 ≤ h → h < 0xDC00 → 0xDC00 ≤ x ∧ x < 0xE000) :
    ∃ cs t, Reads .u16 l cs t ∧ ∀ ls : List (List Nat), ls.flatten = l → ∀ o : Out,
      ∃ o', cvtChunks .u16 c [] ls o = some (t, o') ∧ o'.2 = o.2 + (encOut c.d c.swap cs).length ∧
        load o'.1 o.2 (encOut c.d c.swap cs).length = encOut c.d c.swap cs := by
  have hp1 : ∀ a b : List Nat, ((∀ u ∈ a ++ b, u < 2 ^ 16) ∧ Paired (a ++ b)) → (∀ u ∈ a, u < 2 ^ 16) ∧ Paired a := by
    rintro a b ⟨h1, h2⟩
    refine ⟨fun u hu => h1 u (by simp [hu]), ?_⟩
    intro i h x e1 e2 g1 g2
    have l1 := (List.getElem?_eq_some_iff.mp e1).1
    have l2 := (List.getElem?_eq_some_iff.mp e2).1
    exact h2 i h x (by rw [List.getElem?_append_left l1]; exact e1) (by rw [List.getElem?_append_left l2]; exact e2) g1 g2
  have hp2 : ∀ a b : List Nat, ((∀ u ∈ a ++ b, u < 2 ^ 16) ∧ Paired (a ++ b)) → (∀ u ∈ b, u < 2 ^ 16) ∧ Paired b := by
    rintro a b ⟨h1, h2⟩
    refine ⟨fun u hu => h1 u (by simp [hu]), ?_⟩
    intro i h x e1 e2 g1 g2
    refine h2 (a.length + i) h x ?_ ?_ g1 g2
    · rw [List.getElem?_append_right (by omega), Nat.add_sub_cancel_left]; exact e1
    · rw [List.getElem?_append_right (by omega), show a.length + i + 1 - a.length = i + 1 by omega]; exact e2
  have key : ∀ ls : List (List Nat), ls.flatten = l → ∀ o : Out, ∃ cs t o', cvtChunks .u16 c [] ls o = some (t, o') ∧ Reads .u16 l cs t ∧
      o'.2 = o.2 + (encOut c.d c.swap cs).length ∧ load o'.1 o.2 (encOut c.d c.swap cs).length = encOut c.d c.swap cs := by
    rintro ls rfl o
    obtain ⟨cs, t, o', e1, e2, e3, e4⟩ := chunks_ok .u16 c (fun l => (∀ u ∈ l, u < 2 ^ 16) ∧ Paired l)
      (fun st l hl hst => state_u16 c hd he st l hst (fun u hu => hl.1 u (by simp [hu])) hl.2)
      hp1 hp2 ls [] (Or.inl rfl) (by simp only [List.nil_append]; exact ⟨hb, hp⟩) o
    exact ⟨cs, t, o', e1, by simpa using e2, e3, e4.2.1⟩
  obtain ⟨cs, t, _, _, hr, _, _⟩ := key [l] (by simp) (fun _ => 0, 0)
  refine ⟨cs, t, hr, ?_⟩
  intro ls hls o
  obtain ⟨cs', t', o', e1, e2, e3, e4⟩ := key ls hls o
  obtain ⟨rfl, rfl⟩ := Reads.det (prefixFree .u16) hr e2
  exact ⟨o', e1, e3, e4⟩

/-- Well-formed text in any encoding, cut anywhere (also within characters): the writes together give the encoding of the text. -/
theorem c17_text (s d : Enc) (hsd : s ≠ d) (sse : Bool) (cs : List Nat) (h : ∀ x ∈ cs, Scalar x) (ls : List (List Nat))
    (hls : ls.flatten = encText s cs) (o : Out) :
    ∃ o', cvtChunks s ⟨d, false, sse⟩ [] ls o = some ([], o') ∧ o'.2 = o.2 + (encText d cs).length ∧
      load o'.1 o.2 (encText d cs).length = encText d cs := by
  obtain ⟨o', e1, e2, e3⟩ := chunks_text s ⟨d, false, sse⟩ ⟨by simp, by simp⟩ hsd ls [] cs [] (Or.inl rfl) h (Or.inl rfl) (by simpa using hls) o
  exact ⟨o', e1, e2, e3.2.1⟩

/-- UTF-32 input of any content, and equal encodings: writes are simply concatenated. -/
theorem c17_utf32 (d : Enc) (sse : Bool) (l : List Nat) (hd : d ≠ .u32) (ls : List (List Nat)) (hls : ls.flatten = l) (o : Out) :
    cvtChunks .u32 ⟨d, false, sse⟩ [] ls o = (loop32 d false l o).map fun o => ([], o) := by
  have happ : ∀ (a b : List Nat) (o : Out), loop32 d false (a ++ b) o = (loop32 d false a o).bind fun o => loop32 d false b o := by
    intro a
    induction a with
    | nil => intro b o; rfl
    | cons x a ih =>
      intro b o
      simp only [List.cons_append, loop32, ih, Option.bind_assoc]
  subst hls
  induction ls generalizing o with
  | nil => rfl
  | cons a ls ih =>
    rw [List.flatten_cons, happ]
    simp only [cvtChunks, cvtState, cvt]
    rw [if_neg (fun h => hd h.1.symm), if_neg (fun h => hd h.symm)]
    cases loop32 d false a o with
    | none => rfl
    | some o' => exact ih o'

example : ([[0xE2], [], [0x82, 0xAC, 0xF0, 0x9F], [0x98, 0x80]] : List (List Nat)).flatten = encText .u8 [0x20AC, 0x1F600] := by decide +kernel

/-- Violated: a high surrogate and the unit after it are replaced by one U+FFFD in one write, but the unit survives in the next write. -/
theorem c17_utf16_violated : (cvtChunks .u16 ⟨.u8, false, false⟩ [] [[0xD800, 0x41]] (fun _ => 0, 0)).map (fun r => load r.2.1 0 r.2.2) =
      some [0xEF, 0xBF, 0xBD] ∧
    (cvtChunks .u16 ⟨.u8, false, false⟩ [] [[0xD800], [0x41]] (fun _ => 0, 0)).map (fun r => load r.2.1 0 r.2.2) =
      some [0xEF, 0xBF, 0xBD, 0x41] := by decide +kernel

/-- Violated: ill-formed UTF-EBCDIC is accepted in one write; split within the ill-formed piece the source pointer moves before the chunk
(undefined behaviour). -/
theorem c17_ebcdic_violated : cvtChunks .ebcdic ⟨.u8, false, false⟩ [] [[0xDD, 0xC1, 0xC1, 0xC1]] (fun _ => 0, 0) ≠ none ∧
    cvtChunks .ebcdic ⟨.u8, false, false⟩ [] [[0xDD, 0xC1], [0xC1, 0xC1]] (fun _ => 0, 0) = none := by
  constructor
  · have : (cvtChunks .ebcdic ⟨.u8, false, false⟩ [] [[0xDD, 0xC1, 0xC1, 0xC1]] (fun _ => 0, 0)).isSome = true := by decide +kernel
    intro h
    rw [h] at this
    exact absurd this (by decide)
  · have : (cvtChunks .ebcdic ⟨.u8, false, false⟩ [] [[0xDD, 0xC1], [0xC1, 0xC1]] (fun _ => 0, 0)).isSome = false := by decide +kernel
    simpa using this

/-! ## C58: only what is ill-formed is replaced -/

/-- After input that does not end within a character, a well-formed text is preserved entirely, whatever came before. -/
theorem c58_after_partial (d : Enc) (hd : d ≠ .u8) (sse : Bool) (a cs cs' : List Nat) (hb : ∀ u ∈ a, u < 256) (ha : Reads .u8 a cs [])
    (h : ∀ x ∈ cs', Scalar x) (o : Out) :
    ∃ o', cvtFull .u8 ⟨d, false, sse⟩ (a ++ encText .u8 cs') o = some o' ∧ o'.2 = o.2 + (encText d (cs ++ cs')).length ∧
      load o'.1 o.2 (encText d (cs ++ cs')).length = encText d (cs ++ cs') := by
  have hr : Reads .u8 (a ++ encText .u8 cs') (cs ++ cs') [] := ha.append (by simpa using reads_text cs' h [] (Or.inl rfl) (e := .u8))
  obtain ⟨cs2, t, o', e1, e2, e3, e4⟩ := cvt_u8 ⟨d, false, sse⟩ hd (fun _ => Or.inr rfl) (a ++ encText .u8 cs') (fun u hu => by
    rw [List.mem_append] at hu
    rcases hu with hu | hu
    exacts [hb u hu, text_lt h u hu]) o
  obtain ⟨rfl, rfl⟩ := Reads.det (prefixFree .u8) hr e2
  exact ⟨o', by rw [cvtFull, e1, Option.map_some]; rfl, e3, e4.2.1⟩

example : Reads .u8 [0x80, 0x41] [0xFFFD, 0x41] [] :=
  .bad [0x80] [0x41] _ _ (by
    refine ⟨by simp, ?_, Or.inl rfl⟩
    intro c hc
    have := hc.1
    simp only [enc, enc8]
    split_ifs <;> simp [List.cons_prefix_cons] <;> omega) (.char 0x41 [] [] [] (by decide) (.done [] (Or.inl rfl)))

/-- Violated: an unfinished sequence takes the next character with it: the letter A after the byte C2 is lost. -/
theorem c58_swallowed_violated : (cvtFull .u8 ⟨.u32, false, false⟩ ([0xC2] ++ encText .u8 [0x41, 0x42]) (fun _ => 0, 0)).map
    (fun o => load o.1 0 o.2) = some [0xFFFD, 0x42] := by decide +kernel

/-! ## C59: the reserved space suffices -/

theorem fullReserve_eq {s d : Enc} {n k : Nat} (h : fullReserve s d n = some k) : k = factor s d * n := by
  unfold fullReserve at h
  cases s <;> cases d <;> simp only [Enc.bytes, factor] at h ⊢ <;> norm_num at h ⊢ <;> omega

theorem decoReserve_ge {s d : Enc} {n k : Nat} (h : decoReserve s d n = some k) :
    factor s d * n + factor s d * (match s.bytes with | 4 => 0 | 2 => 1 | _ => 7) ≤ k := by
  unfold decoReserve at h
  cases s <;> cases d <;> simp only [Enc.bytes, factor, fullReserve] at h ⊢ <;> norm_num at h ⊢ <;> omega

/-- Whatever the input, a conversion writes only within the space reserved for its length, and ends within it. -/
theorem c59_full (s d : Enc) (sse : Bool) (l : List Nat) (hb : ∀ u ∈ l, u < 2 ^ (8 * s.bytes)) (k : Nat) (hk : fullReserve s d l.length = some k)
    (o : Out) : ∃ o', cvtFull s ⟨d, false, sse⟩ l o = some o' ∧ o.2 ≤ o'.2 ∧ o'.2 ≤ o.2 + k ∧
      ∀ a, a < o.2 ∨ o.2 + k ≤ a → o'.1 a = o.1 a := by
  have := fullReserve_eq hk
  subst this
  obtain ⟨t, o', e1, e2, _, e4, e5⟩ := cvt_bound s d sse l hb o
  rw [cvtFull, e1, Option.map_some]
  by_cases ht : t = []
  · refine ⟨o', by simp only; rw [if_pos ht], e4.1, e4.2.1, e4.2.2⟩
  · have hi := invalid_bound s d false
    have h1 : 1 ≤ t.length := List.length_pos_iff.mpr ht
    have h2 : factor s d * 1 ≤ factor s d * t.length := Nat.mul_le_mul_left _ h1
    have h3 : factor s d * t.length ≤ factor s d * l.length := Nat.mul_le_mul_left _ e2
    have h0 := e4.1
    simp only
    rw [if_neg ht]
    split_ifs with hd
    · refine ⟨_, rfl, by simp only [put]; omega, by simp only [put]; omega, ?_⟩
      intro a ha
      simp only [put]
      rw [store_outside _ _ _ a (by omega)]
      exact e4.2.2 a ha
    · refine ⟨_, rfl, by simp only; omega, by simp only; omega, ?_⟩
      intro a ha
      simp only
      rw [store_outside _ _ _ a (by omega)]
      exact e4.2.2 a ha

/-- Every write to a converting stream, with whatever is pending, stays within the space reserved for its length (UTF-8 source). -/
theorem c59_deco_utf8 (d : Enc) (hd : d ≠ .u8) (sse : Bool) (st l : List Nat) (hst : st = [] ∨ Incomplete .u8 st) (hb : ∀ u ∈ l, u < 256)
    (k : Nat) (hk : decoReserve .u8 d l.length = some k) (o : Out) :
    ∃ t o', cvtState .u8 ⟨d, false, sse⟩ st l o = some (t, o') ∧ (t = [] ∨ Incomplete .u8 t) ∧ o.2 ≤ o'.2 ∧ o'.2 ≤ o.2 + k ∧
      ∀ a, a < o.2 ∨ o.2 + k ≤ a → o'.1 a = o.1 a := by
  have hk := decoReserve_ge hk
  simp only [Enc.bytes] at hk
  obtain ⟨cs, t, o', e1, e2, e3, e4⟩ := state_u8 ⟨d, false, sse⟩ hd (fun _ => Or.inr rfl) st l hst hb o
  have h7 : st.length ≤ 7 := by
    rcases hst with h | h
    · rw [h]; simp
    · have := incomplete_len h; omega
  have hm : factor .u8 d * (st.length + l.length) ≤ k := by
    rw [Nat.mul_add]
    have : factor .u8 d * st.length ≤ factor .u8 d * 7 := Nat.mul_le_mul_left _ h7
    omega
  have := e4.mono hm
  exact ⟨t, o', e1, e2.tail_ok, by omega, by rw [e3]; have := this.1; omega, this.2.2⟩

/-- The same for a UTF-16 source: at most one unit is pending. -/
theorem c59_deco_utf16 (d : Enc) (hd : d ≠ .u16) (sse : Bool) (st l : List Nat) (hst : st.length ≤ 1) (k : Nat)
    (hk : decoReserve .u16 d l.length = some k) (o : Out) :
    ∃ t o', cvtState .u16 ⟨d, false, sse⟩ st l o = some (t, o') ∧ t.length ≤ 1 ∧ o.2 ≤ o'.2 ∧ o'.2 ≤ o.2 + k ∧
      ∀ a, a < o.2 ∨ o.2 + k ≤ a → o'.1 a = o.1 a := by
  have hk := decoReserve_ge hk
  simp only [Enc.bytes, Nat.mul_one] at hk
  have fin : ∀ (l' : List Nat) (o1 : Out), ∃ t o', (cvt .u16 ⟨d, false, sse⟩ l' o1).map (fun r => (r.1.take 1, r.2)) = some (t, o') ∧
      t.length ≤ 1 ∧ Confined (factor .u16 d * l'.length) o1 o' := by
    intro l' o1
    obtain ⟨t, o', e1, e2, e3, e4, _⟩ := loop16_bound .u16 d false l'.length l' o1 (le_refl _)
    refine ⟨t.take 1, o', ?_, by simp, e4⟩
    unfold cvt
    rw [if_neg (fun h => hd h.1.symm), if_neg (fun h => hd h.symm)]
    simp only
    rw [e1, Option.map_some]
  unfold cvtState
  simp only
  rcases st with _ | ⟨hi, st⟩
  · obtain ⟨t, o', e1, e2, e3⟩ := fin l o
    have := e3.mono (by omega : _ ≤ k)
    exact ⟨t, o', e1, e2, this.1, this.2.1, this.2.2⟩
  · simp only
    split_ifs with hl
    · exact ⟨_, o, rfl, hst, le_refl _, by omega, fun _ _ => rfl⟩
    · rcases l with _ | ⟨v, l⟩
      · exact absurd rfl hl
      have hpend : ∃ l' u, u.length ≤ factor .u16 d ∧ l'.length ≤ (v :: l).length ∧ pending16 ⟨d, false, sse⟩ hi (v :: l) o = some (l', put o u) := by
        unfold pending16
        simp only
        split_ifs with h1 h2
        · exact ⟨l, _, by have := factor_pos .u16 d; simpa using this, by simp, rfl⟩
        · obtain ⟨u, u1, u2⟩ := codeUnits_bound .u16 d false (surrogates hi v)
          exact ⟨l, u, u2, by simp, by rw [u1, Option.map_some]⟩
        · exact ⟨v :: l, _, invalid_bound .u16 d false, le_refl _, rfl⟩
      obtain ⟨l', u, h1, h2, h3⟩ := hpend
      rw [h3, Option.bind_some]
      simp only
      obtain ⟨t, o', e1, e2, e3⟩ := fin l' (put o u)
      have h4 : factor .u16 d * l'.length ≤ factor .u16 d * (v :: l).length := Nat.mul_le_mul_left _ h2
      have := (Confined.put o u h1).trans e3 (by omega : _ ≤ k)
      exact ⟨t, o', e1, e2, this.1, this.2.1, this.2.2⟩

example : fullReserve .u8 .u16 100 = some 200 ∧ decoReserve .u8 .u16 100 = some 214 ∧ decoReserve .u16 .u8 100 = some 808 := by decide +kernel

/-! ## C60: the other byte order -/

/-- Texts are converted to the encoding of the same text in the other byte order: from UTF-32 to UTF-16; from UTF-16 to UTF-8; from UTF-8
without vector instructions; from UTF-EBCDIC. Missing: UTF-16 to UTF-32, UTF-8 with vector instructions, equal encodings. -/
theorem c60_swapped_partial (s : Enc) (c : Cfg) (hsd : s ≠ c.d) (h1 : s = .u16 → c.d ≠ .u32) (h2 : s = .u8 → c.sse = false)
    (cs : List Nat) (h : ∀ x ∈ cs, Scalar x) (o : Out) :
    ∃ o', cvtFull s c (encText s cs) o = some o' ∧ o'.2 = o.2 + (encOut c.d c.swap cs).length ∧
      load o'.1 o.2 (encOut c.d c.swap cs).length = encOut c.d c.swap cs := by
  obtain ⟨o', e1, e2, e3⟩ := cvt_whole s c ⟨fun _ => Or.inr ⟨hsd, h1⟩, fun hs hsse => by rw [h2 hs] at hsse; simp at hsse⟩ cs h o
  refine ⟨o', ?_, e2, e3.2.1⟩
  rw [cvtFull, e1, Option.map_some]
  rfl

example : encOut .u16 true [0x20AC, 0x10437] = [0xAC20, 0x01D8, 0x37DC] := by decide +kernel

/-- Violated: UTF-16 to UTF-16 of the other byte order stores every unit at the same place. -/
theorem c60_same_violated : (cvtFull .u16 ⟨.u16, true, false⟩ [0x41, 0x42] (fun _ => 0, 0)).map (fun o => (o.2, load o.1 0 2)) =
    some (0, [0x4200, 0]) := by decide +kernel

/-- Violated: surrogate pairs are not swapped towards UTF-32 while other characters are. -/
theorem c60_pair_violated : (cvtFull .u16 ⟨.u32, true, false⟩ [0x41, 0xD801, 0xDC37] (fun _ => 0, 0)).map (fun o => load o.1 0 2) =
    some [0x41000000, 0x10437] := by decide +kernel

/-- Violated: with vector instructions the characters at the front of UTF-8 text are not swapped while those at the end are. -/
theorem c60_vector_violated : (cvtFull .u8 ⟨.u16, true, true⟩ (List.replicate 17 0x41) (fun _ => 0, 0)).map (fun o => load o.1 0 o.2) =
    some (List.replicate 16 0x41 ++ [0x4100]) := by decide +kernel

end Verif.Utf
