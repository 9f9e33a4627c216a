import Verif.Gb.Stream
/-!
# C82: GB 18030, texts
-/
namespace Verif.Gb
open Verif

theorem flat_mapM : ∀ cs : List Nat, (∀ c ∈ cs, Utf.Scalar c) → ∃ us, cs.mapM encode = some us ∧ us.flatten = cs.flatMap gbOf
  | [], _ => ⟨[], rfl, rfl⟩
  | c :: cs, h => by
    obtain ⟨us, h1, h2⟩ := flat_mapM cs (fun x hx => h x (by simp [hx]))
    refine ⟨gbOf c :: us, ?_, by rw [List.flatten_cons, h2, List.flatMap_cons]⟩
    rw [List.mapM_cons, encode_gbOf c (h c (by simp)), h1]
    rfl

theorem chars_scalar {s : Source} (g : Good s) {l cs t : List Nat} (h : Chars s.adv l cs t) : Bytes l → ∀ c ∈ cs, Utf.Scalar c := by
  induction h with
  | done t h => intro _ c hc; cases hc
  | char l c n cs t hl ha _ ih =>
    intro hb x hx
    rcases List.mem_cons.mp hx with rfl | hx
    · rcases g.total l hl hb with ⟨c', n', e, hc, _⟩ | ⟨e, _⟩
      · rw [ha] at e
        simp only [Option.some.injEq, Prod.mk.injEq] at e
        rw [e.1]; exact hc
      · rw [ha] at e; cases e
    · exact ih (hb.drop n) x hx

/-- GB 18030 of any content, written at once or in pieces, with or without vector instructions: characters are read one after the other, until fewer than
four bytes are left that do not make a code; the output is their encoding, and at most three cells for each byte are written. -/
theorem c82_to_utf (d : Utf.Enc) (hd : d ≠ .ebcdic) (sse : Bool) (ls : List (List Nat)) (hb : ∀ x ∈ ls.flatten, x < 256) (o : Utf.Out) :
    ∃ cs t o1 o2, Chars advance ls.flatten cs t ∧ t.length < 4 ∧ (∀ c ∈ cs, Utf.Scalar c) ∧
      cvt gbSource (utfEmit d) sse ls.flatten o = some (t, o1) ∧ Output ((if d = .u8 then 3 else 1) * ls.flatten.length) o o1 (Utf.encText d cs) ∧
      cvtChunks gbSource (utfEmit d) sse [] ls o = some (t, o2) ∧ Output ((if d = .u8 then 3 else 1) * ls.flatten.length) o o2 (Utf.encText d cs) := by
  obtain ⟨cs, t, o1, e1, e2, e3, _⟩ := cvt_ok good_gb (fits_gb d hd) sse ls.flatten hb o
  obtain ⟨cs2, t2, o2, f1, f2, f3⟩ := chunks_ok good_gb (fits_gb d hd) sse ls [] (Or.inl rfl) (by simpa [Bytes] using hb) o
  rw [List.nil_append] at f2 f3
  obtain ⟨rfl, rfl⟩ := e2.det f2
  exact ⟨cs, t, o1, o2, e2, tail_short good_gb e2 hb, chars_scalar good_gb e2 hb, e1, e3, f1, f3⟩

example : (cvtChunks gbSource (utfEmit .u16) true [] [[0x41, 0xD6], [0xD0, 0x94, 0x39], [0xFC], [0x36, 0x81]] (fun _ => 0, 0)).map (fun r => (r.1, load r.2.1 0 r.2.2)) =
    some ([0x81], [0x41, 0x4E2D, 0xD83D, 0xDE00]) := by decide +kernel

/-- UTF-8 of any content to GB 18030, at once or in pieces. -/
theorem c82_from_utf8 (sse : Bool) (ls : List (List Nat)) (hb : ∀ x ∈ ls.flatten, x < 256) (o : Utf.Out) :
    ∃ cs t o1 o2 us, Utf.Reads .u8 ls.flatten cs t ∧ cs.mapM encode = some us ∧
      cvt utf8Source gbEmit sse ls.flatten o = some (t, o1) ∧ Output (4 * ls.flatten.length) o o1 us.flatten ∧
      cvtChunks utf8Source gbEmit sse [] ls o = some (t, o2) ∧ Output (4 * ls.flatten.length) o o2 us.flatten := by
  obtain ⟨cs, t, o1, e1, e2, e3, _⟩ := cvt_ok good_utf8 fits_utf8 sse ls.flatten hb o
  obtain ⟨cs2, t2, o2, f1, f2, f3⟩ := chunks_ok good_utf8 fits_utf8 sse ls [] (Or.inl rfl) (by simpa [Bytes] using hb) o
  rw [List.nil_append] at f2 f3
  obtain ⟨rfl, rfl⟩ := e2.det f2
  obtain ⟨us, g1, g2⟩ := flat_mapM cs (chars_scalar good_utf8 e2 hb)
  rw [← g2] at e3 f3
  exact ⟨cs, t, o1, o2, us, reads_of_chars e2 hb, g1, e1, e3, f1, f3⟩

example : (cvtChunks utf8Source gbEmit true [] [[0x41, 0xE4], [0xB8], [0xAD, 0xF0, 0x9F], [0x98, 0x80, 0xFF]] (fun _ => 0, 0)).map (fun r => (r.1, load r.2.1 0 r.2.2)) =
    some ([], [0x41, 0xD6, 0xD0, 0x94, 0x39, 0xFC, 0x36, 0x84, 0x31, 0xA4, 0x37]) := by decide +kernel

theorem gbOf_all (c : Nat) : encode c = some (gbOf c) ∧ (gbOf c).length ≤ 4 := by
  by_cases hc : Utf.Scalar c
  · exact ⟨encode_gbOf c hc, gbOf_length c hc⟩
  · have h1 := encode_gbOf 0xFFFD (by decide)
    have h2 := gbOf_length 0xFFFD (by decide)
    have h3 := c82_invalid c hc
    have h4 : gbOf c = gbOf 0xFFFD := by rw [gbOf, h3]; rfl
    rw [h4, h3]
    exact ⟨h1, h2⟩

theorem flat_length : ∀ cs : List Nat, (cs.flatMap gbOf).length ≤ 4 * cs.length
  | [] => by simp
  | c :: cs => by
    have := flat_length cs
    have := (gbOf_all c).2
    rw [List.flatMap_cons, List.length_append, List.length_cons]
    omega

theorem from32_eq : ∀ (l : List Nat) (o : Utf.Out), from32 l o = some (Utf.put o (l.flatMap gbOf))
  | [], o => by rw [from32, List.flatMap_nil, Utf.put_nil]
  | c :: l, o => by rw [from32, (gbOf_all c).1, Option.bind_some, from32_eq l, Utf.put_put, List.flatMap_cons]

theorem invalid_gb : invalidUnits = gbOf 0xFFFD := by decide +kernel

/-- UTF-32 of any content: what is no character becomes U+FFFD. -/
theorem c82_from_utf32 (l : List Nat) (o : Utf.Out) :
    ∃ o' us, from32 l o = some o' ∧ (l.map fun c => if Utf.Scalar c then c else 0xFFFD).mapM encode = some us ∧ Output (4 * l.length) o o' us.flatten := by
  obtain ⟨us, h1, h2⟩ := flat_mapM (l.map fun c => if Utf.Scalar c then c else 0xFFFD) (by
    intro c hc
    obtain ⟨x, _, rfl⟩ := List.mem_map.mp hc
    split_ifs with h
    · exact h
    · decide)
  have h3 : (l.map fun c => if Utf.Scalar c then c else 0xFFFD).flatMap gbOf = l.flatMap gbOf := by
    rw [List.flatMap_map]
    congr 1
    funext c
    split_ifs with h
    · rfl
    · rw [gbOf, gbOf, c82_invalid c h]
  exact ⟨_, us, from32_eq l o, h1, by rw [h2, h3]; exact Output.put _ _ _ (flat_length l)⟩

theorem from16_ok : ∀ (n : Nat) (l : List Nat) (o : Utf.Out), l.length ≤ n → (∀ u ∈ l, u < 2 ^ 16) →
    ∃ cs t, from16 l o = some (t, Utf.put o (cs.flatMap gbOf)) ∧ Utf.Reads .u16 l cs t ∧ cs.length + t.length ≤ l.length
  | _, [], o, _, _ => ⟨[], [], by rw [from16, List.flatMap_nil, Utf.put_nil], .done [] (Or.inl rfl), by simp⟩
  | n, c :: l, o, hn, hb => by
    have hc := hb c (by simp)
    have hbl : ∀ u ∈ l, u < 2 ^ 16 := fun u hu => hb u (by simp [hu])
    simp only [List.length_cons] at hn
    obtain ⟨n, rfl⟩ : ∃ k, n = k + 1 := ⟨n - 1, by omega⟩
    by_cases h1 : 0xD800 ≤ c ∧ c < 0xE000
    · have s1 : Utf.isSurrogate c = true := by rw [Utf.isSurrogate_iff c hc]; exact h1
      by_cases h2 : c < 0xDC00
      · have s2 : Utf.isHigh c = true := by rw [Utf.isHigh_iff c hc]; omega
        cases l with
        | nil => exact ⟨[], [c], by rw [from16, if_pos s1, if_pos s2, List.flatMap_nil, Utf.put_nil], .done _ (Or.inr (Utf.inc16 h1.1 h2)), by simp⟩
        | cons x l =>
          have hx := hb x (by simp)
          have hbl' : ∀ u ∈ l, u < 2 ^ 16 := fun u hu => hbl u (by simp [hu])
          simp only [List.length_cons] at hn
          by_cases h3 : 0xDC00 ≤ x ∧ x < 0xE000
          · obtain ⟨a, b⟩ := Utf.pair_ok h1.1 h2 h3.1 h3.2
            have s3 : Utf.isLow x = true := by rw [Utf.isLow_iff x hx]; exact h3
            rw [from16, if_pos s1, if_pos s2, if_pos s3, (gbOf_all _).1, Option.bind_some]
            obtain ⟨cs, t, e1, e2, e3⟩ := from16_ok n l (Utf.put o (gbOf (Utf.surrogates c x))) (by omega) hbl'
            refine ⟨Utf.surrogates c x :: cs, t, by rw [e1, Utf.put_put, List.flatMap_cons], ?_, by simp only [List.length_cons]; omega⟩
            have := Utf.Reads.char _ _ _ _ a e2
            simp only [Utf.enc] at this
            rwa [b] at this
          · have s3 : ¬ Utf.isLow x = true := by rw [Utf.isLow_iff x hx]; exact h3
            rw [from16, if_pos s1, if_pos s2, if_neg s3, invalid_gb]
            obtain ⟨cs, t, e1, e2, e3⟩ := from16_ok n l (Utf.put o (gbOf 0xFFFD)) (by omega) hbl'
            exact ⟨0xFFFD :: cs, t, by rw [e1, Utf.put_put, List.flatMap_cons], .bad [c, x] _ _ _ (Utf.bad16_pair h1.1 h2 h3) e2,
              by simp only [List.length_cons]; omega⟩
      · have s2 : ¬ Utf.isHigh c = true := by rw [Utf.isHigh_iff c hc]; omega
        have hstep : from16 (c :: l) o = from16 l (Utf.put o (gbOf 0xFFFD)) := by
          cases l with
          | nil => rw [from16, from16, if_pos s1, if_neg s2, invalid_gb]
          | cons x l => rw [from16, if_pos s1, if_neg s2, invalid_gb]
        obtain ⟨cs, t, e1, e2, e3⟩ := from16_ok n l (Utf.put o (gbOf 0xFFFD)) (by omega) hbl
        exact ⟨0xFFFD :: cs, t, by rw [hstep, e1, Utf.put_put, List.flatMap_cons], .bad [c] _ _ _ (Utf.bad16_low (by omega) h1.2) e2,
          by simp only [List.length_cons]; omega⟩
    · have hc' : c < 65536 := by norm_num at hc; exact hc
      have hsc : Utf.Scalar c := ⟨by omega, h1⟩
      have s1 : ¬ Utf.isSurrogate c = true := by rw [Utf.isSurrogate_iff c hc]; exact h1
      have hstep : from16 (c :: l) o = from16 l (Utf.put o (gbOf c)) := by
        cases l with
        | nil => rw [from16, from16, if_neg s1, (gbOf_all c).1, Option.bind_some]
        | cons x l => rw [from16, if_neg s1, (gbOf_all c).1, Option.bind_some]
      obtain ⟨cs, t, e1, e2, e3⟩ := from16_ok n l (Utf.put o (gbOf c)) (by omega) hbl
      refine ⟨c :: cs, t, by rw [hstep, e1, Utf.put_put, List.flatMap_cons], ?_, by simp only [List.length_cons]; omega⟩
      have := Utf.Reads.char c _ _ _ hsc e2
      simp only [Utf.enc, Utf.enc16] at this
      rwa [if_pos hc'] at this

/-- UTF-16 of any content. -/
theorem c82_from_utf16 (l : List Nat) (hb : ∀ u ∈ l, u < 2 ^ 16) (o : Utf.Out) :
    ∃ cs t o' us, Utf.Reads .u16 l cs t ∧ cs.mapM encode = some us ∧ from16 l o = some (t, o') ∧ Output (4 * l.length) o o' us.flatten := by
  obtain ⟨cs, t, e1, e2, e3⟩ := from16_ok l.length l o (le_refl _) hb
  obtain ⟨us, g1, g2⟩ := flat_mapM cs e2.scalars
  refine ⟨cs, t, _, us, e2, g1, e1, ?_⟩
  rw [g2]
  have := flat_length cs
  exact Output.put _ _ _ (by omega)

example : (from16 [0x4E2D, 0xD83D, 0xDE00, 0xDC00, 0x41, 0xD800] (fun _ => 0, 0)).map (fun r => (r.1, load r.2.1 0 r.2.2)) =
    some ([0xD800], [0xD6, 0xD0, 0x94, 0x39, 0xFC, 0x36, 0x84, 0x31, 0xA4, 0x37, 0x41]) := by decide +kernel

/-! ## There and back -/

theorem chars_gb : ∀ cs : List Nat, (∀ c ∈ cs, Utf.Scalar c ∧ ¬ Lost c) → Chars advance (cs.flatMap gbOf) cs []
  | [], _ => .done _ (Or.inl rfl)
  | c :: cs, h => by
    obtain ⟨hc, hl⟩ := h c (by simp)
    obtain ⟨l, h1, h2, d, h3, h4⟩ := c82_roundtrip_partial c hc
    have hd := h3.mpr hl
    subst hd
    have hg : gbOf d = l := by rw [gbOf, h1]; rfl
    rw [List.flatMap_cons, hg]
    refine .char _ d l.length _ _ (by simp [h2]) (h4 _) ?_
    rw [List.drop_left]
    exact chars_gb cs (fun x hx => h x (by simp [hx]))

theorem gbOf_bytes (c : Nat) (hc : Utf.Scalar c) : ∀ x ∈ gbOf c, x < 256 := by
  by_cases h0 : c < 0x80
  · rw [gbOf_ascii c h0]; intro x hx; rw [List.mem_singleton] at hx; omega
  rcases encode_cases c (by omega) hc.1 with ⟨e0, e1, k, hm, g1, g2, e⟩ | ⟨_, _, off, _, _, _, _, e⟩
  · have hk : c - e0 + k < 1587600 := by
      have : ∀ t ∈ computed, t.2.1 - t.1 + t.2.2 < 1587600 := by decide +kernel
      have := this _ hm
      simp only at this
      omega
    rw [gbOf, e]
    intro x hx
    simp only [Option.getD_some, four, List.mem_cons, List.not_mem_nil, or_false] at hx
    omega
  · rw [gbOf, e, lookupUni]
    simp only
    have he : entry uniTb 32 (c - off) < 2 ^ 32 := by rw [entry]; exact Nat.mod_lt _ (by norm_num)
    intro x hx
    split_ifs at hx with a b
    · simp only [Option.getD_some, List.mem_cons, List.not_mem_nil, or_false, Nat.shiftRight_eq_div_pow] at hx
      omega
    · simp only [Option.getD_some, List.mem_cons, List.not_mem_nil, or_false, Nat.shiftRight_eq_div_pow] at hx
      omega
    · cases hx

/-- A text without the lost characters comes back from GB 18030, in whatever pieces that is read. -/
theorem c82_text_partial (d : Utf.Enc) (hd : d ≠ .ebcdic) (sse : Bool) (cs : List Nat) (hcs : ∀ c ∈ cs, Utf.Scalar c ∧ ¬ Lost c) (ls : List (List Nat))
    (us : List (List Nat)) (hus : cs.mapM encode = some us) (hls : ls.flatten = us.flatten) (o : Utf.Out) :
    ∃ o', cvtChunks gbSource (utfEmit d) sse [] ls o = some ([], o') ∧ o'.2 = o.2 + (Utf.encText d cs).length ∧
      load o'.1 o.2 (Utf.encText d cs).length = Utf.encText d cs := by
  obtain ⟨us', g1, g2⟩ := flat_mapM cs (fun c hc => (hcs c hc).1)
  rw [hus] at g1
  cases g1
  have hb : ∀ x ∈ ls.flatten, x < 256 := by
    intro x hx
    rw [hls, g2, List.mem_flatMap] at hx
    obtain ⟨c, hc, hx⟩ := hx
    exact gbOf_bytes c (hcs c hc).1 x hx
  obtain ⟨cs', t, o1, o2, e1, _, _, _, _, e2, e3⟩ := c82_to_utf d hd sse ls hb o
  have hch := chars_gb cs hcs
  rw [← g2, ← hls] at hch
  obtain ⟨rfl, rfl⟩ := e1.det hch
  exact ⟨o2, e2, e3.1, e3.2.2.1⟩

example : (∀ c ∈ [0x41, 0x4E2D, 0x1F600, 0x1100, 0xE9], Utf.Scalar c ∧ ¬ Lost c) ∧ [0x41, 0x4E2D, 0x1F600, 0x1100, 0xE9].mapM encode =
    some [[0x41], [0xD6, 0xD0], [0x94, 0x39, 0xFC, 0x36], [0x81, 0x33, 0x9D, 0x36], [0xA8, 0xA6]] := by decide +kernel

end Verif.Gb
