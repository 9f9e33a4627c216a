import Verif.Gb.Advance
/-!
# C82: GB 18030
-/
namespace Verif.Gb
open Verif

/-! ## Characters -/

/-- A character beyond the basic plane gets the four-byte code in its place in the linear order. -/
theorem c82_supplementary (c : Nat) (h1 : 0x10000 ≤ c) (h2 : c < 0x110000) : encode c = some (four (189000 + (c - 0x10000))) := by
  rw [encode_computed 0x10000 0x110000 189000 c (by decide) h1 h2 (by omega) h2, Nat.add_comm]

example : encode 0x1F600 = some [0x94, 0x39, 0xFC, 0x36] ∧ encode 0x10FFFF = some [0xE3, 0x32, 0x9A, 0x35] := by decide +kernel

/-- Every character of the basic plane but U+E7C7 is stored as itself if it is ASCII, else as a two-byte code or as the four-byte code whose number is that of the
characters before it with four-byte codes. -/
theorem c82_bmp_partial (c : Nat) (hc : Utf.Scalar c) (h : c < 0x10000) (hne : c ≠ 0xE7C7) :
    ∃ l, encode c = some l ∧ (c < 0x80 ∧ l = [c] ∨ 0x80 ≤ c ∧ (IsTwo l ∨
      l = four (before (fun v => (encode v).map List.length == some 4 && v != 0xE7C7) c))) := by
  by_cases h0 : c < 0x80
  · exact ⟨[c], by rw [encode, if_pos h0], Or.inl ⟨h0, rfl⟩⟩
  · rcases bmp_all c (by omega) h hc hne with ⟨a, b, e1, e2, _⟩ | ⟨e1, _⟩
    · exact ⟨_, e1, Or.inr ⟨by omega, Or.inl e2⟩⟩
    · exact ⟨_, e1, Or.inr ⟨by omega, Or.inr rfl⟩⟩

example : encode 0x4E2D = some [0xD6, 0xD0] ∧ encode 0x20AC = some [0xA2, 0xE3] ∧ encode 0xF6 = some [0x81, 0x30, 0x8B, 0x32] ∧
    encode 0x3BB = some [0xA6, 0xCB] := by decide +kernel

/-- Violated: U+1E3F and U+E7C7 get the same code. -/
theorem c82_duplicate_violated : Utf.Scalar 0x1E3F ∧ Utf.Scalar 0xE7C7 ∧ encode 0x1E3F = some [0x81, 0x35, 0xF4, 0x37] ∧ encode 0xE7C7 = some [0x81, 0x35, 0xF4, 0x37] := by
  decide +kernel

/-- What is no character is stored as U+FFFD. -/
theorem c82_invalid (c : Nat) (hc : ¬ Utf.Scalar c) : encode c = encode 0xFFFD := by
  have e : encode 0xFFFD = some [0x84, 0x31, 0xA4, 0x37] := by decide +kernel
  rw [e]
  by_cases h : c < 0x110000
  · have hs : 0xD800 ≤ c ∧ c < 0xE000 := by simp only [Utf.Scalar] at hc; omega
    rw [encode_gap 0xD800 0xE865 27404 28096 c (by decide) hs.1 (by omega) (by omega) h, lookupUni, if_pos (by omega), surrogate_entry c hs.1 hs.2]
    rfl
  · rw [encode, if_neg (by omega), if_neg h]
    rfl

example : ¬ Utf.Scalar 0xDFFF ∧ ¬ Utf.Scalar 0x110000 := by decide

/-- Exactly the characters outside a list of ranges (1444 characters) are read back from what was written, whatever follows. -/
theorem c82_roundtrip_partial (c : Nat) (hc : Utf.Scalar c) :
    ∃ l, encode c = some l ∧ l ≠ [] ∧ ∃ d, (d = c ↔ ¬ Lost c) ∧ ∀ r, advance (l ++ r) = some (some (d, l.length)) := by
  by_cases h0 : c < 0x80
  · refine ⟨[c], by rw [encode, if_pos h0], by simp, c, ?_, fun r => by rw [List.singleton_append, adv1 c r (Or.inl h0), if_pos h0]; rfl⟩
    simp only [true_iff]
    have : ∀ r ∈ lostRanges, 0x80 ≤ r.1 := by decide +kernel
    rintro ⟨r, hr, h1, h2⟩
    have := this r hr
    omega
  by_cases h1 : c < 0x10000
  · by_cases h2 : c = 0xE7C7
    · subst h2
      exact ⟨four 7457, by decide +kernel, by simp [four], byIndex (1687218 + 7457), by decide +kernel, fun r => by rw [advance_four _ _ (by norm_num)]; rfl⟩
    rcases bmp_all c (by omega) h1 hc h2 with ⟨a, b, e1, e2, e3⟩ | ⟨e1, e2, e3⟩
    · have hx : (a - 0x81) * 190 + ((if 0x7F < b then b - 1 else b) - 0x40) < 23940 := by
        obtain ⟨a', b', e, g1, g2, g3, g4, g5⟩ := e2
        simp only [List.cons.injEq, and_true] at e
        obtain ⟨rfl, rfl⟩ := e
        split_ifs <;> omega
      refine ⟨_, e1, by simp, entry uni2Tb 20 ((a - 0x81) * 190 + ((if 0x7F < b then b - 1 else b) - 0x40)), ?_, fun r => ?_⟩
      · rw [← e3, lookup2, if_pos hx, Option.some_inj]
      · rw [List.cons_append, List.cons_append, List.nil_append, advance_two a b r e2, twoByte, lookup2, if_pos hx]; rfl
    · exact ⟨_, e1, by simp [four], _, e3, fun r => by rw [advance_four _ _ (by omega)]; rfl⟩
  · have hm := hc.1
    refine ⟨_, c82_supplementary c (by omega) hm, by simp [four], c, ?_, fun r => ?_⟩
    · simp only [true_iff]
      have : ∀ r ∈ lostRanges, r.2 < 0x10000 := by decide +kernel
      rintro ⟨r, hr, g1, g2⟩
      have := this r hr
      omega
    · rw [advance_four _ _ (by omega), byIndex_eq _ (by omega)]
      repeat rw [if_neg (by omega)]
      rw [if_pos (by omega)]
      simp only [four, Option.some.injEq, Prod.mk.injEq]
      exact ⟨by omega, rfl⟩

example : ¬ Lost 0x4E2D ∧ ¬ Lost 0xE9 ∧ ¬ Lost 0x1F600 ∧ ¬ Lost 0x3042 ∧ (lostRanges.map fun r => r.2 + 1 - r.1).sum = 1444 := by decide +kernel

/-- Violated: "ö" is written as 81 30 8B 32, as the standard has it, and read back as U+FFFD; U+FF5F is read back as U+FF00. -/
theorem c82_roundtrip_violated : encode 0xF6 = some [0x81, 0x30, 0x8B, 0x32] ∧ advance [0x81, 0x30, 0x8B, 0x32] = some (some (0xFFFD, 4)) ∧
    (encode 0xFF5F).bind advance = some (some (0xFF00, 4)) := by decide +kernel

/-- No input makes the reader go beyond the input or a table, and what is read is a character. Only fewer than four bytes are left to wait for more. -/
theorem c82_decode (l : List Nat) (hl : l ≠ []) (hb : ∀ x ∈ l, x < 256) :
    (∃ c n, advance l = some (some (c, n)) ∧ Utf.Scalar c ∧ 1 ≤ n ∧ n ≤ l.length) ∨ (advance l = some none ∧ l.length < 4) := by
  rcases advance_total l hl hb with ⟨c, n, h1, h2, h3, h4, _⟩ | h
  · exact Or.inl ⟨c, n, h1, h2, h3, h4⟩
  · exact Or.inr h

/-- Violated: bytes 3A to 3F are accepted in the place of digits, as other names of characters with larger codes. -/
theorem c82_alias_violated : advance [0x90, 0x30, 0x81, 0x3A] = advance (four 189010) ∧ four 189010 = [0x90, 0x30, 0x82, 0x30] ∧ advance (four 189010) = some (some (0x1000A, 4)) := by
  decide +kernel

/-- Violated: an ASCII character behind an invalid first byte is lost, a line feed for example. -/
theorem c82_swallow_violated : advance [0x81, 0x0A] = some (some (0xFFFD, 2)) := by decide +kernel

/-- Violated: the number 39420, which is no code, is read as a character. -/
theorem c82_unassigned_violated : advance (four 39420) = some (some (0xFFDF, 4)) := by decide +kernel

end Verif.Gb
