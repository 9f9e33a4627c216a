import Verif.Fs.Model
/-!
# C50: stem and extension of directory entries
-/
namespace Verif.Fs

theorem rfindDot_spec (nm : List Nat) : ∀ n, n ≤ nm.length →
    (rfindDot nm n = some 0 ∧ dot ∉ nm.take n) ∨
    ∃ s r, rfindDot nm n = some (s.length + 1) ∧ nm.take n = s ++ dot :: r ∧ dot ∉ r := by
  intro n
  induction n with
  | zero => intro _; left; simp [rfindDot]
  | succ n ih =>
    intro hn
    have hlt : n < nm.length := hn
    have htk : nm.take (n + 1) = nm.take n ++ [nm[n]] := by rw [List.take_succ_eq_append_getElem hlt]
    by_cases hc : nm[n] = 46
    · right
      refine ⟨nm.take n, [], ?_, ?_, by simp⟩
      · simp [rfindDot, hlt, hc, Nat.min_eq_left (Nat.le_of_lt hlt)]
      · rw [htk, hc]; rfl
    · have hst : rfindDot nm (n + 1) = rfindDot nm n := by simp [rfindDot, hlt, hc]
      rcases ih (Nat.le_of_lt hlt) with ⟨h1, h2⟩ | ⟨s, r, h1, h2, h3⟩
      · left
        refine ⟨by rw [hst, h1], ?_⟩
        rw [htk, List.mem_append, not_or]; exact ⟨h2, by simp only [List.mem_singleton]; exact fun h => hc h.symm⟩
      · right
        refine ⟨s, r ++ [nm[n]], by rw [hst, h1], by rw [htk, h2]; simp, ?_⟩
        rw [List.mem_append, not_or]; exact ⟨h3, by simp only [List.mem_singleton]; exact fun h => hc h.symm⟩

/-- The names on which the library deviates from the rules: `..` and `..x`, two leading periods and no other. -/
def TwoDots (nm : List Nat) : Prop := ∃ r, nm = dot :: dot :: r ∧ dot ∉ r

/-- Everything both functions return, for every name. -/
theorem results (nm : List Nat) :
    (dot ∉ nm ∧ stem nm = some ⟨0, nm.length⟩ ∧ extension nm = some ⟨nm.length, 0⟩) ∨
    (∃ s r, nm = s ++ dot :: r ∧ dot ∉ r ∧
      ((s = [] ∨ (s = [dot] ∧ r ≠ []) → stem nm = some ⟨0, nm.length⟩ ∧ extension nm = some ⟨nm.length, 0⟩) ∧
       (¬ (s = [] ∨ (s = [dot] ∧ r ≠ [])) → stem nm = some ⟨0, s.length - 1⟩ ∧ extension nm = some ⟨s.length, nm.length - s.length⟩))) := by
  rcases rfindDot_spec nm nm.length (Nat.le_refl _) with ⟨h1, h2⟩ | ⟨s, r, h1, h2, h3⟩
  · left
    rw [List.take_length] at h2
    refine ⟨h2, ?_, ?_⟩ <;> simp [stem, extension, h1, noExt]
  · right
    rw [List.take_length] at h2
    refine ⟨s, r, h2, h3, ?_, ?_⟩
    · rintro (hs | ⟨hs, hr⟩)
      · subst hs; constructor <;> simp [stem, extension, h1, noExt]
      · subst hs
        have hl : 2 < nm.length := by
          rw [h2]; cases r with
          | nil => exact absurd rfl hr
          | cons => simp
        have h0 : nm[0]? = some 46 := by rw [h2]; simp [dot]
        constructor <;> simp [stem, extension, h1, noExt, hl, h0]
    · intro hn
      have hs : 1 ≤ s.length := by
        rcases s with _ | ⟨x, s⟩
        · simp at hn
        · simp
      have hc : noExt nm (s.length + 1) = some false := by
        unfold noExt
        rw [if_neg (by omega)]
        by_cases hq : s.length + 1 = 2 ∧ 2 < nm.length
        · rw [if_pos hq]
          obtain ⟨x, rfl⟩ : ∃ x, s = [x] := by
            rcases s with _ | ⟨x, _ | ⟨y, s⟩⟩ <;> simp at hq hs ⊢
          have hx : x ≠ 46 := by
            intro hx
            apply hn
            right
            refine ⟨by rw [hx]; rfl, ?_⟩
            rintro rfl
            rw [h2] at hq; simp at hq
          rw [h2]; simp [hx]
        · rw [if_neg hq]
      constructor <;> simp [stem, extension, h1, hc]

/-- Both functions read and return only characters of the name, for every name. -/
theorem c50_inside (nm : List Nat) : ∃ v w a b, stem nm = some v ∧ extension nm = some w ∧ v.text nm = some a ∧ w.text nm = some b := by
  rcases results nm with ⟨_, h1, h2⟩ | ⟨s, r, hn, _, hA, hB⟩
  · refine ⟨_, _, _, _, h1, h2, by simp [View.text]; rfl, by simp [View.text]; rfl⟩
  · by_cases hc : s = [] ∨ (s = [dot] ∧ r ≠ [])
    · obtain ⟨h1, h2⟩ := hA hc
      refine ⟨_, _, _, _, h1, h2, by simp [View.text]; rfl, by simp [View.text]; rfl⟩
    · obtain ⟨h1, h2⟩ := hB hc
      have hl : s.length ≤ nm.length := by rw [hn]; simp
      refine ⟨_, _, nm.take (s.length - 1), nm.drop s.length, h1, h2, ?_, ?_⟩
      · unfold View.text; rw [if_pos (by simp; omega)]; simp
      · unfold View.text
        rw [if_pos (by simp; omega)]
        simp only [Option.some.injEq]
        rw [List.take_of_length_le (by simp)]

/-- `extension(entry)` is the extension of the entry's name, for every name except `..` and the names `..x`. -/
theorem c50_extension_partial (nm : List Nat) (h : ¬ TwoDots nm) : ∃ w e, extension nm = some w ∧ w.text nm = some e ∧ IsExtension nm e := by
  rcases results nm with ⟨hd, _, h2⟩ | ⟨s, r, hn, hr, hA, hB⟩
  · exact ⟨_, [], h2, by simp [View.text], Or.inl ⟨rfl, Or.inl hd⟩⟩
  · by_cases hc : s = [] ∨ (s = [dot] ∧ r ≠ [])
    · refine ⟨_, [], (hA hc).2, by simp [View.text], Or.inl ⟨rfl, ?_⟩⟩
      rcases hc with hs | ⟨hs, _⟩
      · right; right; right; exact ⟨r, by rw [hn, hs]; rfl, hr⟩
      · exact absurd ⟨r, by rw [hn, hs]; rfl, hr⟩ h
    · refine ⟨_, dot :: r, (hB hc).2, ?_, Or.inr ⟨?_, s, r, ?_, rfl, hr, hn⟩⟩
      · unfold View.text
        rw [if_pos (by rw [hn]; simp)]
        rw [List.take_of_length_le (by simp)]
        rw [hn]; simp
      · intro he; exact h ⟨[], by rw [he], by simp⟩
      · rintro rfl; exact hc (Or.inl rfl)

/-- `stem(entry)` of a name without extension is the whole name (`..` and `..x` excepted). -/
theorem c50_stem_partial (nm : List Nat) (h : ¬ TwoDots nm) (he : IsExtension nm []) :
    ∃ v, stem nm = some v ∧ v.text nm = some nm ∧ IsStem nm nm := by
  refine ⟨⟨0, nm.length⟩, ?_, by simp [View.text], [], he, by simp⟩
  rcases results nm with ⟨_, h1, _⟩ | ⟨s, r, hn, hr, hA, hB⟩
  · exact h1
  · by_cases hc : s = [] ∨ (s = [dot] ∧ r ≠ [])
    · exact (hA hc).1
    · have hx : IsExtension nm (dot :: r) := Or.inr ⟨fun he => h ⟨[], by rw [he], by simp⟩, s, r, by rintro rfl; exact hc (Or.inl rfl), rfl, hr, hn⟩
      exact absurd (he.unique hx) (by simp)

/-- `stem(entry)` of EVERY name with an extension lacks the last character of the true stem, so that stem and extension never make up the name. -/
theorem c50_stem_violated (nm e : List Nat) (h : ¬ TwoDots nm) (hne : e ≠ []) (he : IsExtension nm e) :
    ∃ v s, stem nm = some v ∧ v.text nm = some s.dropLast ∧ IsStem nm s ∧ ¬ IsStem nm s.dropLast := by
  rcases he with ⟨h0, _⟩ | ⟨hdd, s, r, hs, hee, hr, hn⟩
  · exact absurd h0 hne
  have hx : IsExtension nm e := Or.inr ⟨hdd, s, r, hs, hee, hr, hn⟩
  refine ⟨⟨0, s.length - 1⟩, s, ?_, ?_, ⟨e, hx, hn⟩, ?_⟩
  · rcases results nm with ⟨hd, _, _⟩ | ⟨s', r', hn', hr', hA, hB⟩
    · exact absurd (by rw [hn, hee]; simp) hd
    · by_cases hc : s' = [] ∨ (s' = [dot] ∧ r' ≠ [])
      · exfalso
        rcases hc with hs' | ⟨hs', _⟩
        · have : IsExtension nm [] := Or.inl ⟨rfl, Or.inr (Or.inr (Or.inr ⟨r', by rw [hn', hs']; rfl, hr'⟩))⟩
          exact hne (hx.unique this)
        · exact h ⟨r', by rw [hn', hs']; rfl, hr'⟩
      · have hx' : IsExtension nm (dot :: r') := Or.inr ⟨hdd, s', r', by rintro rfl; exact hc (Or.inl rfl), rfl, hr', hn'⟩
        have hee' := hx.unique hx'
        have : s = s' := by
          rw [hee'] at hn; rw [hn'] at hn
          exact (List.append_cancel_right hn).symm
        rw [this]; exact (hB hc).1
  · unfold View.text
    rw [if_pos (by rw [hn]; simp; omega)]
    simp only [List.drop_zero, Option.some.injEq, List.dropLast_eq_take]
    rw [hn, List.take_append_of_le_length (by omega)]
  · rintro ⟨e', he', hn'⟩
    rw [hx.unique he'] at hn
    rw [hn'] at hn
    have h1 := congrArg List.length (List.append_cancel_right hn)
    have h2 : s.length ≠ 0 := by simpa using hs
    simp at h1; omega

/-- `..` gets the extension `.`, and `..x` gets none. -/
theorem c50_extension_violated :
    (∃ w, extension [dot, dot] = some w ∧ w.text [dot, dot] = some [dot] ∧ ¬ IsExtension [dot, dot] [dot]) ∧
    (∃ w, extension [dot, dot, 120] = some w ∧ w.text [dot, dot, 120] = some [] ∧ ¬ IsExtension [dot, dot, 120] []) := by
  refine ⟨⟨⟨1, 1⟩, by decide, by decide, ?_⟩, ⟨⟨3, 0⟩, by decide, by decide, ?_⟩⟩
  · intro h
    exact absurd (h.unique (Or.inl ⟨rfl, Or.inr (Or.inr (Or.inl rfl))⟩)) (by decide)
  · intro h
    have : IsExtension [dot, dot, 120] [dot, 120] := Or.inr ⟨by decide, [dot], [120], by decide, rfl, by decide, rfl⟩
    exact absurd (h.unique this) (by decide)

-- "foo.tar.gz": extension ".gz", stem "foo.ta" instead of "foo.tar"
example : (extension [102, 111, 111, 46, 116, 97, 114, 46, 103, 122]).bind (·.text [102, 111, 111, 46, 116, 97, 114, 46, 103, 122]) = some [46, 103, 122] ∧
    (stem [102, 111, 111, 46, 116, 97, 114, 46, 103, 122]).bind (·.text [102, 111, 111, 46, 116, 97, 114, 46, 103, 122]) =
      some [102, 111, 111, 46, 116, 97] := by decide
example : ¬ TwoDots [102, 46, 103] ∧ IsExtension [102, 46, 103] [46, 103] := by
  refine ⟨?_, Or.inr ⟨by decide, [102], [103], by decide, rfl, by decide, rfl⟩⟩
  rintro ⟨r, h, _⟩; simp [dot] at h
-- ".bashrc" has no extension
example : IsExtension [46, 98] [] ∧ ¬ TwoDots [46, 98] := by
  refine ⟨Or.inl ⟨rfl, Or.inr (Or.inr (Or.inr ⟨[98], rfl, by decide⟩))⟩, ?_⟩
  rintro ⟨r, h, _⟩; simp [dot] at h

end Verif.Fs
