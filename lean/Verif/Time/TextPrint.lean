import Verif.Time.TextModel
import Verif.Time.TextSpec
import Verif.IntPrint.Lemmas2
import Verif.Time.Lemmas3
/-! The printer writes the text of the timestamp. -/
namespace Verif.Time
open Verif Verif.IntPrint

/-- A step of a printer that writes `txt` and moves past it. -/
def Writes (f : Mem × Nat → Option (Mem × Nat)) (txt : List Nat) : Prop :=
  ∀ m p, f (m, p) = some (store m p txt, p + txt.length)

theorem Writes.bind {f g : Mem × Nat → Option (Mem × Nat)} {a b : List Nat} (hf : Writes f a) (hg : Writes g b) :
    Writes (fun s => (f s).bind g) (a ++ b) := by
  intro m p
  simp only
  rw [hf m p, Option.bind_some, hg, store_store_append]
  simp [Nat.add_assoc]

theorem Writes.putc {g : Mem × Nat → Option (Mem × Nat)} {b : List Nat} (c : Nat) (hg : Writes g b) :
    Writes (fun s => g (putc c s)) (c :: b) := by
  intro m p
  show g (store m p [c], p + 1) = _
  rw [hg]
  have := store_store_append m p [c] b
  simp only [List.length_singleton, List.singleton_append] at this
  rw [this]
  simp [Nat.add_assoc, Nat.add_comm 1]

theorem writes_some : Writes some [] := by
  intro m p; simp

theorem padded_two (n : Nat) (h : n < 100) : (padded 10 2 n).map (digitChar false) = dd n := by
  unfold dd
  have h1 : n / 10 < 10 := by omega
  have h2 : n % 10 < 10 := by omega
  simp [padded, digitChar, h2, Nat.mod_eq_of_lt h1, h1]

theorem two_writes (n : Nat) (h : n < 100) : Writes (two n) (dd n) := by
  intro m p
  unfold two
  simp only
  rw [copyPair_eq 10 false m p n (by omega), padded_two n h]
  rfl

theorem print64_writes (n : Nat) (h : n < 2 ^ 64) : Writes (fun s => printInt 64 false {} s.1 s.2 n) (decText n) := by
  intro m p
  unfold printInt
  have : absBits 64 (n : Int) = n := by
    unfold absBits; norm_num at *; split_ifs <;> omega
  simp only [this, signChars]
  simp [withFull, jeaMain_eq 64 (by simp) m p n h, Printed]

theorem twoChecked_writes (n : Nat) (h : n < 2 ^ 64) :
    Writes (twoChecked n) (if n < 100 then dd n else decText n) := by
  intro m p
  unfold twoChecked
  split_ifs with c d d
  · omega
  · exact print64_writes n h m p
  · exact two_writes n d m p
  · omega

theorem abs_u64 (y : Int) (h : -2 ^ 63 ≤ y ∧ y < 2 ^ 63) : (if y < 0 then neg64 (u64 y) else u64 y) = y.natAbs := by
  split_ifs with c
  · rw [neg64_u64 y ⟨h.1, c⟩]; omega
  · rw [u64_pos y ⟨by omega, h.2⟩]; omega

theorem printYear_writes (y : Int) (h : -2 ^ 63 ≤ y ∧ y < 2 ^ 63) : Writes (printYear y) (yearText y) := by
  have key : ∀ u : Nat, u < 2 ^ 64 → Writes (fun s => if 10000 ≤ u then printInt 64 false {} s.1 s.2 u
      else (two (u / 100) s).bind (two (u % 100)))
      (if u < 10000 then dd (u / 100) ++ dd (u % 100) else decText u) := by
    intro u hu
    by_cases c : u < 10000
    · rw [if_pos c]
      have := Writes.bind (two_writes (u / 100) (by omega)) (two_writes (u % 100) (by omega))
      intro m p
      simp only [show ¬ 10000 ≤ u by omega, if_false]
      exact this m p
    · rw [if_neg c]
      intro m p
      simp only [show 10000 ≤ u by omega, if_true]
      exact print64_writes u hu m p
  have hk := key y.natAbs (by norm_num at *; omega)
  unfold yearText
  have ha := abs_u64 y h
  intro m p
  unfold printYear
  by_cases c : y < 0
  · simp only [c, if_true] at ha ⊢
    rw [ha]
    exact Writes.putc 45 hk m p
  · simp only [c, if_false] at ha ⊢
    rw [ha, List.nil_append]
    exact hk m p

/-- Stripping trailing zeros. -/
theorem fracStrip_eq (k sub sz : Nat) (h0 : sub ≠ 0) (hlt : sub < 10 ^ sz) (hk : sz < k) :
    ∃ s' n, fracStrip k sub sz = some (s', n) ∧ n ≤ sz ∧ s' < 10 ^ n ∧ 0 < n ∧ s' % 10 ≠ 0 ∧ sub = s' * 10 ^ (sz - n) := by
  induction k generalizing sub sz with
  | zero => omega
  | succ k ih =>
    unfold fracStrip
    have hsz : sz ≠ 0 := by
      intro h
      rw [h] at hlt
      simp at hlt
      omega
    obtain ⟨z, rfl⟩ : ∃ z, sz = z + 1 := ⟨sz - 1, by omega⟩
    split_ifs with c
    · have hlt' : sub / 10 < 10 ^ z := by
        rw [Nat.div_lt_iff_lt_mul (by norm_num)]
        rwa [pow_succ] at hlt
      obtain ⟨s', n, h1, h2, h3, h4, h5, h6⟩ := ih (sub / 10) z (by omega) hlt' (by omega)
      refine ⟨s', n, by simpa using h1, by omega, h3, h4, h5, ?_⟩
      have : sub = sub / 10 * 10 := by omega
      rw [this, h6, show z + 1 - n = (z - n) + 1 by omega, pow_succ]
      ring
    · exact ⟨sub, z + 1, rfl, le_refl _, hlt, by omega, c, by simp⟩

theorem padded_mul (k j n : Nat) : padded 10 (k + j) (n * 10 ^ j) = padded 10 k n ++ List.replicate j 0 := by
  induction j with
  | zero => simp
  | succ j ih =>
    rw [← Nat.add_assoc, padded]
    have h1 : n * 10 ^ (j + 1) / 10 = n * 10 ^ j := by rw [pow_succ, ← mul_assoc, Nat.mul_div_cancel _ (by norm_num)]
    have h2 : n * 10 ^ (j + 1) % 10 = 0 := by rw [pow_succ, ← mul_assoc, Nat.mul_mod_left]
    rw [h1, h2, ih, List.replicate_succ', List.append_assoc]

theorem strip_padded (s' n j : Nat) (h : s' % 10 ≠ 0) (hn : 0 < n) :
    ((padded 10 (n + j) (s' * 10 ^ j)).reverse.dropWhile (· == 0)).reverse = padded 10 n s' := by
  rw [padded_mul, List.reverse_append, List.reverse_replicate]
  have : ∀ l : List Nat, (List.replicate j 0 ++ l).dropWhile (· == 0) = l.dropWhile (· == 0) := by
    intro l
    induction j with
    | zero => simp
    | succ j ih => rw [List.replicate_succ]; simpa using ih
  rw [this]
  obtain ⟨n, rfl⟩ : ∃ m, n = m + 1 := ⟨n - 1, by omega⟩
  rw [padded, List.reverse_append]
  have : (s' % 10 == 0) = false := by simpa using h
  simp [List.dropWhile_cons, this]

theorem padded_lt (k n : Nat) : ∀ d ∈ padded 10 k n, d < 10 := by
  induction k generalizing n with
  | zero => simp [padded]
  | succ k ih =>
    intro d hd
    rw [padded, List.mem_append] at hd
    rcases hd with hd | hd
    · exact ih _ d hd
    · simp at hd; omega

theorem padded_len (k n : Nat) : (padded 10 k n).length = k := by
  induction k generalizing n with
  | zero => simp [padded]
  | succ k ih => simp [padded, ih]

/-- The digits of the fraction. -/
theorem fracText_eq (sub : Nat) (h0 : sub ≠ 0) (h : sub < S) : ∃ s' n, fracStrip 20 sub 19 = some (s', n) ∧ 0 < n ∧ n ≤ 19 ∧
    s' < 10 ^ n ∧ sub = s' * 10 ^ (19 - n) ∧ fracText sub = 46 :: (padded 10 n s').map (digitChar false) := by
  obtain ⟨s', n, h1, h2, h3, h4, h5, h6⟩ := fracStrip_eq 20 sub 19 h0 h (by omega)
  refine ⟨s', n, h1, h4, h2, h3, h6, ?_⟩
  unfold fracText
  rw [if_neg h0]
  refine congrArg (List.cons 46) ?_
  have := strip_padded s' n (19 - n) h5 h4
  rw [show n + (19 - n) = 19 by omega, ← h6] at this
  rw [this]
  apply List.map_congr_left
  intro d hd
  simp [digitChar, padded_lt n s' d hd]

theorem printFrac_writes (sub : Nat) (h0 : sub ≠ 0) (h : sub < S) : Writes (printFrac sub) (fracText sub) := by
  obtain ⟨s', n, h1, h4, h2, h3, h6, h7⟩ := fracText_eq sub h0 h
  rw [h7]
  have : Writes (fun s => (genMain 64 10 false s.1 (s.2 + n) s' n).bind fun m => some (m, s.2 + n))
      ((padded 10 n s').map (digitChar false)) := by
    intro m p
    simp only [genMain]
    rw [if_neg (by norm_num), genWord_eq 10 (by norm_num) false m p s' n h3]
    simp [padded_len]
  intro m p
  unfold printFrac
  simp only [h1, Option.bind_eq_bind, Option.bind_some]
  exact Writes.putc 46 this m p

theorem printZone_writes (z : Int) (h0 : z ≠ 0) (h : -2 ^ 31 ≤ z ∧ z < 2 ^ 31) : Writes (printZone z) (zoneText z) := by
  have key : ∀ u : Nat, u < 2 ^ 63 → Writes (fun s => (twoChecked (u / 60 / 60) s).bind fun s =>
      (two (u / 60 % 60 % 256) (putc 58 s)).bind fun s => if u % 60 % 256 ≠ 0 then two (u % 60 % 256) (putc 58 s) else some s)
      ((if u / 3600 < 100 then dd (u / 3600) else decText (u / 3600)) ++ (58 :: dd (u / 60 % 60) ++
        (if u % 60 = 0 then [] else 58 :: dd (u % 60)))) := by
    intro u hu
    have e : u / 60 / 60 = u / 3600 := by omega
    rw [e, show u / 60 % 60 % 256 = u / 60 % 60 by omega, show u % 60 % 256 = u % 60 by omega]
    refine Writes.bind (twoChecked_writes (u / 3600) (by norm_num at *; omega)) ?_
    refine Writes.bind (Writes.putc 58 (two_writes _ (by omega))) ?_
    by_cases c : u % 60 = 0
    · simpa [c] using writes_some
    · simpa [c] using Writes.putc 58 (two_writes (u % 60) (by omega))
  have hk := key z.natAbs (by norm_num at *; omega)
  have ha := abs_u64 z (by norm_num at *; omega)
  unfold zoneText
  rw [if_neg h0]
  intro m p
  unfold printZone
  by_cases c : z < 0
  · simp only [c, if_true] at ha ⊢
    rw [ha]
    exact Writes.putc 45 hk m p
  · simp only [c, if_false] at ha ⊢
    rw [ha]
    exact Writes.putc 43 hk m p

theorem printIso_writes (t : Iso) (hy : -2 ^ 63 ≤ t.year ∧ t.year < 2 ^ 63) (h1 : t.month < 100) (h2 : t.day < 100)
    (h3 : t.hours < 100) (h4 : t.minutes < 100) (h5 : t.seconds < 100) (h6 : t.sub < S)
    (h7 : -2 ^ 31 ≤ t.timezone ∧ t.timezone < 2 ^ 31) : Writes (fun s => printIso t s.1 s.2) (isoText t) := by
  have hz : Writes (fun s => if t.timezone = 0 then some (putc 90 s) else printZone t.timezone s) (zoneText t.timezone) := by
    by_cases c : t.timezone = 0
    · rw [show zoneText t.timezone = [90] by simp [zoneText, c]]
      simpa [c] using Writes.putc 90 writes_some
    · simpa [c] using printZone_writes t.timezone c h7
  have hf : Writes (fun s => if t.sub ≠ 0 then printFrac t.sub s else some s) (fracText t.sub) := by
    by_cases c : t.sub = 0
    · rw [show fracText t.sub = [] by simp [fracText, c]]
      simpa [c] using writes_some
    · simpa [c] using printFrac_writes t.sub c h6
  have := (printYear_writes t.year hy).bind ((Writes.putc 45 (two_writes _ h1)).bind ((Writes.putc 45 (two_writes _ h2)).bind
    ((Writes.putc 84 (two_writes _ h3)).bind ((Writes.putc 58 (two_writes _ h4)).bind ((Writes.putc 58 (two_writes _ h5)).bind
    (hf.bind hz))))))
  intro m p
  have h := this m p
  unfold printIso isoText
  simp only [Option.bind_eq_bind]
  by_cases c : t.sub = 0
  · simp only [c, ne_eq, not_true_eq_false, if_false] at h ⊢
    exact h
  · simp only [c, ne_eq, not_false_eq_true, if_true] at h ⊢
    exact h

end Verif.Time
