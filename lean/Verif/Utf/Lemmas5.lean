import Verif.Utf.Lemmas4
/-!
# UTF-16, UTF-32 and UTF-EBCDIC sources
-/
namespace Verif.Utf
open Verif
set_option maxRecDepth 4000

theorem and_high (u : Nat) (h : u < 2 ^ 16) : u &&& 0xFFFFFC00 = u / 1024 * 1024 := by
  have e : (0xFFFFFC00 : Nat) = (2 ^ 22 - 1) <<< 10 := by decide
  have : u &&& ((2 ^ 22 - 1) <<< 10) = ((u >>> 10) &&& (2 ^ 22 - 1)) <<< 10 := by
    apply Nat.eq_of_testBit_eq
    intro i
    simp only [Nat.testBit_and, Nat.testBit_shiftLeft, Nat.testBit_shiftRight]
    by_cases hi : 10 ≤ i
    · have : 10 + (i - 10) = i := by omega
      simp [hi, this]
    · simp [hi]
  rw [e, this, Nat.and_two_pow_sub_one_eq_mod, Nat.shiftRight_eq_div_pow, Nat.shiftLeft_eq]
  norm_num at *
  omega

theorem isSurrogate_iff (u : Nat) (h : u < 2 ^ 16) : isSurrogate u = true ↔ 0xD800 ≤ u ∧ u < 0xE000 := by
  unfold isSurrogate
  rw [decide_eq_true_iff]
  norm_num at *
  omega

theorem isHigh_iff (u : Nat) (h : u < 2 ^ 16) : isHigh u = true ↔ 0xD800 ≤ u ∧ u < 0xDC00 := by
  unfold isHigh
  rw [and_high u h, beq_iff_eq]
  omega

theorem isLow_iff (u : Nat) (h : u < 2 ^ 16) : isLow u = true ↔ 0xDC00 ≤ u ∧ u < 0xE000 := by
  unfold isLow
  rw [and_high u h, beq_iff_eq]
  omega

theorem pair_ok {h l : Nat} (h1 : 0xD800 ≤ h) (h2 : h < 0xDC00) (h3 : 0xDC00 ≤ l) (h4 : l < 0xE000) :
    Scalar (surrogates h l) ∧ enc16 (surrogates h l) = [h, l] := by
  have e : surrogates h l = 0x10000 + (h - 0xD800) * 1024 + (l - 0xDC00) := by
    unfold surrogates
    rw [Nat.shiftLeft_eq]
    norm_num; omega
  rw [e]
  refine ⟨⟨by omega, by omega⟩, ?_⟩
  unfold enc16
  rw [if_neg (by omega)]
  simp; omega

theorem inc16 {h : Nat} (h1 : 0xD800 ≤ h) (h2 : h < 0xDC00) : Incomplete .u16 [h] := by
  obtain ⟨a, b⟩ := pair_ok h1 h2 (le_refl 0xDC00) (by omega)
  exact ⟨by simp, _, a, by simp only [enc]; rw [b]; simp, by simp only [enc]; rw [b]; simp⟩

theorem bad16_low {l : Nat} (h3 : 0xDC00 ≤ l) (h4 : l < 0xE000) : Bad .u16 [l] := by
  refine ⟨by simp, ?_, by simp⟩
  intro c hc
  unfold Scalar at hc
  simp only [enc, enc16]
  split_ifs <;> simp [List.cons_prefix_cons] <;> omega

theorem bad16_pair {h x : Nat} (h1 : 0xD800 ≤ h) (h2 : h < 0xDC00) (h3 : ¬ (0xDC00 ≤ x ∧ x < 0xE000)) : Bad .u16 [h, x] := by
  refine ⟨by simp, ?_, Or.inr (by simpa using inc16 h1 h2)⟩
  intro c hc
  unfold Scalar at hc
  simp only [enc, enc16]
  split_ifs <;> simp [List.cons_prefix_cons] <;> omega

/-- The byte orders and forms for which the loop over UTF-16 is right. -/
def Ok16 (d : Enc) (swap : Bool) : Prop := d ≠ .u16 ∧ (swap = true → d ≠ .u32)

theorem put16_pair {α : Type} (d : Enc) (swap : Bool) (hd : Ok16 d swap) {h x : Nat} (hx : Scalar (surrogates h x))
    (f : Out → Option α) (o : Out) :
    (if d = .u32 then f (put o [surrogates h x]) else (codeUnits d swap (surrogates h x)).bind fun u => f (put o u)) =
    f (put o (encOut d swap [surrogates h x])) := by
  split_ifs with h1
  · subst h1
    have hs : swap = false := by
      by_contra hc
      exact hd.2 (by simpa using hc) rfl
    subst hs
    rfl
  · rw [codeUnits_eq d swap _ hx, Option.bind_some]

theorem put16_bmp {α : Type} (d : Enc) (swap : Bool) {x : Nat} (hx : Scalar x) (f : Out → Option α) (o : Out) :
    (if d = .u32 then f (put o [bsw .u32 swap x]) else (codeUnits d swap x).bind fun u => f (put o u)) =
    f (put o (encOut d swap [x])) := by
  split_ifs with h1
  · subst h1
    rw [encOut_single]; rfl
  · rw [codeUnits_eq d swap _ hx, Option.bind_some]

theorem loop16_nil (d : Enc) (swap : Bool) (o : Out) : loop16 d swap [] o = some ([], o) := by rw [loop16]

/-- A unit outside the surrogates. -/
theorem loop16_bmp (d : Enc) (swap : Bool) {c : Nat} (hs : Scalar c) (hc : c < 65536) (l : List Nat) (o : Out) :
    loop16 d swap (c :: l) o = loop16 d swap l (put o (encOut d swap [c])) := by
  have h1 : ¬ isSurrogate c = true := by rw [isSurrogate_iff c hc]; exact hs.2
  cases l with
  | nil => rw [loop16_nil, loop16, if_neg h1, put16_bmp d swap hs (fun o => some ([], o))]
  | cons x l => rw [loop16, if_neg h1, put16_bmp d swap hs (fun o => loop16 d swap (x :: l) o)]

/-- An isolated low surrogate. -/
theorem loop16_low (d : Enc) (swap : Bool) {c : Nat} (h1 : 0xDC00 ≤ c) (h2 : c < 0xE000) (l : List Nat) (o : Out) :
    loop16 d swap (c :: l) o = loop16 d swap l (put o (invalidUnits d swap)) := by
  have hc : c < 2 ^ 16 := by norm_num; omega
  have s1 : isSurrogate c = true := by rw [isSurrogate_iff c hc]; omega
  have s2 : ¬ isHigh c = true := by rw [isHigh_iff c hc]; omega
  cases l with
  | nil => rw [loop16_nil, loop16, if_pos s1, if_neg s2]
  | cons x l => rw [loop16, if_pos s1, if_neg s2]

theorem loop16_last (d : Enc) (swap : Bool) {c : Nat} (h1 : 0xD800 ≤ c) (h2 : c < 0xDC00) (o : Out) :
    loop16 d swap [c] o = some ([c], o) := by
  have hc : c < 2 ^ 16 := by norm_num; omega
  have s1 : isSurrogate c = true := by rw [isSurrogate_iff c hc]; omega
  have s2 : isHigh c = true := by rw [isHigh_iff c hc]; omega
  rw [loop16, if_pos s1, if_pos s2]

theorem loop16_pair (d : Enc) (swap : Bool) (hd : Ok16 d swap) {h x : Nat} (h1 : 0xD800 ≤ h) (h2 : h < 0xDC00) (h3 : 0xDC00 ≤ x)
    (h4 : x < 0xE000) (l : List Nat) (o : Out) :
    loop16 d swap (h :: x :: l) o = loop16 d swap l (put o (encOut d swap [surrogates h x])) := by
  have hc : h < 2 ^ 16 := by norm_num; omega
  have hx : x < 2 ^ 16 := by norm_num; omega
  have s1 : isSurrogate h = true := by rw [isSurrogate_iff h hc]; omega
  have s2 : isHigh h = true := by rw [isHigh_iff h hc]; omega
  have s3 : isLow x = true := by rw [isLow_iff x hx]; omega
  rw [loop16, if_pos s1, if_pos s2, if_pos s3, put16_pair d swap hd (pair_ok h1 h2 h3 h4).1 (fun o => loop16 d swap l o)]

/-- A high surrogate followed by something else: both units are consumed. -/
theorem loop16_badpair (d : Enc) (swap : Bool) {h x : Nat} (h1 : 0xD800 ≤ h) (h2 : h < 0xDC00) (hx : x < 2 ^ 16)
    (h3 : ¬ (0xDC00 ≤ x ∧ x < 0xE000)) (l : List Nat) (o : Out) :
    loop16 d swap (h :: x :: l) o = loop16 d swap l (put o (invalidUnits d swap)) := by
  have hc : h < 2 ^ 16 := by norm_num; omega
  have s1 : isSurrogate h = true := by rw [isSurrogate_iff h hc]; omega
  have s2 : isHigh h = true := by rw [isHigh_iff h hc]; omega
  have s3 : ¬ isLow x = true := by rw [isLow_iff x hx]; exact h3
  rw [loop16, if_pos s1, if_pos s2, if_neg s3]

theorem loop16_ok (d : Enc) (swap : Bool) (hd : Ok16 d swap) (he : d ≠ .ebcdic) : ∀ (n : Nat) (l : List Nat) (o : Out), l.length ≤ n →
    (∀ u ∈ l, u < 2 ^ 16) → ∃ cs t, loop16 d swap l o = some (t, put o (encOut d swap cs)) ∧ Reads .u16 l cs t
  | _, [], o, _, _ => ⟨[], [], by rw [loop16_nil, encOut_nil, put_nil], .done [] (Or.inl rfl)⟩
  | n, c :: l, o, hn, hb => by
    have hc := hb c (by simp)
    have hbl : ∀ u ∈ l, u < 2 ^ 16 := fun u hu => hb u (by simp [hu])
    simp only [List.length_cons] at hn
    obtain ⟨n, rfl⟩ : ∃ k, n = k + 1 := ⟨n - 1, by omega⟩
    by_cases h1 : 0xD800 ≤ c ∧ c < 0xE000
    · by_cases h2 : c < 0xDC00
      · cases l with
        | nil => exact ⟨[], [c], by rw [loop16_last d swap h1.1 h2, encOut_nil, put_nil], .done _ (Or.inr (inc16 h1.1 h2))⟩
        | cons x l =>
          have hx := hb x (by simp)
          have hbl' : ∀ u ∈ l, u < 2 ^ 16 := fun u hu => hbl u (by simp [hu])
          simp only [List.length_cons] at hn
          by_cases h3 : 0xDC00 ≤ x ∧ x < 0xE000
          · obtain ⟨a, b⟩ := pair_ok h1.1 h2 h3.1 h3.2
            rw [loop16_pair d swap hd h1.1 h2 h3.1 h3.2]
            obtain ⟨cs, t, e1, e2⟩ := loop16_ok d swap hd he n l (put o (encOut d swap [surrogates c x])) (by omega) hbl'
            refine ⟨surrogates c x :: cs, t, by rw [e1, put_put, ← encOut_cons], ?_⟩
            have := Reads.char _ _ _ _ a e2
            simp only [enc] at this
            rwa [b] at this
          · rw [loop16_badpair d swap h1.1 h2 hx h3, invalidUnits_eq d swap he]
            obtain ⟨cs, t, e1, e2⟩ := loop16_ok d swap hd he n l (put o (encOut d swap [0xFFFD])) (by omega) hbl'
            exact ⟨0xFFFD :: cs, t, by rw [e1, put_put, ← encOut_cons d swap 0xFFFD cs], .bad [c, x] _ _ _ (bad16_pair h1.1 h2 h3) e2⟩
      · rw [loop16_low d swap (by omega) h1.2, invalidUnits_eq d swap he]
        obtain ⟨cs, t, e1, e2⟩ := loop16_ok d swap hd he n l (put o (encOut d swap [0xFFFD])) (by omega) hbl
        exact ⟨0xFFFD :: cs, t, by rw [e1, put_put, ← encOut_cons d swap 0xFFFD cs], .bad [c] _ _ _ (bad16_low (by omega) h1.2) e2⟩
    · have hc' : c < 65536 := by norm_num at hc; exact hc
      have hsc : Scalar c := ⟨by omega, h1⟩
      rw [loop16_bmp d swap hsc hc']
      obtain ⟨cs, t, e1, e2⟩ := loop16_ok d swap hd he n l (put o (encOut d swap [c])) (by omega) hbl
      refine ⟨c :: cs, t, by rw [e1, put_put, ← encOut_cons], ?_⟩
      have := Reads.char c _ _ _ hsc e2
      simp only [enc, enc16] at this
      rwa [if_pos hc'] at this

theorem incomplete16 {t : List Nat} (h : Incomplete .u16 t) : ∃ h, t = [h] ∧ 0xD800 ≤ h ∧ h < 0xDC00 := by
  obtain ⟨h0, c, hc, hp, hne⟩ := h
  unfold Scalar at hc
  simp only [enc, enc16] at hp hne
  split_ifs at hp hne with h1
  · rcases t with _ | ⟨x, _ | ⟨y, t⟩⟩
    · exact absurd rfl h0
    · simp [List.cons_prefix_cons] at hp; exact absurd (by rw [hp]) hne
    · simp [List.cons_prefix_cons] at hp
  · rcases t with _ | ⟨x, _ | ⟨y, _ | ⟨z, t⟩⟩⟩
    · exact absurd rfl h0
    · simp [List.cons_prefix_cons] at hp
      exact ⟨x, rfl, by omega, by omega⟩
    · simp [List.cons_prefix_cons] at hp; exact absurd (by rw [hp.1, hp.2]) hne
    · simp [List.cons_prefix_cons] at hp

/-- Well-formed UTF-16, any destination but UTF-16. -/
theorem loop16_text (d : Enc) (swap : Bool) (hd : Ok16 d swap) : ∀ (cs : List Nat) (o : Out), (∀ c ∈ cs, Scalar c) →
    ∀ t, (t = [] ∨ Incomplete .u16 t) → loop16 d swap (encText .u16 cs ++ t) o = some (t, put o (encOut d swap cs))
  | [], o, _, t, ht => by
    rcases ht with rfl | ht
    · rw [encText, List.flatMap_nil, List.nil_append, loop16_nil, encOut_nil, put_nil]
    · obtain ⟨h, rfl, h1, h2⟩ := incomplete16 ht
      rw [encText, List.flatMap_nil, List.nil_append, loop16_last d swap h1 h2, encOut_nil, put_nil]
  | c :: cs, o, h, t, ht => by
    have hc := h c (by simp)
    have ih := loop16_text d swap hd cs (put o (encOut d swap [c])) (fun x hx => h x (by simp [hx])) t ht
    rw [put_put, ← encOut_cons d swap c cs] at ih
    rw [← ih]
    simp only [encText, List.flatMap_cons, List.append_assoc, enc]
    have h0 := hc.1
    have h0' := hc.2
    unfold enc16
    by_cases h1 : c < 0x10000
    · rw [if_pos h1, List.singleton_append, loop16_bmp d swap hc h1]
    · rw [if_neg h1]
      simp only [List.cons_append, List.nil_append]
      rw [loop16_pair d swap hd (by omega) (by omega) (by omega) (by omega)]
      have e : surrogates (55296 + (c - 65536) / 1024) (56320 + (c - 65536) % 1024) = c := by
        unfold surrogates
        rw [Nat.shiftLeft_eq]; norm_num; omega
      rw [e]

/-! ## UTF-32 -/

theorem loop32_ok (d : Enc) (swap : Bool) : ∀ (cs : List Nat) (o : Out), (∀ c ∈ cs, Scalar c) →
    loop32 d swap cs o = some (put o (encOut d swap cs))
  | [], o, _ => by simp [loop32, encOut_nil, put_nil]
  | c :: cs, o, h => by
    unfold loop32
    rw [codeUnits_eq d swap c (h c (by simp)), Option.bind_some, loop32_ok d swap cs _ (fun x hx => h x (by simp [hx])), put_put,
      ← encOut_append]
    rfl

/-! ## UTF-EBCDIC -/

theorem shadow_ok : ∀ i < 256, shadowFlags[i8ToEbcdic.getD i 0]? = some (shadowFlags.getD (i8ToEbcdic.getD i 0) 0) ∧
    ebcdicToI8[i8ToEbcdic.getD i 0]? = some i ∧
    (i < 0xA0 → shadowFlags.getD (i8ToEbcdic.getD i 0) 0 < 2) ∧ (0xC0 ≤ i → i < 0xE0 → shadowFlags.getD (i8ToEbcdic.getD i 0) 0 = 2) ∧
    (0xE0 ≤ i → i < 0xF0 → shadowFlags.getD (i8ToEbcdic.getD i 0) 0 = 3) ∧ (0xF0 ≤ i → i < 0xF8 → shadowFlags.getD (i8ToEbcdic.getD i 0) 0 = 4) ∧
    (0xF8 ≤ i → i < 0xFC → shadowFlags.getD (i8ToEbcdic.getD i 0) 0 = 5) := by decide +kernel

theorem ebcdicLoop_step (x : Nat) (hx : x < 32) (l : List Nat) (i res : Nat) (hr : res < 2 ^ 25) :
    ebcdicLoop (i8ToEbcdic.getD (0xA0 + x) 0 :: l) i res = ebcdicLoop l (i + 1) (res * 32 + x) := by
  conv_lhs => unfold ebcdicLoop
  rw [(shadow_ok (0xA0 + x) (by omega)).2.1]
  simp only [Option.bind_eq_bind, Option.bind_some]
  rw [if_neg (by rw [Nat.shiftRight_eq_div_pow]; norm_num; omega)]
  congr 1
  rw [and31, Nat.shiftLeft_eq, Nat.mod_eq_of_lt (by norm_num at *; omega)]
  rw [show (160 + x) % 32 = x by omega]
  exact or5 _ _ hx

theorem or_shift (a b k : Nat) (hb : b < 2 ^ k) : (a <<< k) ||| b = a * 2 ^ k + b := by
  rw [Nat.shiftLeft_eq]; exact or_low a b k hb

/-- The decoder takes exactly one well-formed character. -/
theorem ebcdicAdvance_char (c : Nat) (hc : c < 0x110000) (rest : List Nat) :
    ebcdicAdvance (enc .ebcdic c ++ rest) = some (some (c, (enc .ebcdic c).length)) := by
  simp only [enc, encI8]
  by_cases h1 : c < 0xA0
  · rw [if_pos h1]
    obtain ⟨s1, s2, s3, _⟩ := shadow_ok c (by omega)
    simp only [List.map_cons, List.map_nil, List.singleton_append, ebcdicAdvance]
    rw [s1, s2]
    simp only [Option.bind_eq_bind, Option.bind_some]
    rw [if_pos (s3 h1)]
    rfl
  rw [if_neg h1]
  by_cases h2 : c < 0x400
  · rw [if_pos h2]
    obtain ⟨s1, s2, _, s3, _⟩ := shadow_ok (0xC0 + c / 32) (by omega)
    simp only [List.map_cons, List.map_nil, List.cons_append, List.nil_append, ebcdicAdvance]
    rw [s1, s2, s3 (by omega) (by omega)]
    simp only [Option.bind_eq_bind, Option.bind_some]
    rw [if_neg (by omega), if_neg (by omega), if_neg (by simp)]
    simp only [Nat.add_one_sub_one, List.take_succ_cons, List.take_zero]
    rw [ebcdicLoop_step _ (by omega) _ _ _ (by norm_num)]
    simp only [ebcdicLoop, Option.bind_some, if_true, and31]
    rw [or_shift _ _ 5 (by norm_num; omega)]
    simp only [List.length_cons, List.length_nil, Option.some.injEq, Prod.mk.injEq, and_true]
    norm_num; omega
  rw [if_neg h2]
  by_cases h3 : c < 0x4000
  · rw [if_pos h3]
    obtain ⟨s1, s2, _, _, s3, _⟩ := shadow_ok (0xE0 + c / 1024) (by omega)
    simp only [List.map_cons, List.map_nil, List.cons_append, List.nil_append, ebcdicAdvance]
    rw [s1, s2, s3 (by omega) (by omega)]
    simp only [Option.bind_eq_bind, Option.bind_some]
    rw [if_neg (by omega), if_neg (by omega), if_neg (by simp)]
    simp only [Nat.add_one_sub_one, List.take_succ_cons, List.take_zero, Nat.reduceSub]
    rw [ebcdicLoop_step _ (by omega) _ _ _ (by norm_num), ebcdicLoop_step _ (by omega) _ _ _ (by norm_num; omega)]
    simp only [ebcdicLoop, Option.bind_some, and15]
    have e1 : c / 32 / 32 = c / 1024 := by rw [Nat.div_div_eq_div_mul]
    have e2 : c / 1024 / 32 = c / 32768 := by rw [Nat.div_div_eq_div_mul]
    rw [or_shift _ _ 10 (by norm_num; omega)]
    simp
    omega
  rw [if_neg h3]
  by_cases h4 : c < 0x40000
  · rw [if_pos h4]
    obtain ⟨s1, s2, _, _, _, s3, _⟩ := shadow_ok (0xF0 + c / 32768) (by omega)
    simp only [List.map_cons, List.map_nil, List.cons_append, List.nil_append, ebcdicAdvance]
    rw [s1, s2, s3 (by omega) (by omega)]
    simp only [Option.bind_eq_bind, Option.bind_some]
    rw [if_neg (by omega), if_neg (by omega), if_neg (by simp)]
    simp only [Nat.add_one_sub_one, List.take_succ_cons, List.take_zero, Nat.reduceSub]
    rw [ebcdicLoop_step _ (by omega) _ _ _ (by norm_num), ebcdicLoop_step _ (by omega) _ _ _ (by norm_num; omega),
      ebcdicLoop_step _ (by omega) _ _ _ (by norm_num; omega)]
    simp only [ebcdicLoop, Option.bind_some, and7]
    have e1 : c / 32 / 32 = c / 1024 := by rw [Nat.div_div_eq_div_mul]
    have e2 : c / 1024 / 32 = c / 32768 := by rw [Nat.div_div_eq_div_mul]
    rw [or_shift _ _ 15 (by norm_num; omega)]
    simp
    omega
  rw [if_neg h4]
  obtain ⟨s1, s2, _, _, _, _, s3⟩ := shadow_ok (0xF8 + c / 1048576) (by omega)
  simp only [List.map_cons, List.map_nil, List.cons_append, List.nil_append, ebcdicAdvance]
  rw [s1, s2, s3 (by omega) (by omega)]
  simp only [Option.bind_eq_bind, Option.bind_some]
  rw [if_neg (by omega), if_neg (by omega), if_neg (by simp)]
  simp only [Nat.add_one_sub_one, List.take_succ_cons, List.take_zero, Nat.reduceSub]
  rw [ebcdicLoop_step _ (by omega) _ _ _ (by norm_num), ebcdicLoop_step _ (by omega) _ _ _ (by norm_num; omega),
    ebcdicLoop_step _ (by omega) _ _ _ (by norm_num; omega), ebcdicLoop_step _ (by omega) _ _ _ (by norm_num; omega)]
  simp only [ebcdicLoop, Option.bind_some, and1]
  have e1 : c / 32 / 32 = c / 1024 := by rw [Nat.div_div_eq_div_mul]
  have e2 : c / 1024 / 32 = c / 32768 := by rw [Nat.div_div_eq_div_mul]
  have e3 : c / 32768 / 32 = c / 1048576 := by rw [Nat.div_div_eq_div_mul]
  rw [or_shift _ _ 20 (by norm_num; omega)]
  simp
  omega

end Verif.Utf
