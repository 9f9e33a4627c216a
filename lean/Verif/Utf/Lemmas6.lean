import Verif.Utf.Lemmas5
/-!
# Well-formed texts, whole and in chunks
-/
namespace Verif.Utf
open Verif

theorem enc_len_le (s : Enc) (c : Nat) : (enc s c).length ≤ 5 := by
  cases s with
  | u32 => simp [enc]
  | u8 => simp only [enc, enc8]; split_ifs <;> simp
  | u16 => simp only [enc, enc16]; split_ifs <;> simp
  | ebcdic => simp only [enc, encI8, List.length_map]; split_ifs <;> simp

theorem incomplete_len {s : Enc} {t : List Nat} (h : Incomplete s t) : t.length ≤ 4 := by
  obtain ⟨_, c, _, hp, hne⟩ := h
  have h1 := hp.length_le
  have h2 := enc_len_le s c
  by_contra hc
  exact hne (hp.eq_of_length (by omega))

theorem shadow_len (c : Nat) (hc : c < 0x110000) (x : Nat) (r : List Nat) (h : enc .ebcdic c = x :: r) (hr : r ≠ []) :
    shadowFlags[x]? = some (r.length + 1) ∧ (∃ i, ebcdicToI8[x]? = some i) ∧ 2 ≤ r.length + 1 ∧ r.length + 1 ≠ 9 := by
  simp only [enc, encI8] at h
  by_cases h1 : c < 0xA0
  · rw [if_pos h1] at h
    simp only [List.map_cons, List.map_nil, List.cons.injEq] at h
    exact absurd h.2.symm hr
  rw [if_neg h1] at h
  by_cases h2 : c < 0x400
  · rw [if_pos h2] at h
    obtain ⟨s1, s2, _, s3, _⟩ := shadow_ok (0xC0 + c / 32) (by omega)
    simp only [List.map_cons, List.map_nil, List.cons.injEq] at h
    obtain ⟨rfl, rfl⟩ := h
    rw [s1, s2, s3 (by omega) (by omega)]
    simp
  rw [if_neg h2] at h
  by_cases h3 : c < 0x4000
  · rw [if_pos h3] at h
    obtain ⟨s1, s2, _, _, s3, _⟩ := shadow_ok (0xE0 + c / 1024) (by omega)
    simp only [List.map_cons, List.map_nil, List.cons.injEq] at h
    obtain ⟨rfl, rfl⟩ := h
    rw [s1, s2, s3 (by omega) (by omega)]
    simp
  rw [if_neg h3] at h
  by_cases h4 : c < 0x40000
  · rw [if_pos h4] at h
    obtain ⟨s1, s2, _, _, _, s3, _⟩ := shadow_ok (0xF0 + c / 32768) (by omega)
    simp only [List.map_cons, List.map_nil, List.cons.injEq] at h
    obtain ⟨rfl, rfl⟩ := h
    rw [s1, s2, s3 (by omega) (by omega)]
    simp
  rw [if_neg h4] at h
  obtain ⟨s1, s2, _, _, _, _, s3⟩ := shadow_ok (0xF8 + c / 1048576) (by omega)
  simp only [List.map_cons, List.map_nil, List.cons.injEq] at h
  obtain ⟨rfl, rfl⟩ := h
  rw [s1, s2, s3 (by omega) (by omega)]
  simp

theorem ebcdicAdvance_incomplete {t : List Nat} (h : Incomplete .ebcdic t) : ebcdicAdvance t = some none := by
  obtain ⟨h0, c, hc, hp, hne⟩ := h
  rcases t with _ | ⟨x, t⟩
  · exact absurd rfl h0
  obtain ⟨q, hq⟩ := hp
  have hqn : q ≠ [] := by
    rintro rfl
    exact hne (by simpa using hq)
  have hql : 1 ≤ q.length := List.length_pos_iff.mpr hqn
  obtain ⟨s1, ⟨i, s2⟩, s3, s4⟩ := shadow_len c hc.1 x (t ++ q) (by rw [← hq]; rfl) (by simp [hqn])
  unfold ebcdicAdvance
  simp only
  rw [s1, s2]
  simp only [Option.bind_eq_bind, Option.bind_some]
  rw [if_neg (by omega), if_neg s4, if_pos (by simp; omega)]

theorem loopE_text (d : Enc) (swap : Bool) : ∀ (cs : List Nat) (fuel : Nat) (o : Out), (∀ c ∈ cs, Scalar c) →
    ∀ t, (t = [] ∨ Incomplete .ebcdic t) → (encText .ebcdic cs ++ t).length < fuel →
    loopE d swap fuel (encText .ebcdic cs ++ t) o = some (t, put o (encOut d swap cs))
  | [], fuel, o, _, t, ht, hf => by
    obtain ⟨fuel, rfl⟩ : ∃ k, fuel = k + 1 := ⟨fuel - 1, by omega⟩
    rw [encOut_nil, put_nil]
    simp only [encText, List.flatMap_nil, List.nil_append]
    rcases ht with rfl | ht
    · rw [loopE, if_pos rfl]
    · rw [loopE, if_neg ht.1, ebcdicAdvance_incomplete ht, Option.bind_some]
  | c :: cs, fuel, o, h, t, ht, hf => by
    obtain ⟨fuel, rfl⟩ : ∃ k, fuel = k + 1 := ⟨fuel - 1, by omega⟩
    have hc := h c (by simp)
    have hpos := enc_pos .ebcdic c
    rw [encOut_cons]
    simp only [encText, List.flatMap_cons, List.append_assoc, List.length_append] at hf ⊢
    have ih := loopE_text d swap cs fuel (put o (encOut d swap [c])) (fun x hx => h x (by simp [hx])) t ht
      (by simp only [encText, List.length_append]; omega)
    rw [loopE, if_neg (by intro h0; simp at h0; rw [h0.1] at hpos; simp at hpos), ebcdicAdvance_char c hc.1, Option.bind_some]
    simp only
    rw [putCode_eq d swap false (by simp) c hc, Option.bind_some, List.drop_left]
    rw [put_put] at ih
    simpa only [encText, put_put] using ih

/-- The conversions of well-formed text the code gets right. -/
def Fine (s : Enc) (c : Cfg) : Prop :=
  (c.swap = true → s.bytes = 1 ∨ (s ≠ c.d ∧ (s = .u16 → c.d ≠ .u32))) ∧ (s = .u8 → c.sse = true → c.swap = false ∨ c.d = .ebcdic ∨ c.d = .u8)

theorem enc_lt {s : Enc} {c : Nat} (hc : Scalar c) : ∀ x ∈ enc s c, x < 2 ^ (8 * s.bytes) := by
  have h1 := hc.1
  have h2 := hc.2
  cases s with
  | ebcdic =>
    intro x hx
    simp only [enc, List.mem_map] at hx
    obtain ⟨i, hi, rfl⟩ := hx
    exact tab_lt i (encI8_lt c h1 i hi)
  | u8 => simp only [enc, enc8, Enc.bytes]; split_ifs <;> simp <;> omega
  | u16 => simp only [enc, enc16, Enc.bytes]; split_ifs <;> simp <;> omega
  | u32 => simp only [enc, Enc.bytes]; simp; omega

theorem text_lt {s : Enc} {cs : List Nat} (h : ∀ c ∈ cs, Scalar c) : ∀ x ∈ encText s cs, x < 2 ^ (8 * s.bytes) := by
  intro x hx
  simp only [encText, List.mem_flatMap] at hx
  obtain ⟨c, hc, hx⟩ := hx
  exact enc_lt (h c hc) x hx

theorem incomplete_lt {s : Enc} {t : List Nat} (h : t = [] ∨ Incomplete s t) : ∀ x ∈ t, x < 2 ^ (8 * s.bytes) := by
  rcases h with rfl | ⟨_, c, hc, hp, _⟩
  · simp
  · exact fun x hx => enc_lt hc x (hp.subset hx)

theorem reads_text_det {s : Enc} {cs t cs' t' : List Nat} (h : ∀ c ∈ cs, Scalar c) (ht : t = [] ∨ Incomplete s t)
    (h2 : Reads s (encText s cs ++ t) cs' t') : cs' = cs ∧ t' = t := by
  have := Reads.det (prefixFree s) (reads_text cs h t ht) h2
  exact this

theorem text_factor {s d : Enc} (cs t : List Nat) (h : ∀ c ∈ cs, Scalar c) (ht : t = [] ∨ Incomplete s t) (swap : Bool) :
    (encOut d swap cs).length + factor s d * t.length ≤ factor s d * (encText s cs ++ t).length := by
  rw [encOut_length]
  exact reads_factor (reads_text cs h t ht)

/-- A text with an incomplete character at its end, between different encodings. -/
theorem cvt_text (s : Enc) (c : Cfg) (hf : Fine s c) (hsd : s ≠ c.d) (cs t : List Nat) (h : ∀ x ∈ cs, Scalar x)
    (ht : t = [] ∨ Incomplete s t) (o : Out) :
    ∃ o', cvt s c (encText s cs ++ t) o = some (t, o') ∧ o'.2 = o.2 + (encOut c.d c.swap cs).length ∧
      Wrote (factor s c.d * (encText s cs ++ t).length) o.1 o'.1 o.2 (encOut c.d c.swap cs) := by
  have hcap := text_factor (d := c.d) cs t h ht c.swap
  have fin : ∀ r, r = some (t, put o (encOut c.d c.swap cs)) → ∃ o', r = some (t, o') ∧ o'.2 = o.2 + (encOut c.d c.swap cs).length ∧
      Wrote (factor s c.d * (encText s cs ++ t).length) o.1 o'.1 o.2 (encOut c.d c.swap cs) := by
    rintro r rfl
    exact ⟨_, rfl, rfl, (put_wrote o _).mono (by omega)⟩
  cases s with
  | u8 =>
    obtain ⟨cs', t', o', e1, e2, e3, e4⟩ := cvt_u8 c (fun h => hsd h.symm) (fun h => by
      rcases hf.2 rfl h with h | h | h
      exacts [Or.inr h, Or.inl h, absurd h.symm hsd]) (encText .u8 cs ++ t)
      (fun u hu => by
        rw [List.mem_append] at hu
        rcases hu with hu | hu
        exacts [text_lt h u hu, incomplete_lt ht u hu]) o
    obtain ⟨rfl, rfl⟩ := reads_text_det h ht e2
    exact ⟨o', e1, e3, e4⟩
  | u16 =>
    apply fin
    unfold cvt
    rw [if_neg (fun h => hsd h.1), if_neg hsd]
    exact loop16_text c.d c.swap ⟨fun h => hsd h.symm, fun hs => by
      rcases hf.1 hs with h | h
      exacts [absurd h (by decide), h.2 rfl]⟩ cs o h t ht
  | u32 =>
    have : t = [] := by
      rcases ht with h | ⟨h0, x, hx, hp, hne⟩
      · exact h
      · exfalso
        apply hne
        apply hp.eq_of_length
        have h1 := hp.length_le
        have h2 : 1 ≤ t.length := List.length_pos_iff.mpr h0
        have h3 : (enc .u32 x).length = 1 := rfl
        omega
    subst this
    apply fin
    unfold cvt
    rw [if_neg (fun h => hsd h.1), if_neg hsd]
    have : encText .u32 cs = cs := List.flatMap_singleton' cs
    simp only [this, List.append_nil]
    rw [loop32_ok c.d c.swap cs o h]
    rfl
  | ebcdic =>
    apply fin
    unfold cvt
    rw [if_neg (fun h => hsd h.1), if_neg hsd]
    exact loopE_text c.d c.swap cs _ o h t ht (by omega)

theorem swap_text_one {d : Enc} (hd : d.bytes = 1) (cs : List Nat) (h : ∀ c ∈ cs, Scalar c) (swap : Bool) : encOut d swap cs = encText d cs := by
  unfold encOut
  split_ifs
  · conv_rhs => rw [← List.map_id (encText d cs)]
    apply List.map_congr_left
    intro x hx
    have := text_lt h x hx
    rw [hd] at this
    exact swapUnit_one hd this
  · rfl

/-- A text between any two encodings. -/
theorem cvt_whole (s : Enc) (c : Cfg) (hf : Fine s c) (cs : List Nat) (h : ∀ x ∈ cs, Scalar x) (o : Out) :
    ∃ o', cvt s c (encText s cs) o = some ([], o') ∧ o'.2 = o.2 + (encOut c.d c.swap cs).length ∧
      Wrote (factor s c.d * (encText s cs).length) o.1 o'.1 o.2 (encOut c.d c.swap cs) := by
  by_cases hsd : s = c.d
  · have e : encOut c.d c.swap cs = encText s cs := by
      rw [← hsd]
      rcases hs : c.swap with _ | _
      · rfl
      · rcases hf.1 hs with h1 | h1
        · exact swap_text_one h1 cs h _
        · exact absurd hsd h1.1
    refine ⟨put o (encText s cs), ?_, by rw [e]; rfl, ?_⟩
    · unfold cvt
      rw [if_pos]
      refine ⟨hsd, ?_⟩
      rcases hs : c.swap with _ | _
      · exact Or.inl rfl
      · rcases hf.1 hs with h1 | h1
        · exact Or.inr h1
        · exact absurd hsd h1.1
    · have := text_factor (s := s) (d := c.d) cs [] h (Or.inl rfl) c.swap
      simp only [List.append_nil, List.length_nil, Nat.mul_zero, Nat.add_zero] at this
      rw [e] at this ⊢
      exact (put_wrote o _).mono this
  · simpa using cvt_text s c hf hsd cs [] h (Or.inl rfl) o

/-! ## Chunks -/

theorem text_split {s : Enc} : ∀ (cs a b t : List Nat), (∀ c ∈ cs, Scalar c) → (t = [] ∨ Incomplete s t) → a ++ b = encText s cs ++ t →
    ∃ cs1 t1 cs2, cs = cs1 ++ cs2 ∧ a = encText s cs1 ++ t1 ∧ (t1 = [] ∨ Incomplete s t1) ∧ t1 ++ b = encText s cs2 ++ t
  | [], a, b, t, _, ht, e => by
    refine ⟨[], a, [], rfl, rfl, ?_, e⟩
    by_cases ha : a = []
    · exact Or.inl ha
    · right
      simp only [encText, List.flatMap_nil, List.nil_append] at e
      rcases ht with rfl | ⟨_, x, hx, hp, hne⟩
      · simp at e; exact absurd e.1 ha
      · refine ⟨ha, x, hx, List.IsPrefix.trans ⟨b, e⟩ hp, ?_⟩
        intro h
        apply hne
        apply hp.eq_of_length
        have h1 := hp.length_le
        rw [← e, h] at h1 ⊢
        simp at h1 ⊢
        exact h1
  | c :: cs, a, b, t, h, ht, e => by
    have hc := h c (by simp)
    have hcs : ∀ x ∈ cs, Scalar x := fun x hx => h x (by simp [hx])
    simp only [encText, List.flatMap_cons, List.append_assoc] at e
    rcases Nat.lt_or_ge a.length (enc s c).length with hl | hl
    · refine ⟨[], a, c :: cs, rfl, rfl, ?_, by simpa [encText] using e⟩
      by_cases ha : a = []
      · exact Or.inl ha
      · right
        refine ⟨ha, c, hc, ?_, ?_⟩
        · exact List.prefix_of_prefix_length_le ⟨b, e⟩ (List.prefix_append _ _) (by omega)
        · rintro rfl; omega
    · have hp : enc s c <+: a := List.prefix_of_prefix_length_le (List.prefix_append _ _) ⟨b, e⟩ hl
      obtain ⟨a', rfl⟩ := hp
      rw [List.append_assoc] at e
      have e := List.append_cancel_left e
      obtain ⟨cs1, t1, cs2, e1, e2, e3, e4⟩ := text_split cs a' b t hcs ht e
      exact ⟨c :: cs1, t1, cs2, by rw [e1]; rfl, by rw [e2]; simp [encText], e3, e4⟩

theorem advance_char (x : Nat) (hx : Scalar x) (r : List Nat) (hb : ∀ u ∈ r, u < 256) : advance (enc8 x ++ r) = some (some (r, x)) := by
  have h0 := advance_ok (enc8 x ++ r) (by simp [enc8_ne]) (fun u hu => by
    rw [List.mem_append] at hu
    rcases hu with hu | hu
    exacts [enc_lt (s := .u8) hx u hu, hb u hu])
  rcases h0 with ⟨y, r', hy, e, h⟩ | ⟨p, r', hp, e, h⟩ | ⟨hi, _⟩
  · have h1 : enc .u8 x <+: enc8 x ++ r := List.prefix_append _ _
    have h2 : enc .u8 y <+: enc8 x ++ r := by rw [e]; exact List.prefix_append _ _
    have : x = y := by
      rcases prefix_cases h1 h2 with h | h
      · exact (prefixFree .u8).2 x y hx hy h
      · exact ((prefixFree .u8).2 y x hy hx h).symm
    subst this
    have := List.append_cancel_left e
    subst this
    exact h
  · exfalso
    have h1 : enc .u8 x <+: enc8 x ++ r := List.prefix_append _ _
    have h2 : p <+: enc8 x ++ r := by rw [e]; exact List.prefix_append _ _
    rcases prefix_cases h1 h2 with h | h
    · exact (hp.2.1 x hx).1 h
    · exact (hp.2.1 x hx).2 h
  · exact absurd (List.prefix_append _ _) (char_not_incomplete (prefixFree .u8) hx hi)

theorem advance_incomplete {t : List Nat} (hi : Incomplete .u8 t) : advance t = some none := by
  rcases advance_ok t hi.1 (incomplete_lt (Or.inr hi)) with ⟨y, r', hy, e, h⟩ | ⟨p, r', hp, e, h⟩ | ⟨_, h⟩
  · exact absurd (by rw [e]; exact List.prefix_append _ _) (char_not_incomplete (prefixFree .u8) hy hi)
  · exact absurd (by rw [e]; exact List.prefix_append _ _) (bad_not_prefix_incomplete hp hi)
  · exact h

theorem pending8_char (s : Enc) (hs : s.bytes = 1) (c : Cfg) (st l : List Nat) (x : Nat) (hx : Scalar x) (r : List Nat)
    (hb : ∀ u ∈ r, u < 256) (e : st ++ l.take (8 - st.length) = enc s x ++ r) (hk : st.length ≤ (enc s x).length) (o : Out) :
    pending8 s c st l o = some (.inr (l.drop ((enc s x).length - st.length), put o (encOut c.d c.swap [x]))) := by
  unfold pending8
  simp only
  rw [e]
  by_cases h1 : s = .u8
  · subst h1
    rw [if_pos rfl, show advance (enc .u8 x ++ r) = some (some (r, x)) from advance_char x hx r hb, Option.bind_some]
    simp only
    rw [putCode_eq c.d c.swap false (by simp) x hx, Option.bind_some, List.length_append, Nat.add_sub_cancel, if_neg (by omega)]
  · rw [if_neg h1]
    have : s = .ebcdic := by cases s <;> simp_all [Enc.bytes]
    subst this
    rw [ebcdicAdvance_char x hx.1, Option.bind_some]
    simp only
    rw [putCode_eq c.d c.swap false (by simp) x hx, Option.bind_some, if_neg (by omega)]

theorem pending8_incomplete (s : Enc) (hs : s.bytes = 1) (c : Cfg) (st l : List Nat) (e : Incomplete s (st ++ l.take (8 - st.length))) (o : Out) :
    pending8 s c st l o = some (.inl (st ++ l.take (8 - st.length))) := by
  unfold pending8
  simp only
  have := incomplete_len e
  by_cases h1 : s = .u8
  · subst h1
    rw [if_pos rfl, advance_incomplete e, Option.bind_some]
    simp only
    rw [if_pos (by omega)]
  · rw [if_neg h1]
    have : s = .ebcdic := by cases s <;> simp_all [Enc.bytes]
    subst this
    rw [ebcdicAdvance_incomplete e, Option.bind_some]
    simp only
    rw [if_pos (by omega)]

/-- One write of a text, starting with a pending incomplete character. -/
theorem state_text (s : Enc) (c : Cfg) (hf : Fine s c) (hsd : s ≠ c.d) (st l cs t : List Nat) (hst : st = [] ∨ Incomplete s st)
    (h : ∀ x ∈ cs, Scalar x) (ht : t = [] ∨ Incomplete s t) (e : st ++ l = encText s cs ++ t) (o : Out) :
    ∃ o', cvtState s c st l o = some (t, o') ∧ o'.2 = o.2 + (encOut c.d c.swap cs).length ∧
      Wrote (factor s c.d * (st.length + l.length)) o.1 o'.1 o.2 (encOut c.d c.swap cs) := by
  have htl : t.length ≤ 4 := by
    rcases ht with rfl | ht
    · simp
    · exact incomplete_len ht
  have hlen : st.length + l.length = (encText s cs ++ t).length := by rw [← e]; simp
  rw [hlen]
  -- nothing new
  have empty : l = [] → st ≠ [] → cs = [] ∧ t = st := by
    intro hl hs
    subst hl
    rw [List.append_nil] at e
    have h1 : Reads s st [] st := .done st hst
    rw [e] at h1
    have := reads_text_det h ht h1
    exact ⟨this.1.symm, by rw [e]; exact this.2.symm⟩
  -- the first character completed
  have first : st ≠ [] → ∀ (x : Nat) (cs' : List Nat), cs = x :: cs' →
      ∃ k, (enc s x).length = st.length + k ∧ l.drop k = encText s cs' ++ t ∧ k ≤ l.length := by
    intro hs x cs' hx
    have hinc : Incomplete s st := by rcases hst with h | h; exacts [absurd h hs, h]
    subst hx
    have hle : st.length ≤ (enc s x).length := by
      by_contra hlt
      refine char_not_incomplete (prefixFree s) (h x (by simp)) hinc ?_
      refine List.prefix_of_prefix_length_le (l₃ := st ++ l) ?_ (List.prefix_append _ _) (by omega)
      rw [e]; simp [encText]
    refine ⟨(enc s x).length - st.length, by omega, ?_, ?_⟩
    · have := congrArg (List.drop (enc s x).length) e
      simp only [encText, List.flatMap_cons, List.append_assoc, List.drop_left] at this
      rw [List.drop_append] at this
      rw [List.drop_eq_nil_of_le hle] at this
      simpa [encText] using this
    · have := congrArg List.length e
      simp only [encText, List.flatMap_cons, List.length_append] at this
      omega
  -- after the first character
  have rest : ∀ (x : Nat) (cs' : List Nat), cs = x :: cs' → ∃ o', cvt s c (encText s cs' ++ t) (put o (encOut c.d c.swap [x])) = some (t, o') ∧
      o'.2 = o.2 + (encOut c.d c.swap cs).length ∧
      Wrote (factor s c.d * (encText s cs ++ t).length) o.1 o'.1 o.2 (encOut c.d c.swap cs) := by
    intro x cs' hx
    subst hx
    obtain ⟨o', e1, e2, e3⟩ := cvt_text s c hf hsd cs' t (fun y hy => h y (by simp [hy])) ht (put o (encOut c.d c.swap [x]))
    have hw := text_factor (d := c.d) [x] [] (fun y hy => by simp at hy; rw [hy]; exact h x (by simp)) (Or.inl rfl) c.swap (s := s)
    have hmul : factor s c.d * (encText s (x :: cs') ++ t).length = factor s c.d * (enc s x).length + factor s c.d * (encText s cs' ++ t).length := by
      rw [← Nat.mul_add]; congr 1; simp [encText, Nat.add_assoc]
    simp only [encText, List.flatMap_cons, List.flatMap_nil, List.append_nil, List.length_nil, Nat.mul_zero, Nat.add_zero] at hw
    refine ⟨o', e1, ?_, ?_⟩
    · rw [e2, encOut_cons c.d c.swap x cs', List.length_append]; simp only [put]; omega
    · rw [encOut_cons c.d c.swap x cs', hmul]
      exact Wrote.append (put_wrote o _) (by simpa only [put] using e3) (by omega) (by omega)
  have bytes_case : s.bytes = 1 → (cvtState s c st l o = if st = [] then rest8 s c l o
      else if l = [] then some (st, o)
      else (pending8 s c st l o).bind fun
        | .inl st => some (st, o)
        | .inr r => rest8 s c r.1 r.2) → ∃ o', cvtState s c st l o = some (t, o') ∧ o'.2 = o.2 + (encOut c.d c.swap cs).length ∧
      Wrote (factor s c.d * (encText s cs ++ t).length) o.1 o'.1 o.2 (encOut c.d c.swap cs) := by
    intro hbs hdef
    rw [hdef]
    by_cases hs : st = []
    · rw [if_pos hs]
      rw [hs, List.nil_append] at e
      obtain ⟨o', e1, e2, e3⟩ := cvt_text s c hf hsd cs t h ht o
      refine ⟨o', ?_, e2, e3⟩
      rw [rest8, e, e1, Option.bind_some, if_pos (by simp only; omega)]
    · rw [if_neg hs]
      by_cases hl : l = []
      · rw [if_pos hl]
        obtain ⟨rfl, rfl⟩ := empty hl hs
        refine ⟨o, rfl, by simp [encOut_nil], ?_⟩
        rw [encOut_nil]; exact Wrote.nil _ _ _
      · rw [if_neg hl]
        have hinc : Incomplete s st := by rcases hst with h | h; exacts [absurd h hs, h]
        have hstl := incomplete_len hinc
        cases hcs : cs with
        | nil =>
          rw [hcs] at e
          simp only [encText, List.flatMap_nil, List.nil_append] at e
          have hti : Incomplete s t := by
            rcases ht with h0 | h0
            · rw [h0] at e; simp at e; exact absurd e.1 hs
            · exact h0
          have htk : l.take (8 - st.length) = l := by
            apply List.take_of_length_le
            have := congrArg List.length e
            simp only [List.length_append] at this
            omega
          rw [pending8_incomplete s hbs c st l (by rw [htk, e]; exact hti), Option.bind_some, htk, e]
          exact ⟨o, rfl, by simp [encOut_nil], by rw [encOut_nil]; exact Wrote.nil _ _ _⟩
        | cons x cs' =>
          obtain ⟨k, k1, k2, k3⟩ := first hs x cs' hcs
          have hx := h x (by rw [hcs]; simp)
          have hx5 := enc_len_le s x
          have hpre : enc s x <+: st ++ l.take (8 - st.length) := by
            refine List.prefix_of_prefix_length_le (l₃ := st ++ l) ?_ ?_ ?_
            · rw [e, hcs]; simp [encText]
            · exact (List.prefix_append_right_inj st).mpr (List.take_prefix _ _)
            · simp only [List.length_append, List.length_take]; omega
          obtain ⟨r, hr⟩ := hpre
          have hbr : ∀ u ∈ r, u < 256 := by
            intro u hu
            have h1 : u ∈ st ++ l.take (8 - st.length) := by rw [← hr]; simp [hu]
            have h2 : u ∈ encText s cs ++ t := by
              rw [← e]
              rw [List.mem_append] at h1 ⊢
              rcases h1 with h1 | h1
              exacts [Or.inl h1, Or.inr (List.mem_of_mem_take h1)]
            rw [List.mem_append] at h2
            have : u < 2 ^ (8 * s.bytes) := by
              rcases h2 with h2 | h2
              exacts [text_lt h u h2, incomplete_lt ht u h2]
            rwa [hbs] at this
          rw [pending8_char s hbs c st l x hx r hbr hr.symm (by omega), Option.bind_some]
          simp only
          rw [show (enc s x).length - st.length = k by omega, k2]
          obtain ⟨o', e1, e2, e3⟩ := rest x cs' hcs
          rw [← hcs]
          refine ⟨o', ?_, e2, e3⟩
          rw [rest8, e1, Option.bind_some, if_pos (by simp only; omega)]
  cases s with
  | u32 =>
    have hs0 : st = [] := by
      rcases hst with h | h
      · exact h
      · exfalso
        obtain ⟨h0, x, hx, hp, hne⟩ := h
        apply hne
        apply hp.eq_of_length
        have h1 := hp.length_le
        have h2 : 1 ≤ st.length := List.length_pos_iff.mpr h0
        have h3 : (enc .u32 x).length = 1 := rfl
        omega
    have ht0 : t = [] := by
      rcases ht with h | h
      · exact h
      · exfalso
        obtain ⟨h0, x, hx, hp, hne⟩ := h
        apply hne
        apply hp.eq_of_length
        have h1 := hp.length_le
        have h2 : 1 ≤ t.length := List.length_pos_iff.mpr h0
        have h3 : (enc .u32 x).length = 1 := rfl
        omega
    subst hs0 ht0
    rw [List.nil_append] at e
    obtain ⟨o', e1, e2, e3⟩ := cvt_text .u32 c hf hsd cs [] h (Or.inl rfl) o
    refine ⟨o', ?_, e2, e3⟩
    unfold cvtState
    simp only
    rw [e, e1]; rfl
  | u16 =>
    unfold cvtState
    simp only
    have tk : t.take 1 = t := by
      rcases ht with rfl | ht
      · rfl
      · obtain ⟨y, rfl, _⟩ := incomplete16 ht; rfl
    cases hs : st with
    | nil =>
      simp only
      rw [hs, List.nil_append] at e
      obtain ⟨o', e1, e2, e3⟩ := cvt_text .u16 c hf hsd cs t h ht o
      refine ⟨o', ?_, e2, e3⟩
      rw [e, e1, Option.map_some, tk]
    | cons hi r =>
      have hsn : st ≠ [] := by rw [hs]; simp
      simp only
      by_cases hl : l = []
      · rw [if_pos hl]
        obtain ⟨rfl, rfl⟩ := empty hl hsn
        refine ⟨o, by rw [hs], by simp [encOut_nil], ?_⟩
        rw [encOut_nil]; exact Wrote.nil _ _ _
      · rw [if_neg hl]
        have hinc : Incomplete .u16 st := by rcases hst with h | h; exacts [absurd h hsn, h]
        obtain ⟨y, hy, h1, h2⟩ := incomplete16 hinc
        rw [hs] at hy
        simp only [List.cons.injEq] at hy
        obtain ⟨rfl, rfl⟩ := hy
        rcases hl' : l with _ | ⟨v, l'⟩
        · exact absurd hl' hl
        cases hcs : cs with
        | nil =>
          exfalso
          rw [hcs, hs, hl'] at e
          have : t.length ≤ 1 := by rw [← tk]; simp
          have := congrArg List.length e
          simp [encText] at this
          omega
        | cons x cs' =>
          obtain ⟨k, k1, k2, k3⟩ := first hsn x cs' hcs
          have hx := h x (by rw [hcs]; simp)
          have hxe : enc .u16 x = [hi, v] := by
            rw [hcs, hs, hl'] at e
            simp only [encText, List.flatMap_cons, List.append_assoc, List.cons_append, List.nil_append] at e
            have h0 := hx.1
            have h0' := hx.2
            simp only [enc, enc16] at e ⊢
            split_ifs at e ⊢ with hc
            · simp at e; omega
            · simp at e; simp [e.1, e.2.1]
          have hk : k = 1 := by rw [hxe, hs] at k1; simp at k1; omega
          subst hk
          rw [hl'] at k2
          simp only [List.drop_succ_cons, List.drop_zero] at k2
          subst k2
          have hb : 0xDC00 ≤ v ∧ v < 0xE000 := by
            have h0 := hx.1
            have h0' := hx.2
            simp only [enc, enc16] at hxe
            split_ifs at hxe with hc
            · simp at hxe
            · simp at hxe; omega
          have hsur : surrogates hi v = x := by
            obtain ⟨a, b⟩ := pair_ok h1 h2 hb.1 hb.2
            exact (prefixFree .u16).2 _ _ a hx (by simp only [enc]; rw [b, ← hxe]; simp only [enc]; exact List.prefix_refl _)
          unfold pending16
          simp only
          rw [if_pos ((isLow_iff v (by norm_num; omega)).mpr hb), hsur]
          have hput : (if c.d = .u32 then some (encText .u16 cs' ++ t, put o [bsw .u32 c.swap x])
              else (codeUnits c.d c.swap x).map fun u => (encText .u16 cs' ++ t, put o u)) =
              some (encText .u16 cs' ++ t, put o (encOut c.d c.swap [x])) := by
            split_ifs with hd
            · rw [hd, encOut_single]; rfl
            · rw [codeUnits_eq c.d c.swap x hx, Option.map_some]
          rw [hput, Option.bind_some]
          simp only
          obtain ⟨o', e1, e2, e3⟩ := rest x cs' hcs
          rw [← hcs]
          exact ⟨o', by rw [e1, Option.map_some, tk], e2, e3⟩
  | u8 => exact bytes_case rfl (by unfold cvtState; rfl)
  | ebcdic => exact bytes_case rfl (by unfold cvtState; rfl)

end Verif.Utf
