import Verif.Utf.Lemmas6
/-!
# Chunks of arbitrary input
-/
namespace Verif.Utf
open Verif

/-- A write of `l` after pending `st`: what is read is determined by `st ++ l`. -/
def StepOk (s : Enc) (c : Cfg) (st l : List Nat) : Prop :=
  ∀ o : Out, ∃ cs t o', cvtState s c st l o = some (t, o') ∧ Reads s (st ++ l) cs t ∧ o'.2 = o.2 + (encOut c.d c.swap cs).length ∧
    Wrote (factor s c.d * (st.length + l.length)) o.1 o'.1 o.2 (encOut c.d c.swap cs)

theorem state_u8 (c : Cfg) (hd : c.d ≠ .u8) (hs : c.sse = true → c.d = .ebcdic ∨ c.swap = false) (st l : List Nat)
    (hst : st = [] ∨ Incomplete .u8 st) (hb : ∀ u ∈ l, u < 256) : StepOk .u8 c st l := by
  intro o
  have fin : ∀ l' : List Nat, (∀ u ∈ l', u < 256) → ∀ o', ∃ cs t o'', rest8 .u8 c l' o' = some (t, o'') ∧ Reads .u8 l' cs t ∧
      o''.2 = o'.2 + (encOut c.d c.swap cs).length ∧ Wrote (factor .u8 c.d * l'.length) o'.1 o''.1 o'.2 (encOut c.d c.swap cs) := by
    intro l' hl' o'
    obtain ⟨cs, t, o'', e1, e2, e3, e4⟩ := cvt_u8 c hd hs l' hl' o'
    refine ⟨cs, t, o'', ?_, e2, e3, e4⟩
    have : t.length ≤ 4 := by
      rcases e2.tail_ok with h | h
      · rw [h]; simp
      · exact incomplete_len h
    rw [rest8, e1, Option.bind_some, if_pos (by simp only; omega)]
  unfold cvtState
  simp only
  by_cases h0 : st = []
  · rw [if_pos h0]
    subst h0
    simpa using fin l hb o
  · rw [if_neg h0]
    have hinc : Incomplete .u8 st := by rcases hst with h | h; exacts [absurd h h0, h]
    have hstl := incomplete_len hinc
    by_cases hl : l = []
    · rw [if_pos hl]
      subst hl
      refine ⟨[], st, o, rfl, ?_, by simp [encOut_nil], by rw [encOut_nil]; exact Wrote.nil _ _ _⟩
      rw [List.append_nil]
      exact .done st hst
    · rw [if_neg hl]
      have hbb : ∀ u ∈ st ++ l.take (8 - st.length), u < 256 := by
        intro u hu
        rw [List.mem_append] at hu
        rcases hu with hu | hu
        exacts [incomplete_lt hst u hu, hb u (List.mem_of_mem_take hu)]
      -- a piece `p` longer than the state, read as the character `x`
      have piece : ∀ (x : Nat) (p r : List Nat), Scalar x → st ++ l.take (8 - st.length) = p ++ r → st.length ≤ p.length →
          (encOut c.d c.swap [x]).length ≤ factor .u8 c.d * p.length →
          (∀ rest cs t, Reads .u8 rest cs t → Reads .u8 (p ++ rest) (x :: cs) t) →
          advance (st ++ l.take (8 - st.length)) = some (some (r, x)) →
          ∃ cs t o', ((pending8 .u8 c st l o).bind fun
            | .inl st => some (st, o)
            | .inr r => rest8 .u8 c r.1 r.2) = some (t, o') ∧ Reads .u8 (st ++ l) cs t ∧ o'.2 = o.2 + (encOut c.d c.swap cs).length ∧
            Wrote (factor .u8 c.d * (st.length + l.length)) o.1 o'.1 o.2 (encOut c.d c.swap cs) := by
        intro x p r hx e hk hlen hreads hadv
        have hpend : pending8 .u8 c st l o = some (.inr (l.drop (p.length - st.length), put o (encOut c.d c.swap [x]))) := by
          unfold pending8
          simp only
          rw [if_pos trivial, hadv, Option.bind_some]
          simp only
          rw [putCode_eq c.d c.swap false (by simp) x hx, Option.bind_some, e, List.length_append, Nat.add_sub_cancel, if_neg (by omega)]
        have hpl : p.length ≤ st.length + l.length := by
          have := congrArg List.length e
          simp only [List.length_append, List.length_take] at this
          omega
        have hpe : st ++ l = p ++ l.drop (p.length - st.length) := by
          have h1 : p <+: st ++ l := by
            refine List.IsPrefix.trans ⟨r, e.symm⟩ ?_
            exact (List.prefix_append_right_inj st).mpr (List.take_prefix _ _)
          obtain ⟨q, hq⟩ := h1
          have : q = l.drop (p.length - st.length) := by
            have := congrArg (List.drop p.length) hq
            rw [List.drop_left, List.drop_append, List.drop_eq_nil_of_le hk] at this
            simpa using this
          rw [← this, hq]
        rw [hpend, Option.bind_some]
        simp only
        obtain ⟨cs, t, o', e1, e2, e3, e4⟩ := fin (l.drop (p.length - st.length)) (fun u hu => hb u (List.mem_of_mem_drop hu)) (put o (encOut c.d c.swap [x]))
        refine ⟨x :: cs, t, o', e1, by rw [hpe]; exact hreads _ _ _ e2, ?_, ?_⟩
        · rw [e3, encOut_cons c.d c.swap x cs, List.length_append]; simp only [put]; omega
        · rw [encOut_cons c.d c.swap x cs]
          have hmul : factor .u8 c.d * (st.length + l.length) =
              factor .u8 c.d * p.length + factor .u8 c.d * (l.drop (p.length - st.length)).length := by
            rw [← Nat.mul_add]; congr 1; simp; omega
          rw [hmul]
          exact Wrote.append (put_wrote o _) (by simpa only [put] using e4) (by omega) (by omega)
      rcases advance_ok (st ++ l.take (8 - st.length)) (by simp [h0]) hbb with ⟨x, r, hx, e, h⟩ | ⟨p, r, hp, e, h⟩ | ⟨hi, h⟩
      · refine piece x (enc8 x) r hx e ?_ ?_ (fun rest cs t hr => .char x rest cs t hx hr) h
        · by_contra hlt
          refine char_not_incomplete (prefixFree .u8) hx hinc ?_
          exact List.prefix_of_prefix_length_le (l₃ := st ++ l.take (8 - st.length)) ⟨r, e.symm⟩ (List.prefix_append _ _) (by simp only [enc]; omega)
        · rw [encOut_length]; simp only [encText, List.flatMap_cons, List.flatMap_nil, List.append_nil]; exact enc_le .u8 c.d x
      · refine piece 0xFFFD p r scalar_fffd e ?_ ?_ (fun rest cs t hr => .bad p rest cs t hp hr) h
        · by_contra hlt
          refine bad_not_prefix_incomplete hp hinc ?_
          exact List.prefix_of_prefix_length_le (l₃ := st ++ l.take (8 - st.length)) ⟨r, e.symm⟩ (List.prefix_append _ _) (by omega)
        · rw [encOut_length]
          have h1 := enc_fffd_le .u8 c.d
          have h2 : 1 ≤ p.length := List.length_pos_iff.mpr hp.1
          have h3 : factor .u8 c.d * 1 ≤ factor .u8 c.d * p.length := Nat.mul_le_mul_left _ h2
          simp only [encText, List.flatMap_cons, List.flatMap_nil, List.append_nil]
          omega
      · have htk : l.take (8 - st.length) = l := by
          apply List.take_of_length_le
          have := incomplete_len hi
          simp only [List.length_append, List.length_take] at this
          omega
        rw [htk] at hi h
        have hpend : pending8 .u8 c st l o = some (.inl (st ++ l)) := by
          have := pending8_incomplete .u8 rfl c st l (by rw [htk]; exact hi) o
          rwa [htk] at this
        rw [hpend, Option.bind_some]
        exact ⟨[], st ++ l, o, rfl, .done _ (Or.inr hi), by simp [encOut_nil], by rw [encOut_nil]; exact Wrote.nil _ _ _⟩

/-- Every high surrogate followed by another unit is followed by a low surrogate. -/
def Paired (l : List Nat) : Prop := ∀ i h x, l[i]? = some h → l[i + 1]? = some x → 0xD800 ≤ h → h < 0xDC00 → 0xDC00 ≤ x ∧ x < 0xE000

theorem state_u16 (c : Cfg) (hd : Ok16 c.d c.swap) (he : c.d ≠ .ebcdic) (st l : List Nat)
    (hst : st = [] ∨ Incomplete .u16 st) (hb : ∀ u ∈ l, u < 2 ^ 16) (hp : Paired (st ++ l)) : StepOk .u16 c st l := by
  intro o
  have fin : ∀ l' : List Nat, (∀ u ∈ l', u < 2 ^ 16) → ∀ o', ∃ cs t o'', (cvt .u16 c l' o').map (fun r => (r.1.take 1, r.2)) = some (t, o'') ∧
      Reads .u16 l' cs t ∧ o''.2 = o'.2 + (encOut c.d c.swap cs).length ∧
      Wrote (factor .u16 c.d * l'.length) o'.1 o''.1 o'.2 (encOut c.d c.swap cs) := by
    intro l' hl' o'
    obtain ⟨cs, t, e1, e2⟩ := loop16_ok c.d c.swap hd he l'.length l' o' (le_refl _) hl'
    refine ⟨cs, t, _, ?_, e2, rfl, (put_wrote o' _).mono ?_⟩
    · unfold cvt
      rw [if_neg (fun h => hd.1 h.1.symm), if_neg (fun h => hd.1 h.symm)]
      simp only
      rw [e1, Option.map_some]
      rcases e2.tail_ok with h | h
      · rw [h]; rfl
      · obtain ⟨y, hy, _⟩ := incomplete16 h
        rw [hy]; rfl
    · rw [encOut_length]
      have := reads_factor (d := c.d) e2
      omega
  unfold cvtState
  simp only
  rcases hst with rfl | hinc
  · simp only
    simpa using fin l hb o
  · obtain ⟨hi, rfl, h1, h2⟩ := incomplete16 hinc
    simp only
    by_cases hl : l = []
    · rw [if_pos hl]
      subst hl
      refine ⟨[], [hi], o, rfl, ?_, by simp [encOut_nil], by rw [encOut_nil]; exact Wrote.nil _ _ _⟩
      rw [List.append_nil]
      exact .done _ (Or.inr hinc)
    · rw [if_neg hl]
      rcases l with _ | ⟨v, l⟩
      · exact absurd rfl hl
      have hv := hp 0 hi v rfl rfl h1 h2
      obtain ⟨a, b⟩ := pair_ok h1 h2 hv.1 hv.2
      unfold pending16
      simp only
      rw [if_pos ((isLow_iff v (by norm_num; omega)).mpr hv)]
      have hput : (if c.d = .u32 then some (l, put o [bsw .u32 c.swap (surrogates hi v)])
          else (codeUnits c.d c.swap (surrogates hi v)).map fun u => (l, put o u)) =
          some (l, put o (encOut c.d c.swap [surrogates hi v])) := by
        split_ifs with hd
        · rw [hd, encOut_single]; rfl
        · rw [codeUnits_eq c.d c.swap _ a, Option.map_some]
      rw [hput, Option.bind_some]
      simp only
      obtain ⟨cs, t, o', e1, e2, e3, e4⟩ := fin l (fun u hu => hb u (by simp [hu])) (put o (encOut c.d c.swap [surrogates hi v]))
      refine ⟨surrogates hi v :: cs, t, o', e1, ?_, ?_, ?_⟩
      · have := Reads.char _ _ _ _ a e2
        simp only [enc] at this
        rwa [b] at this
      · rw [e3, encOut_cons c.d c.swap (surrogates hi v) cs, List.length_append]; simp only [put]; omega
      · rw [encOut_cons c.d c.swap (surrogates hi v) cs]
        have hmul : factor .u16 c.d * ([hi].length + (v :: l).length) = factor .u16 c.d * 2 + factor .u16 c.d * l.length := by
          have : [hi].length + (v :: l).length = 2 + l.length := by simp only [List.length_cons, List.length_nil]; omega
          rw [this, Nat.mul_add]
        have hle := enc_le .u16 c.d (surrogates hi v)
        have : (enc .u16 (surrogates hi v)).length = 2 := by simp only [enc]; rw [b]; rfl
        rw [this] at hle
        have hle2 : (encOut c.d c.swap [surrogates hi v]).length ≤ factor .u16 c.d * 2 := by
          rw [encOut_length]; simp only [encText, List.flatMap_cons, List.flatMap_nil, List.append_nil]; exact hle
        rw [hmul]
        exact Wrote.append (put_wrote o _) (by simpa only [put] using e4) (by omega) (by omega)

/-- Writes in sequence, when every one of them is right. -/
theorem chunks_ok (s : Enc) (c : Cfg) (P : List Nat → Prop) (hP : ∀ st l, P (st ++ l) → (st = [] ∨ Incomplete s st) → StepOk s c st l)
    (hP1 : ∀ a b, P (a ++ b) → P a) (hP2 : ∀ a b, P (a ++ b) → P b) :
    ∀ (ls : List (List Nat)) (st : List Nat), (st = [] ∨ Incomplete s st) → P (st ++ ls.flatten) → ∀ o : Out,
    ∃ cs t o', cvtChunks s c st ls o = some (t, o') ∧ Reads s (st ++ ls.flatten) cs t ∧ o'.2 = o.2 + (encOut c.d c.swap cs).length ∧
      Wrote (factor s c.d * (st.length + ls.flatten.length)) o.1 o'.1 o.2 (encOut c.d c.swap cs)
  | [], st, hst, _, o => by
    refine ⟨[], st, o, rfl, ?_, by simp [encOut_nil], by rw [encOut_nil]; exact Wrote.nil _ _ _⟩
    simpa using Reads.done st hst
  | l :: ls, st, hst, hp, o => by
    rw [List.flatten_cons] at hp ⊢
    rw [← List.append_assoc] at hp
    obtain ⟨cs, t, o', e1, e2, e3, e4⟩ := hP st l (hP1 _ _ hp) hst o
    have hpt : P (t ++ ls.flatten) := by
      have : ∃ a, st ++ l = a ++ t := e2.tail_suffix
      obtain ⟨a, ha⟩ := this
      rw [ha, List.append_assoc] at hp
      exact hP2 _ _ hp
    obtain ⟨cs2, t2, o2, f1, f2, f3, f4⟩ := chunks_ok s c P hP hP1 hP2 ls t e2.tail_ok hpt o'
    refine ⟨cs ++ cs2, t2, o2, ?_, ?_, ?_, ?_⟩
    · rw [cvtChunks, e1, Option.bind_some]; exact f1
    · rw [← List.append_assoc]; exact e2.append f2
    · rw [f3, e3, encOut_append, List.length_append]; omega
    · rw [encOut_append]
      rw [e3] at f4
      have hlen : t.length ≤ st.length + l.length := by
        obtain ⟨a, ha⟩ := e2.tail_suffix
        have := congrArg List.length ha
        simp at this; omega
      have h1 := reads_factor (d := c.d) e2
      rw [← encOut_length c.d c.swap] at h1
      rw [List.length_append] at h1
      have hm : factor s c.d * (st.length + (l ++ ls.flatten).length) = factor s c.d * (st.length + l.length) + factor s c.d * ls.flatten.length := by
        rw [← Nat.mul_add]; congr 1; simp; omega
      have hm2 : factor s c.d * (t.length + ls.flatten.length) = factor s c.d * t.length + factor s c.d * ls.flatten.length := Nat.mul_add _ _ _
      rw [hm]
      exact Wrote.append e4 f4 (by omega) (by omega)

/-- Writes of a well-formed text in sequence. -/
theorem chunks_text (s : Enc) (c : Cfg) (hf : Fine s c) (hsd : s ≠ c.d) : ∀ (ls : List (List Nat)) (st cs t : List Nat),
    (st = [] ∨ Incomplete s st) → (∀ x ∈ cs, Scalar x) → (t = [] ∨ Incomplete s t) → st ++ ls.flatten = encText s cs ++ t → ∀ o : Out,
    ∃ o', cvtChunks s c st ls o = some (t, o') ∧ o'.2 = o.2 + (encOut c.d c.swap cs).length ∧
      Wrote (factor s c.d * (st.length + ls.flatten.length)) o.1 o'.1 o.2 (encOut c.d c.swap cs)
  | [], st, cs, t, hst, h, ht, e, o => by
    rw [List.flatten_nil, List.append_nil] at e
    have h1 : Reads s st [] st := .done st hst
    rw [e] at h1
    obtain ⟨rfl, h2⟩ := reads_text_det h ht h1
    refine ⟨o, ?_, by simp [encOut_nil], by rw [encOut_nil]; exact Wrote.nil _ _ _⟩
    rw [cvtChunks, ← h2, ← e]
  | l :: ls, st, cs, t, hst, h, ht, e, o => by
    rw [List.flatten_cons, ← List.append_assoc] at e
    obtain ⟨cs1, t1, cs2, rfl, e2, e3, e4⟩ := text_split cs (st ++ l) ls.flatten t h ht e
    have hs1 : ∀ x ∈ cs1, Scalar x := fun x hx => h x (by simp [hx])
    obtain ⟨o1, f1, f2, f3⟩ := state_text s c hf hsd st l cs1 t1 hst hs1 e3 e2 o
    obtain ⟨o2, g1, g2, g3⟩ := chunks_text s c hf hsd ls t1 cs2 t e3 (fun x hx => h x (by simp [hx])) ht e4 o1
    refine ⟨o2, ?_, ?_, ?_⟩
    · rw [cvtChunks, f1, Option.bind_some]; exact g1
    · rw [g2, f2, encOut_append, List.length_append]; omega
    · rw [encOut_append]
      rw [f2] at g3
      have h1 := text_factor (d := c.d) cs1 t1 hs1 e3 c.swap
      rw [← e2, List.length_append] at h1
      have hm : factor s c.d * (st.length + (l :: ls).flatten.length) = factor s c.d * (st.length + l.length) + factor s c.d * ls.flatten.length := by
        rw [← Nat.mul_add]; congr 1; simp; omega
      have hm2 : factor s c.d * (t1.length + ls.flatten.length) = factor s c.d * t1.length + factor s c.d * ls.flatten.length := Nat.mul_add _ _ _
      rw [hm]
      exact Wrote.append f3 g3 (by omega) (by omega)

end Verif.Utf
