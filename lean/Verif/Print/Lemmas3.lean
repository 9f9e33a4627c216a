import Verif.Print.Lemmas2
import Verif.Print.Streams
import Verif.IoBuf.OutLemmas
/-! # Lemmas on the streams and on `concat` -/
namespace Verif.Print

/-- Everything written to the file, including what is still in the buffer. -/
def fileOut (s : IoBuf.St) : List Nat := s.dev.got ++ s.held

/-- The buffer is not overfull and the device takes everything. -/
def FileInv (cfg : IoBuf.Cfg) (s : IoBuf.St) : Prop := IoBuf.Inv cfg s ∧ ∀ a ∈ s.dev.script, a = IoBuf.Answer.full

theorem file_of_ok {cfg : IoBuf.Cfg} {s s' : IoBuf.St} {bs : List Nat} {o : IoBuf.Out} (hs : FileInv cfg s)
    (h : IoBuf.Ok cfg s bs s' o) : o = .ok ∧ FileInv cfg s' ∧ fileOut s' = fileOut s ++ bs := by
  obtain ⟨ho, hf⟩ := h.full hs.2
  obtain ⟨c, e, hc, _⟩ := h.sent
  refine ⟨ho, ⟨h.inv, hf⟩, ?_⟩
  rw [← hc ho]
  exact e

theorem file_lawful {cfg : IoBuf.Cfg} (hb : 1 ≤ cfg.bfs) : Lawful (fileStream cfg) fileOut (FileInv cfg) (fun _ => False) where
  push s bs h hr := by
    obtain ⟨s', e, ok⟩ := IoBuf.append_ok h.1 (.inl h.2) (bs := bs) hr
    have e' : (fileStream cfg).push s bs = s' := by simp [fileStream, e]
    rw [e']
    exact (file_of_ok h ok).2
  write s bs h := by
    obtain ⟨s', o, e, ok⟩ := IoBuf.write_ok h.1 (.inl h.2) bs
    obtain ⟨ho, h'⟩ := file_of_ok h ok
    subst ho
    have e' : (fileStream cfg).write s bs = .ok s' := by simp [fileStream, e, ofIo]
    rw [e']
    exact h'
  overflow s c h h0 := by
    have hr : IoBuf.room cfg s = 0 := h0
    obtain ⟨s', o, e, ok⟩ := IoBuf.put_ok hb h.1 (.inl h.2) c
    obtain ⟨ho, h'⟩ := file_of_ok h ok
    subst ho
    have e' : (fileStream cfg).overflow s c = .ok s' := by
      unfold IoBuf.put at e
      rw [if_pos hr] at e
      simp [fileStream, e, ofIo]
    rw [e']
    exact h'
  const n f hc s h := by
    simp only [fileStream, Option.some.injEq, Prod.mk.injEq] at hc
    obtain ⟨rfl, rfl⟩ := hc
    obtain ⟨s', o, e, ok, _, h3⟩ := IoBuf.prepare_ok h.1 (.inl h.2)
    obtain ⟨ho, h'⟩ := file_of_ok h ok
    subst ho
    simp only [e, ofIo]
    refine ⟨h'.1, by simpa using h'.2, ?_⟩
    show cfg.bfs ≤ IoBuf.room cfg s'
    simp [IoBuf.room, h3 rfl]
  contiguous := by simp [fileStream]
  mono := by simp

theorem view_lawful (cap : Nat) : Lawful (viewStream cap) id (fun l => l.length ≤ cap) (fun _ => True) where
  push s bs h hr := by
    simp only [viewStream, id, List.length_append] at *
    exact ⟨by omega, trivial⟩
  write s bs h := by
    show Done _ _ _ _ _ (if cap - s.length < bs.length then .error .stop else .ok (s ++ bs))
    split_ifs with h1
    · trivial
    · exact ⟨by show (s ++ bs).length ≤ cap; rw [List.length_append]; omega, rfl⟩
  overflow s c h h0 := trivial
  const := by simp [viewStream]
  contiguous := by simp
  mono := by simp

/-- The string type keeps its promises: capacities are as large as asked for. -/
structure StrCfg.Good (c : StrCfg) : Prop where
  reserve : ∀ cap n, cap < n → n ≤ c.reserveCap cap n
  append : ∀ cap n, cap < n → n ≤ c.appendCap cap n
  sso : ∀ n, c.sso = some n → n ≤ c.fresh
  char : 1 ≤ c.charSize ∧ c.charSize ≤ 8
  /-- Only the library's own buffer relies on `cal_new_cap_io_strlike`. -/
  own : c.aux = false → (∀ cap n, c.reserveCap cap n = n) ∧ c.fresh ≤ 2 ^ 20

/-- The number of characters that can be addressed. -/
abbrev StrCfg.mx (c : StrCfg) : Nat := (2 ^ 64 - 1) / c.charSize

theorem StrCfg.Good.mx {c : StrCfg} (h : c.Good) : 2 ^ 60 ≤ c.mx := by
  obtain ⟨h1, h8⟩ := h.char
  unfold StrCfg.mx
  rw [Nat.le_div_iff_mul_le (by omega)]
  omega

/-- The contents fit, and the capacity is in proportion to them. -/
def StrInv (c : StrCfg) (s : Str) : Prop :=
  s.content.length ≤ s.cap ∧
  (c.aux = false → s.cap ≤ c.mx ∧ (s.cap ≤ 2 * s.content.length + c.fresh + 1 ∨ 2 ^ 56 ≤ s.content.length))

/-- The library's own buffer gives up when the text does not fit into the address space. -/
def StrMay (c : StrCfg) (n : Nat) : Prop := c.aux = false ∧ 2 ^ 56 ≤ n

theorem strReserve_cases {c : StrCfg} (hc : c.Good) (s : Str) (n : Nat) :
    (∃ s', strReserve c s n = .ok s' ∧ n ≤ s'.cap ∧ s.cap ≤ s'.cap ∧ s'.content = s.content ∧
      (c.aux = false → s'.cap = max s.cap n ∧ (n ≤ s.cap ∨ n ≤ c.mx))) ∨
    (strReserve c s n = .error .stop ∧ c.mx < n) := by
  unfold strReserve
  split_ifs with h1 h2
  · exact .inr ⟨rfl, h2⟩
  · have := hc.reserve _ _ h1
    refine .inl ⟨_, rfl, this, by show s.cap ≤ c.reserveCap s.cap n; omega, rfl, fun ha => ⟨?_, .inr (by unfold StrCfg.mx; omega)⟩⟩
    show c.reserveCap s.cap n = _
    rw [(hc.own ha).1]; omega
  · exact .inl ⟨_, rfl, by omega, Nat.le_refl _, rfl, fun ha => ⟨by omega, .inl (by omega)⟩⟩

theorem newCap_cases {c : StrCfg} (hc : c.Good) {cap : Nat} (h : cap ≤ c.mx) :
    (newCap c.charSize cap = .error .stop ∧ 2 ^ 58 ≤ cap) ∨
    (∃ n, newCap c.charSize cap = .ok n ∧ cap < n ∧ n ≤ c.mx ∧ (n ≤ 2 * cap + 1 ∨ 2 ^ 58 ≤ cap)) := by
  have hmx := hc.mx
  unfold newCap
  unfold StrCfg.mx at *
  generalize (2 ^ 64 - 1) / c.charSize = mx at *
  simp only []
  split_ifs with a b d
  · exact .inr ⟨1, rfl, by omega, by omega, .inl (by omega)⟩
  · exact .inl ⟨rfl, by omega⟩
  · exact .inr ⟨mx, rfl, by omega, by omega, .inr (by omega)⟩
  · exact .inr ⟨_, rfl, by omega, by omega, .inl (by omega)⟩

theorem strStore_ok {s : Str} {bs : List Nat} (h : s.content.length + bs.length ≤ s.cap) :
    strStore s bs = .ok { s with content := s.content ++ bs } := if_pos h

theorem str_lawful {c : StrCfg} (hc : c.Good) : Lawful (strStream c) Str.content (StrInv c) (StrMay c) where
  push s bs h hr := by
    simp only [strStream] at hr
    have h1 := h.1
    refine ⟨⟨by show (s.content ++ bs).length ≤ s.cap; rw [List.length_append]; omega, fun ha => ?_⟩, rfl⟩
    show s.cap ≤ c.mx ∧ (s.cap ≤ 2 * (s.content ++ bs).length + c.fresh + 1 ∨ 2 ^ 56 ≤ (s.content ++ bs).length)
    have := h.2 ha
    rw [List.length_append]
    omega
  write s bs h := by
    show Done _ _ _ _ _ (strWrite c s bs)
    unfold strWrite
    cases ha : c.aux with
    | true =>
      simp only [if_true]
      refine ⟨⟨?_, fun hf => by rw [ha] at hf; cases hf⟩, rfl⟩
      show (s.content ++ bs).length ≤ if s.content.length + bs.length ≤ s.cap then s.cap else c.appendCap s.cap (s.content.length + bs.length)
      rw [List.length_append]
      split_ifs with h1
      · exact h1
      · exact hc.append _ _ (by omega)
    | false =>
      simp only [Bool.false_eq_true, if_false]
      have hle := h.1
      obtain ⟨hm, hp⟩ := h.2 ha
      split_ifs with h1
      · rw [strStore_ok (by omega)]
        refine ⟨⟨by show (s.content ++ bs).length ≤ s.cap; rw [List.length_append]; omega, fun _ => ⟨hm, ?_⟩⟩, rfl⟩
        show s.cap ≤ 2 * (s.content ++ bs).length + c.fresh + 1 ∨ 2 ^ 56 ≤ (s.content ++ bs).length
        rw [List.length_append]
        omega
      · unfold strWriteCold
        simp only []
        have hd : (bs.take (s.cap - s.content.length)).length = s.cap - s.content.length := by rw [List.length_take]; omega
        have hr : (bs.drop (s.cap - s.content.length)).length = bs.length - (s.cap - s.content.length) := by simp
        rw [strStore_ok (by omega)]
        show Done _ _ _ _ _ (newCap c.charSize s.cap >>= _)
        rcases newCap_cases hc hm with ⟨e, hbig⟩ | ⟨n, e, hgt, hn, hn2⟩
        · rw [e]
          exact ⟨ha, by show 2 ^ 56 ≤ (s.content ++ bs).length; rw [List.length_append]; omega⟩
        · rw [e]
          show Done _ _ _ _ _ (if _ then _ else _)
          generalize hrest : bs.drop (s.cap - s.content.length) = rest at *
          have hall : s.content ++ bs.take (s.cap - s.content.length) ++ rest = s.content ++ bs := by
            rw [← hrest, List.append_assoc, List.take_append_drop]
          have hlen : (s.content ++ bs.take (s.cap - s.content.length)).length = s.cap := by rw [List.length_append]; omega
          simp only []
          by_cases h2 : 2 ^ 64 ≤ rest.length + s.cap
          · rw [if_pos h2]
            exact ⟨ha, by show 2 ^ 56 ≤ (s.content ++ bs).length; rw [List.length_append]; omega⟩
          · rw [if_neg h2]
            generalize hcap : (if n < rest.length + s.cap then rest.length + s.cap else n) = cap'
            have hc1 : rest.length + s.cap ≤ cap' ∧ n ≤ cap' ∧ (cap' = n ∨ cap' = rest.length + s.cap) := by
              rw [← hcap]; split_ifs <;> omega
            rcases strReserve_cases hc { s with content := s.content ++ bs.take (s.cap - s.content.length) } cap' with
              ⟨s', e', g1, g2, g3, g4⟩ | ⟨e', g⟩
            · rw [e']
              show Done _ _ _ _ _ (strStore s' rest)
              have g4 := g4 ha
              simp only [] at g3 g4 g2
              rw [strStore_ok (by rw [g3, hlen]; omega)]
              refine ⟨⟨?_, fun _ => ⟨?_, ?_⟩⟩, ?_⟩
              · show (s'.content ++ rest).length ≤ s'.cap
                rw [List.length_append, g3, hlen]; omega
              · show s'.cap ≤ c.mx
                omega
              · show s'.cap ≤ 2 * (s'.content ++ rest).length + c.fresh + 1 ∨ 2 ^ 56 ≤ (s'.content ++ rest).length
                rw [List.length_append, g3, hlen]
                omega
              · show s'.content ++ rest = _
                rw [g3, hall]
            · rw [e']
              refine ⟨ha, ?_⟩
              show 2 ^ 56 ≤ (s.content ++ bs).length
              rw [List.length_append]
              have := hc.mx
              omega
  overflow s ch h h0 := by
    show Done _ _ _ _ _ (strOverflow c s ch)
    simp only [strStream] at h0
    have hle := h.1
    unfold strOverflow
    cases ha : c.aux with
    | true =>
      simp only [if_true]
      refine ⟨⟨?_, fun hf => by rw [ha] at hf; cases hf⟩, rfl⟩
      show (s.content ++ [ch]).length ≤ if s.content.length + [ch].length ≤ s.cap then s.cap else c.appendCap s.cap (s.content.length + [ch].length)
      rw [List.length_append]
      split_ifs with h1
      · exact h1
      · exact hc.append _ _ (by omega)
    | false =>
      simp only [Bool.false_eq_true, if_false]
      obtain ⟨hm, hp⟩ := h.2 ha
      rcases newCap_cases hc hm with ⟨e, hbig⟩ | ⟨n, e, hgt, hn, hn2⟩
      · rw [e]
        exact ⟨ha, by show 2 ^ 56 ≤ (s.content ++ [ch]).length; rw [List.length_append]; omega⟩
      · rw [e]
        show Done _ _ _ _ _ (strReserve c s n >>= _)
        rcases strReserve_cases hc s n with ⟨s', e', g1, g2, g3, g4⟩ | ⟨e', g⟩
        · rw [e']
          show Done _ _ _ _ _ (strStore s' [ch])
          have g4 := g4 ha
          rw [strStore_ok (by rw [g3]; simp; omega)]
          refine ⟨⟨?_, fun _ => ⟨?_, ?_⟩⟩, ?_⟩
          · show (s'.content ++ [ch]).length ≤ s'.cap
            rw [List.length_append, g3]; simp; omega
          · show s'.cap ≤ c.mx
            omega
          · show s'.cap ≤ 2 * (s'.content ++ [ch]).length + c.fresh + 1 ∨ 2 ^ 56 ≤ (s'.content ++ [ch]).length
            rw [List.length_append, g3]
            simp only [List.length_cons, List.length_nil]
            omega
          · show s'.content ++ [ch] = _
            rw [g3]
        · omega
  const := by simp [strStream]
  contiguous := by simp [strStream]
  mono := by
    intro m n h h2
    exact ⟨h2.1, Nat.le_trans h2.2 h⟩

end Verif.Print
