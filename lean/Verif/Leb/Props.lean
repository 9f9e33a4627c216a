import Verif.Leb.Lemmas2
/-!
# Properties C11, C12, C13: LEB128
-/
namespace Verif.Leb
open Verif Verif.IntPrint

theorem put_spec {bits : Nat} (hw : Width bits) (signed : Bool) (v : Int) (hv : InRange bits signed v) :
    ∃ gs, Groups gs ∧ put signed v = groupBytes gs ∧ value signed gs = v ∧ gs.length ≤ maxGroups bits := by
  have hm := width_maxGroups hw
  cases signed with
  | true =>
    obtain ⟨gs, h1, h2, h3, h4⟩ := putS_spec _ v rfl
    refine ⟨gs, h1, by simpa [put] using h2, h3, h4 _ (by omega) ?_ ?_⟩
    all_goals
      have hp : (2 : Int) ^ (bits - 1) ≤ 2 ^ (7 * maxGroups bits - 1) := pow_le_pow_right₀ (by norm_num) (by omega)
      simp only [InRange, if_true] at hv
      omega
  | false =>
    obtain ⟨gs, h1, h2, h3, h4⟩ := putU_spec v.toNat
    simp only [InRange, Bool.false_eq_true, if_false] at hv
    refine ⟨gs, h1, by simpa [put] using h2, by simp only [value, Bool.false_eq_true, if_false, h3]; omega, h4 _ (by omega) ?_⟩
    have hp : (2 : Nat) ^ bits ≤ 2 ^ (7 * maxGroups bits) := Nat.pow_le_pow_right (by norm_num) (by omega)
    have : ((v.toNat : Nat) : Int) < ((2 ^ bits : Nat) : Int) := by push_cast; omega
    have : v.toNat < 2 ^ bits := by exact_mod_cast this
    omega

/-- **C13 (completeness).** A complete LEB128 sequence of at most `⌈bits/7⌉` groups whose value is in the range of the
type is decoded to that value, and exactly its bytes are consumed. -/
theorem c13_in_range {cfg : Cfg} (hw : Width cfg.bits) (hcw : 8 ≤ cfg.cw) {gs : List Nat} (hg : Groups gs)
    (hlen : gs.length ≤ maxGroups cfg.bits) (hr : InRange cfg.bits cfg.signed (value cfg.signed gs)) (rest : List Nat) :
    getContig cfg (groupBytes gs ++ rest) = some ⟨rest, .ok, some (value cfg.signed gs)⟩ := by
  obtain ⟨s, h1, h2, h3, _⟩ := loop_groups hw hcw rest gs 0 0 hg (by omega) (by simp)
  simp only [Nat.mul_zero, pow_zero, one_mul, Nat.cast_zero, zero_add] at h1 h3
  obtain ⟨h4, h5⟩ := h3 hr
  simp [getContig, h1, h2, h4, h5]

/-- **C13 (overflow).** A complete LEB128 sequence whose value is outside the range of the type, or which has more than
`⌈bits/7⌉` groups, is reported as overflow and yields no value. -/
theorem c13_overflow {cfg : Cfg} (hw : Width cfg.bits) (hcw : 8 ≤ cfg.cw) {gs : List Nat} (hg : Groups gs)
    (ho : ¬ InRange cfg.bits cfg.signed (value cfg.signed gs) ∨ maxGroups cfg.bits < gs.length) (rest : List Nat) :
    ∃ rest', getContig cfg (groupBytes gs ++ rest) = some ⟨rest', .overflow, none⟩ := by
  have hm := width_maxGroups hw
  rcases Nat.lt_or_ge (maxGroups cfg.bits) gs.length with hlen | hlen
  · obtain ⟨s, h1, h2, _⟩ := loop_long hw hcw (groupBytes gs) 0 0 (by simp) (by omega) (groupBytes_lt gs hg.2)
      (fun k hk h => groupBytes_cont gs k hk (by omega)) (by rw [groupBytes_length]; omega)
    refine ⟨s.rest ++ rest, ?_⟩
    simp only [Nat.mul_zero] at h1
    rw [getContig, loop_append, h1]
    simp [h2]
  · obtain ⟨s, h1, h2, _, h3⟩ := loop_groups hw hcw rest gs 0 0 hg (by omega) (by simp)
    simp only [Nat.mul_zero, pow_zero, one_mul, Nat.cast_zero, zero_add] at h1 h3
    have h4 := h3 (by rcases ho with h | h; exacts [h, by omega])
    exact ⟨rest, by simp [getContig, h1, h2, h4]⟩

/-- **C13 (incomplete input).** Input without the end of a LEB128 sequence yields an error: invalid, or overflow when
it is already too long. -/
theorem c13_incomplete {cfg : Cfg} (hw : Width cfg.bits) (hcw : 8 ≤ cfg.cw) {l : List Nat} (hl : ∀ c ∈ l, c < 2 ^ cfg.cw)
    (hno : ¬ ∃ gs rest, Groups gs ∧ l = groupBytes gs ++ rest) :
    ∃ r, getContig cfg l = some r ∧ (r.code = .invalid ∨ r.code = .overflow) ∧ r.value = none := by
  have hm := width_maxGroups hw
  rcases decompose l with h | ⟨cs, rest, e, hc, hr⟩
  · exact absurd h hno
  · subst e
    rcases Nat.lt_or_ge cs.length (maxGroups cfg.bits) with h | h
    · obtain ⟨t, h1, h2⟩ := loop_cont hw hcw rest cs 0 0 (by simp) (by omega) hc
      simp only [Nat.mul_zero] at h1
      rcases hr with rfl | ⟨c, t, rfl, h256⟩
      · exact ⟨_, by rw [getContig, h1]; rfl, .inl rfl, rfl⟩
      · have : 8 < cfg.cw := by
          by_contra h'
          have e8 : cfg.cw = 8 := by omega
          have := hl c (by simp)
          rw [e8] at this; omega
        rw [loop, if_pos ⟨this, h256⟩] at h1
        exact ⟨_, by rw [getContig, h1]; rfl, .inl rfl, rfl⟩
    · rcases Nat.eq_or_lt_of_le h with h | h
      · -- exactly the maximal number of groups, all continued
        obtain ⟨c, cs', rfl⟩ : ∃ c cs', cs = cs' ++ [c] := by
          have : cs ≠ [] := by intro h'; subst h'; simp at h; omega
          exact ⟨cs.getLast this, cs.dropLast, (List.dropLast_concat_getLast this).symm⟩
        simp only [List.length_append, List.length_singleton] at h
        have hc0 := hc c (by simp)
        obtain ⟨t, h1, h2⟩ := loop_cont hw hcw (c :: rest) cs' 0 0 (by simp) (by omega) (fun x hx => hc x (by simp [hx]))
        simp only [Nat.mul_zero, Nat.zero_add] at h1
        obtain ⟨g, rfl⟩ : ∃ g, c = g + 128 := ⟨c - 128, by omega⟩
        obtain ⟨b1, b2, _⟩ := low_bits g (by omega)
        rw [show cs' ++ [g + 128] ++ rest = cs' ++ (g + 128) :: rest by simp]
        rw [getContig, h1, loop, if_neg (by omega)]
        simp only [b1]
        by_cases hbig : tooBig cfg (7 * cs'.length) g = true
        · rw [if_pos hbig]; exact ⟨_, rfl, .inr rfl, rfl⟩
        · rw [if_neg hbig, if_neg (by omega), if_pos b2]
          rcases hr with rfl | ⟨c, t, rfl, h256⟩
          · exact ⟨_, rfl, .inl rfl, rfl⟩
          · have : 8 < cfg.cw := by
              by_contra h'
              have e8 : cfg.cw = 8 := by omega
              have := hl c (by simp)
              rw [e8] at this; omega
            rw [loop, if_pos ⟨this, h256⟩]
            exact ⟨_, rfl, .inl rfl, rfl⟩
      · obtain ⟨s, h1, h2, _⟩ := loop_long hw hcw cs 0 0 (by simp) (by omega) (fun c h => (hc c h).2)
          (fun k hk _ => (hc _ (List.getElem_mem hk)).1) (by omega)
        simp only [Nat.mul_zero] at h1
        refine ⟨⟨s.rest ++ rest, .overflow, none⟩, ?_, .inr rfl, rfl⟩
        rw [getContig, loop_append, h1]
        simp [h2]

/-- **C13 (soundness).** For every input, decoding is defined, and whenever it reports ok the stored value is the
mathematical value of the group sequence consumed, which is in the range of the type. -/
theorem c13_sound {cfg : Cfg} (hw : Width cfg.bits) (hcw : 8 ≤ cfg.cw) {l : List Nat} (hl : ∀ c ∈ l, c < 2 ^ cfg.cw) :
    ∃ r, getContig cfg l = some r ∧
      (r.code = .ok → ∃ gs, Groups gs ∧ l = groupBytes gs ++ r.rest ∧ r.value = some (value cfg.signed gs) ∧
        InRange cfg.bits cfg.signed (value cfg.signed gs)) ∧
      (r.code ≠ .ok → (r.code = .invalid ∨ r.code = .overflow) ∧ r.value = none) := by
  by_cases h : ∃ gs rest, Groups gs ∧ l = groupBytes gs ++ rest
  · obtain ⟨gs, rest, hg, rfl⟩ := h
    by_cases h2 : InRange cfg.bits cfg.signed (value cfg.signed gs) ∧ gs.length ≤ maxGroups cfg.bits
    · exact ⟨_, c13_in_range hw hcw hg h2.2 h2.1 rest, fun _ => ⟨gs, hg, rfl, rfl, h2.1⟩, fun h => absurd rfl h⟩
    · obtain ⟨rest', h3⟩ := c13_overflow hw hcw hg (by
        by_cases h3 : InRange cfg.bits cfg.signed (value cfg.signed gs)
        · exact .inr (by have : ¬ _ := fun h4 => h2 ⟨h3, h4⟩; omega)
        · exact .inl h3) rest
      exact ⟨_, h3, fun h => by simp at h, fun _ => ⟨.inr rfl, rfl⟩⟩
  · obtain ⟨r, h1, h2, h3⟩ := c13_incomplete hw hcw hl h
    exact ⟨r, h1, fun h => by rcases h2 with h2 | h2 <;> rw [h2] at h <;> simp at h, fun _ => ⟨h2, h3⟩⟩

example : getContig ⟨16, true, 8⟩ [0x80, 0x80, 0x7e, 0x55] = some ⟨[0x55], .ok, some (-32768)⟩ := by decide +kernel
example : getContig ⟨16, true, 8⟩ [0x80, 0x80, 0x02] = some ⟨[], .overflow, none⟩ := by decide +kernel
example : Groups [0, 0, 2] ∧ ¬ InRange 16 true (value true [0, 0, 2]) := by
  unfold Groups InRange value; decide +kernel

/-- **C11 (round trip).** Decoding the bytes written for a value of a type, whatever follows, restores the value and
consumes exactly these bytes. -/
theorem c11_round_trip {cfg : Cfg} (hw : Width cfg.bits) (hcw : 8 ≤ cfg.cw) {v : Int} (hv : InRange cfg.bits cfg.signed v)
    (rest : List Nat) : getContig cfg (put cfg.signed v ++ rest) = some ⟨rest, .ok, some v⟩ := by
  obtain ⟨gs, h1, h2, h3, h4⟩ := put_spec hw cfg.signed v hv
  rw [h2, ← h3]
  exact c13_in_range hw hcw h1 h4 (by rw [h3]; exact hv) rest

/-- **C11 (encoding).** The bytes written are a LEB128 sequence of the value; there are no more of them than announced
for the type the value is printed as. -/
theorem c11_encoding {bits : Nat} (hw : Width bits) (signed : Bool) {v : Int} (hv : InRange bits signed v) :
    (∃ gs, Groups gs ∧ put signed v = groupBytes gs ∧ value signed gs = v) ∧
      (put signed v).length ≤ reserveLen bits ∧ reserveLen bits ≤ reserveLen (putWidth bits) := by
  obtain ⟨gs, h1, h2, h3, h4⟩ := put_spec hw signed v hv
  refine ⟨⟨gs, h1, h2, h3⟩, ?_, ?_⟩
  · rw [h2, groupBytes_length]
    refine h4.trans (le_of_eq ?_)
    rcases hw with h | h | h | h | h <;> subst h <;> rfl
  · rcases hw with h | h | h | h | h <;> subst h <;> decide

example : put true (-9223372036854775808) = [0x80, 0x80, 0x80, 0x80, 0x80, 0x80, 0x80, 0x80, 0x80, 0x7f] := by decide +kernel
example : InRange 64 true (-9223372036854775808) := by unfold InRange; decide
example : put false 624485 = [0xe5, 0x8e, 0x26] := by decide +kernel

/-- **C12.** Decoding from any sequence of buffers gives the unread input, code and value of decoding their
concatenation; input that ends before the sequence does is reported as end of file by the stream, as invalid by the
memory range. -/
theorem c12_chunks (cfg : Cfg) (ls : List (List Nat)) :
    getChunks cfg 0 0 ls = getContig cfg ls.flatten ∨
      (getContig cfg ls.flatten = some ⟨[], .invalid, none⟩ ∧ getChunks cfg 0 0 ls = some ⟨[], .eof, none⟩ ∧
        ¬ ∃ gs rest, Groups gs ∧ ls.flatten = groupBytes gs ++ rest) := by
  rw [getChunks_eq cfg ls 0 0 (fun _ => rfl), getContig]
  cases hl : loop cfg 0 0 ls.flatten with
  | none => exact .inl rfl
  | some s =>
    cases hc : s.code with
    | part =>
      have hr := (loop_code cfg _ _ _ s hl).2.1 hc
      refine .inr ⟨by simp [hc, hr], by simp [hc], ?_⟩
      rintro ⟨gs, rest, hg, e⟩
      have := loop_part cfg _ _ _ s hl hc
      rw [e] at this
      exact absurd this (groups_stop gs hg rest)
    | ok => left; simp [hc]
    | eof => left; simp [hc]
    | invalid => left; simp [hc]
    | overflow => left; simp [hc]

/-- **C12 (value).** A complete in-range sequence is decoded to its value however it is cut into buffers. -/
theorem c12_value {cfg : Cfg} (hw : Width cfg.bits) (hcw : 8 ≤ cfg.cw) {v : Int} (hv : InRange cfg.bits cfg.signed v)
    {ls : List (List Nat)} {rest : List Nat} (hls : ls.flatten = put cfg.signed v ++ rest) :
    getChunks cfg 0 0 ls = some ⟨rest, .ok, some v⟩ := by
  have hr := c11_round_trip hw hcw hv rest
  rw [← hls] at hr
  rcases c12_chunks cfg ls with h | ⟨h, _⟩
  · rw [h, hr]
  · rw [h] at hr; simp at hr

example : getChunks ⟨32, true, 8⟩ 0 0 [[0xff], [], [0xff, 0x7f, 0x11], [0x22]] = some ⟨[0x11, 0x22], .ok, some (-1)⟩ := by
  decide +kernel

end Verif.Leb
