import Verif.IoBuf.AllModel
/-!
# C21: whole-buffer writes over a device that makes short writes

Specification: the device has received its old content followed by exactly the data.
-/
namespace Verif.IoBuf

/-- The device takes at least one character of each non-empty offer. -/
def Takes (sc : List Nat) : Prop := ∀ k ∈ sc, 0 < k

theorem writeSome_ok (d : SDev) (bs : List Nat) : (writeSome d bs).1.got = d.got ++ bs.take (writeSome d bs).2 ∧ (writeSome d bs).2 ≤ bs.length ∧
    (Takes d.script → Takes (writeSome d bs).1.script ∧ (bs ≠ [] → 0 < (writeSome d bs).2)) := by
  obtain ⟨g, s⟩ := d
  cases s with
  | nil => exact ⟨by simp [writeSome], by simp [writeSome], fun _ => ⟨by simp [writeSome, Takes], fun h => List.length_pos_of_ne_nil h⟩⟩
  | cons k t =>
    refine ⟨?_, by simp [writeSome]; omega, fun h => ⟨fun x hx => h x (by simp [writeSome] at hx; simp [hx]), fun hb => ?_⟩⟩
    · simp only [writeSome]
      rcases Nat.le_total k bs.length with hk | hk
      · rw [Nat.min_eq_left hk]
      · rw [Nat.min_eq_right hk, List.take_of_length_le hk, List.take_length]
    · have := h k (by simp)
      have := List.length_pos_of_ne_nil hb
      simp only [writeSome]
      omega

theorem writeAll_ok : ∀ (fuel : Nat) (d : SDev) (bs : List Nat), Takes d.script → bs.length < fuel →
    ∃ d', writeAll fuel d bs = some d' ∧ d'.got = d.got ++ bs ∧ Takes d'.script := by
  intro fuel
  induction fuel with
  | zero => intro d bs _ h; omega
  | succ fuel ih =>
    intro d bs ht hf
    obtain ⟨h1, h2, h3⟩ := writeSome_ok d bs
    obtain ⟨h4, h5⟩ := h3 ht
    unfold writeAll
    dsimp only
    by_cases he : (writeSome d bs).2 = bs.length
    · rw [if_pos he]
      exact ⟨_, rfl, by rw [h1, he, List.take_length], h4⟩
    · rw [if_neg he]
      have hne : bs ≠ [] := by
        rintro rfl
        simp at h2
        exact he (by simp [h2])
      have := h5 hne
      obtain ⟨d', e1, e2, e3⟩ := ih _ (bs.drop (writeSome d bs).2) h4 (by simp; omega)
      exact ⟨d', e1, by rw [e2, h1, List.append_assoc, List.take_append_drop], e3⟩

/-- C21, `write_all`: over a device that takes at least one character per offer, all the data arrives exactly once, in order. -/
theorem c21_write_all (d : SDev) (bs : List Nat) (ht : Takes d.script) :
    ∃ fuel d', writeAll fuel d bs = some d' ∧ d'.got = d.got ++ bs := by
  obtain ⟨d', h1, h2, _⟩ := writeAll_ok (bs.length + 1) d bs ht (by omega)
  exact ⟨_, d', h1, h2⟩

/-- A status is right for `n` characters taken of the pieces `base`: `position` whole pieces, then `inScatter` characters of the
next, which is longer than that. -/
def Status.Right (st : Status) (n : Nat) (base : List (List Nat)) : Prop :=
  st.total = n ∧ st.position ≤ base.length ∧ (base.take st.position).flatten.length + st.inScatter = n ∧
    (st.position = base.length → st.inScatter = 0) ∧ ∀ b, base[st.position]? = some b → st.inScatter < b.length

theorem scatterStatusLoop_ok (sz : Nat) : ∀ (base : List (List Nat)) (total i : Nat), total ≤ base.flatten.length →
    ∃ p q, scatterStatusLoop sz total i base = ⟨sz, i + p, q⟩ ∧ Status.Right ⟨total, p, q⟩ total base := by
  intro base
  induction base with
  | nil =>
    intro total i h
    exact ⟨0, 0, rfl, rfl, by simp, by simp at h; simp [h], fun _ => rfl, by simp⟩
  | cons b bs ih =>
    intro total i h
    unfold scatterStatusLoop
    split
    · next hlt => exact ⟨0, total, rfl, rfl, by simp, by simp, by simp, by simpa using hlt⟩
    · next hge =>
      obtain ⟨p, q, e, h1, h2, h3, h4, h5⟩ := ih (total - b.length) (i + 1) (by simp at h ⊢; omega)
      dsimp only at h2 h3 h4 h5
      refine ⟨p + 1, q, by rw [e]; congr 1; omega, rfl, by simpa using h2, ?_, by simpa using h4, by simpa using h5⟩
      simp only [List.take_succ_cons, List.flatten_cons, List.length_append]
      omega

theorem scatterStatus_right (n : Nat) (base : List (List Nat)) (h : n ≤ base.flatten.length) : (scatterStatus n base).Right n base := by
  obtain ⟨p, q, e, h1⟩ := scatterStatusLoop_ok n base n 0 h
  rw [scatterStatus, e, Nat.zero_add]
  exact h1

/-- C21, `scatter_write_some`: the pieces are offered in order, what arrived is a prefix of their concatenation and the
returned status describes exactly that prefix. -/
theorem c21_scatter_write_some (base : List (List Nat)) : ∀ (d : SDev),
    ∃ n, n ≤ base.flatten.length ∧ (scatterSomeLoop d 0 0 base).1.got = d.got ++ base.flatten.take n ∧ (scatterSomeLoop d 0 0 base).2.Right n base := by
  suffices h : ∀ (base : List (List Nat)) (d : SDev) (w i : Nat), ∃ n p q, n ≤ base.flatten.length ∧
      (scatterSomeLoop d w i base).1.got = d.got ++ base.flatten.take n ∧ (scatterSomeLoop d w i base).2 = ⟨w + n, i + p, q⟩ ∧ Status.Right ⟨n, p, q⟩ n base by
    intro d
    obtain ⟨n, p, q, h1, h2, h3, h4⟩ := h base d 0 0
    refine ⟨n, h1, h2, ?_⟩
    rw [h3, Nat.zero_add, Nat.zero_add]
    exact h4
  intro base
  induction base with
  | nil => intro d w i; exact ⟨0, 0, 0, by simp, by simp [scatterSomeLoop], rfl, rfl, by simp, by simp, fun _ => rfl, by simp⟩
  | cons b bs ih =>
    intro d w i
    obtain ⟨h1, h2, _⟩ := writeSome_ok d b
    unfold scatterSomeLoop
    dsimp only
    by_cases he : (writeSome d b).2 = b.length
    · rw [if_neg (by simpa using he)]
      obtain ⟨n, p, q, e1, e2, e3, r1, r2, r3, r4, r5⟩ := ih (writeSome d b).1 (w + (writeSome d b).2) (i + 1)
      dsimp only at r2 r3 r4 r5
      refine ⟨b.length + n, p + 1, q, by simp only [List.flatten_cons, List.length_append]; omega, ?_, ?_, rfl, by simpa using r2, ?_, by simpa using r4, by simpa using r5⟩
      · rw [e2, h1, he, List.take_length, List.flatten_cons, List.take_length_add_append, List.append_assoc]
      · rw [e3, he]; congr 1 <;> omega
      · simp only [List.take_succ_cons, List.flatten_cons, List.length_append]; omega
    · rw [if_pos he]
      refine ⟨(writeSome d b).2, 0, (writeSome d b).2, by simp only [List.flatten_cons, List.length_append]; omega, ?_, rfl, rfl, by simp, by simp, by simp, ?_⟩
      · rw [h1, List.flatten_cons, List.take_append_of_le_length h2]
      · intro c hc
        have : b = c := by simpa using hc
        subst this
        dsimp only
        omega

theorem scatterWriteAll_ok : ∀ (fuel : Nat) (d : SDev) (base : List (List Nat)), Takes d.script → base.flatten.length + base.length < fuel →
    ∃ d', scatterWriteAll fuel d base = some d' ∧ d'.got = d.got ++ base.flatten ∧ Takes d'.script := by
  intro fuel
  induction fuel with
  | zero => intro d base _ h; omega
  | succ fuel ih =>
    intro d base ht hf
    cases base with
    | nil => exact ⟨d, rfl, by simp, ht⟩
    | cons b0 base0 =>
      generalize hbase : b0 :: base0 = base at *
      have hne : base ≠ [] := by rw [← hbase]; simp
      obtain ⟨h1, h2, h3⟩ := writeSome_ok d base.flatten
      obtain ⟨h4, h5⟩ := h3 ht
      have hst := scatterStatus_right (writeSome d base.flatten).2 base h2
      have hred : scatterWriteAll (fuel + 1) d base =
          if (scatterStatus (writeSome d base.flatten).2 base).position = base.length then some (writeSome d base.flatten).1
          else if (scatterStatus (writeSome d base.flatten).2 base).inScatter = 0 then
            scatterWriteAll fuel (writeSome d base.flatten).1 (base.drop (scatterStatus (writeSome d base.flatten).2 base).position)
          else match base.drop (scatterStatus (writeSome d base.flatten).2 base).position with
            | [] => none
            | b :: rest => (writeAll fuel (writeSome d base.flatten).1 (b.drop (scatterStatus (writeSome d base.flatten).2 base).inScatter)).bind fun d =>
                scatterWriteAll fuel d rest := by
        rw [← hbase]; rfl
      rw [hred]
      generalize hw : writeSome d base.flatten = r at *
      obtain ⟨d1, n⟩ := r
      dsimp only at h1 h2 h4 h5 hst ⊢
      generalize scatterStatus n base = st at *
      obtain ⟨t, p, q⟩ := st
      obtain ⟨r1, r2, r3, r4, r5⟩ := hst
      dsimp only at r1 r2 r3 r4 r5 ⊢
      -- the part taken and the part left
      have htake : base.flatten.take n = (base.take p).flatten ++ ((base.drop p).flatten.take q) := by
        conv_lhs => rw [← List.take_append_drop p base, List.flatten_append, ← r3]
        rw [List.take_length_add_append]
      by_cases hp : p = base.length
      · rw [if_pos hp]
        have hq := r4 hp
        refine ⟨d1, rfl, ?_, h4⟩
        rw [h1, htake, hp, hq]
        simp
      · rw [if_neg hp]
        have hplt : p < base.length := by omega
        have hdrop : base.drop p = base[p] :: base.drop (p + 1) := List.drop_eq_getElem_cons hplt
        have hqb : q < (base[p]).length := r5 _ (List.getElem?_eq_getElem hplt)
        have hflat : base.flatten = (base.take p).flatten ++ (base[p] ++ (base.drop (p + 1)).flatten) := by
          conv_lhs => rw [← List.take_append_drop p base, List.flatten_append, hdrop, List.flatten_cons]
        have hlen := congrArg List.length hflat
        simp only [List.length_append] at hlen
        have hnpos : 0 < n := by
          apply h5
          intro h0
          rw [h0] at hlen
          simp at hlen
          omega
        by_cases hq : q = 0
        · rw [if_pos hq]
          have hppos : p ≠ 0 ∧ 0 < (base.take p).flatten.length := by
            refine ⟨?_, by omega⟩
            rintro rfl
            simp at r3
            omega
          obtain ⟨d', e1, e2, e3⟩ := ih d1 (base.drop p) h4 (by
            rw [hdrop]; simp only [List.flatten_cons, List.length_append, List.length_cons, List.length_drop]; omega)
          refine ⟨d', e1, ?_, e3⟩
          rw [e2, h1, htake, hq, List.take_zero, List.append_nil, List.append_assoc, ← List.flatten_append, List.take_append_drop]
        · rw [if_neg hq, hdrop]
          dsimp only
          obtain ⟨d2, f1, f2, f3⟩ := writeAll_ok fuel d1 ((base[p]).drop q) h4 (by simp; omega)
          obtain ⟨d', e1, e2, e3⟩ := ih d2 (base.drop (p + 1)) f3 (by simp only [List.length_drop]; omega)
          rw [f1]
          refine ⟨d', e1, ?_, e3⟩
          rw [e2, f2, h1, htake, hdrop, List.flatten_cons, List.take_append_of_le_length (by omega)]
          rw [hflat]
          simp only [List.append_assoc]
          rw [← List.append_assoc (List.take q _), List.take_append_drop]

/-- C21, `scatter_write_all`: over a scatter device that takes at least one character per offer, the pieces arrive in order, whole,
exactly once, wherever the short writes fall. -/
theorem c21_scatter_write_all (d : SDev) (base : List (List Nat)) (ht : Takes d.script) :
    ∃ fuel d', scatterWriteAll fuel d base = some d' ∧ d'.got = d.got ++ base.flatten := by
  obtain ⟨d', h1, h2, _⟩ := scatterWriteAll_ok (base.flatten.length + base.length + 1) d base ht (by omega)
  exact ⟨_, d', h1, h2⟩

/-- C21, `scatter_write_all` over a device with plain writes. -/
theorem c21_scatter_write_each (base : List (List Nat)) : ∀ (d : SDev), Takes d.script →
    ∃ fuel d', scatterAllEach fuel d base = some d' ∧ d'.got = d.got ++ base.flatten := by
  suffices h : ∀ (base : List (List Nat)) (fuel : Nat) (d : SDev), Takes d.script → base.flatten.length < fuel →
      ∃ d', scatterAllEach fuel d base = some d' ∧ d'.got = d.got ++ base.flatten by
    intro d ht
    obtain ⟨d', h1, h2⟩ := h base _ d ht (Nat.lt_succ_self _)
    exact ⟨_, d', h1, h2⟩
  intro base
  induction base with
  | nil => intro fuel d _ _; exact ⟨d, rfl, by simp⟩
  | cons b bs ih =>
    intro fuel d ht hf
    simp only [List.flatten_cons, List.length_append] at hf
    obtain ⟨d1, e1, e2, e3⟩ := writeAll_ok fuel d b ht (by omega)
    obtain ⟨d', f1, f2⟩ := ih fuel d1 e3 (by omega)
    exact ⟨d', by simp [scatterAllEach, e1, f1], by rw [f2, e2]; simp⟩

example : Takes [2, 1, 1, 3] ∧ (scatterWriteAll 20 ⟨[], [2, 1, 1, 3]⟩ [[1, 2, 3], [], [4], [5, 6, 7, 8]]).map SDev.got = some [1, 2, 3, 4, 5, 6, 7, 8] ∧
    (scatterSomeLoop ⟨[], [9, 1, 9, 3]⟩ 0 0 [[1, 2, 3], [], [4], [5, 6, 7, 8]]) = (⟨[1, 2, 3, 4, 5, 6, 7], []⟩, ⟨7, 3, 3⟩) := by
  refine ⟨?_, ?_⟩
  · intro k hk; simp at hk; omega
  · decide +kernel

/-- C21 fails for `write_all` on a buffered stream: data that fits into the buffer is written twice (a `return` is missing after
reflectwrite.h:299). -/
theorem c21_write_all_buffered_violated (cap : Nat) (dev buf bs : List Nat) (h : bs.length < cap - buf.length) :
    (writeAllBuffered cap dev buf bs).1 ++ (writeAllBuffered cap dev buf bs).2 = dev ++ buf ++ bs ++ bs := by
  simp [writeAllBuffered, h]

/-- C21 fails on Windows: a write of more than `INT_LEAST32_MAX` bytes sends the first bytes again instead of the following ones, because
the address is not advanced; the device takes everything. -/
theorem c21_windows_write_violated :
    ∃ data : List Nat, data.length = 2 ^ 31 ∧ ∃ fuel d, winWrite (2 ^ 31 - 1) fuel ⟨[], []⟩ data data.length 0 = some (d, data.length) ∧ d.got ≠ data := by
  have hgen : ∀ m : Nat, winWrite (m + 1) 3 ⟨[], []⟩ (List.replicate (m + 1) 0 ++ [1]) (m + 2) 0 =
      some (⟨List.replicate (m + 1) 0 ++ [0], []⟩, m + 2) := by
    intro m
    have h1 : ((List.replicate (m + 1) 0 ++ [1]).take (m + 1) : List Nat) = List.replicate (m + 1) 0 := by
      rw [List.take_append_of_le_length (by simp), List.take_of_length_le (by simp)]
    have h2 : ((List.replicate (m + 1) 0 ++ [1]).take 1 : List Nat) = [0] := by
      rw [List.replicate_succ]; rfl
    have e1 : m + 2 - (m + 1) = 1 := by omega
    have hred : ∀ (f : Nat) (d : SDev) (a : List Nat) (t w : Nat), winWrite (m + 1) (f + 1) d a (t + 1) w =
        if (writeSome d (a.take (if t + 1 < m + 1 then t + 1 else m + 1))).2 < (if t + 1 < m + 1 then t + 1 else m + 1) then
          some ((writeSome d (a.take (if t + 1 < m + 1 then t + 1 else m + 1))).1, w + (writeSome d (a.take (if t + 1 < m + 1 then t + 1 else m + 1))).2)
        else winWrite (m + 1) f (writeSome d (a.take (if t + 1 < m + 1 then t + 1 else m + 1))).1 a (t + 1 - (if t + 1 < m + 1 then t + 1 else m + 1))
          (w + (writeSome d (a.take (if t + 1 < m + 1 then t + 1 else m + 1))).2) := fun _ _ _ _ _ => rfl
    have c1 : (if m + 1 + 1 < m + 1 then m + 1 + 1 else m + 1) = m + 1 := if_neg (by omega)
    have c2 : (if 0 + 1 < m + 1 then 0 + 1 else m + 1) = 1 := by split <;> omega
    rw [hred 2, c1, h1]
    simp only [writeSome, List.length_replicate, List.nil_append, Nat.lt_irrefl, if_false]
    have e2 : m + 1 + 1 - (m + 1) = 0 + 1 := by omega
    rw [e2, hred 1, c2, h2]
    simp only [writeSome, List.length_singleton, Nat.lt_irrefl, if_false]
    have e3 : 0 + 1 - 1 = 0 := rfl
    rw [e3]
    simp only [winWrite]
    congr 2
    omega
  have hgen2 : ∀ m : Nat, ∃ data : List Nat, data.length = m + 2 ∧ ∃ fuel d, winWrite (m + 1) fuel ⟨[], []⟩ data data.length 0 =
      some (d, data.length) ∧ d.got ≠ data := by
    intro m
    have hl : (List.replicate (m + 1) 0 ++ [1] : List Nat).length = m + 2 := by
      rw [List.length_append, List.length_replicate]; rfl
    refine ⟨List.replicate (m + 1) 0 ++ [1], hl, 3, ⟨List.replicate (m + 1) 0 ++ [0], []⟩, ?_, ?_⟩
    · rw [hl]; exact hgen m
    · intro h
      have := List.append_cancel_left h
      simp at this
  exact hgen2 (2 ^ 31 - 2)

/-- C21 fails on Windows: `scatter_write` goes on with the next piece after a short write (the test at posix.h:535 is inverted), so
that the characters between are lost and the status claims the rest was written. -/
theorem c21_windows_scatter_violated :
    winScatterWrite ⟨[], [1]⟩ 0 0 [[1, 2, 3], [4, 5]] = (⟨[1, 4, 5], []⟩, ⟨3, 2, 0⟩) := by decide +kernel

end Verif.IoBuf
