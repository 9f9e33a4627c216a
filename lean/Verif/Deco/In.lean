import Verif.Deco.Lemmas
import Verif.IoBuf.InProps
/-!
# Converting input streams
-/
namespace Verif.Deco
open Verif Verif.Utf Verif.IoBuf

/-- What the device has not delivered yet. -/
def rest (d : IDev) : List Nat := d.file.drop d.pos

/-- A device that has delivered `l`. -/
structure Deliver (d d' : IDev) (l : List Nat) : Prop where
  rest : rest d = l ++ rest d'
  script : ∀ a ∈ d'.script, a ∈ d.script
  file : d'.file = d.file

theorem Deliver.rfl (d : IDev) : Deliver d d [] := ⟨by simp, fun _ h => h, by trivial⟩

theorem Deliver.trans {d d1 d2 : IDev} {l1 l2 : List Nat} (h1 : Deliver d d1 l1) (h2 : Deliver d1 d2 l2) : Deliver d d2 (l1 ++ l2) :=
  ⟨by rw [h1.rest, h2.rest, List.append_assoc], fun a ha => h1.script a (h2.script a ha), by rw [h2.file, h1.file]⟩

theorem deliver_spec (d : IDev) (n : Nat) (t : List RAnswer) (ht : ∀ a ∈ t, a ∈ d.script) :
    Deliver d (d.deliver n t).1 (d.deliver n t).2 ∧ (d.deliver n t).2.length ≤ n ∧ (0 < n → (d.deliver n t).2 = [] → rest d = []) := by
  simp only [IDev.deliver]
  refine ⟨⟨?_, ht, by trivial⟩, by rw [List.length_take]; omega, ?_⟩
  · simp only [rest]
    conv_lhs => rw [← List.take_append_drop n (d.file.drop d.pos)]
    congr 1
    rw [List.length_take, ← List.drop_drop]
    rcases Nat.le_total n (d.file.drop d.pos).length with h | h
    · rw [Nat.min_eq_left h]
    · rw [Nat.min_eq_right h, List.drop_length, List.drop_eq_nil_of_le h]
  · intro hn h
    simp only [rest]
    rcases List.take_eq_nil_iff.1 h with h | h
    · omega
    · exact h

theorem devRead_spec (d : IDev) (n : Nat) (hn : NoFail d.script) : ∃ d' l, devRead d n = (d', some l) ∧ Deliver d d' l ∧ l.length ≤ n ∧
    (Eager d.script → 0 < n → l = [] → rest d = []) := by
  unfold devRead
  split
  · rename_i h
    obtain ⟨h1, h2, h3⟩ := deliver_spec d n [] (by simp)
    exact ⟨_, _, rfl, h1, h2, fun _ => h3⟩
  · rename_i k t h
    obtain ⟨h1, h2, h3⟩ := deliver_spec d (min n k) t (fun a ha => by rw [h]; simp [ha])
    refine ⟨_, _, rfl, h1, by omega, fun he h0 => h3 ?_⟩
    have : k ≠ 0 := fun hk => he (.give 0) (by rw [h, hk]; simp) rfl
    omega
  · rename_i t h
    exact absurd rfl (hn .fail (by rw [h]; simp))

theorem fill_spec : ∀ (fuel : Nat) (d : IDev) (n : Nat), n ≤ fuel → NoFail d.script → ∃ d' l, fill fuel d n = some (d', some l) ∧ Deliver d d' l ∧
    l.length ≤ n ∧ (Eager d.script → l.length < n → rest d' = [])
  | _, d, 0, _, _ => ⟨d, [], by unfold fill; rfl, .rfl d, by simp, by simp⟩
  | 0, _, n + 1, h, _ => by omega
  | fuel + 1, d, n + 1, hf, hn => by
    obtain ⟨d', l, e1, e2, e3, e4⟩ := devRead_spec d (n + 1) hn
    rw [show fill (fuel + 1) d (n + 1) = (match devRead d (n + 1) with
      | (d, none) => some (d, none)
      | (d, some []) => some (d, some [])
      | (d, some l) => (fill fuel d (n + 1 - l.length)).map fun q => (q.1, q.2.map (l ++ ·))) from rfl, e1]
    cases l with
    | nil =>
      refine ⟨d', [], rfl, e2, by simp, fun he _ => ?_⟩
      have := e4 he (by omega) rfl
      rw [e2.rest] at this
      simpa using this
    | cons a l =>
      simp only [List.length_cons] at e3 ⊢
      obtain ⟨d2, l2, f1, f2, f3, f4⟩ := fill_spec fuel d' (n + 1 - (l.length + 1)) (by omega) (fun a ha => hn a (e2.script a ha))
      refine ⟨d2, a :: l ++ l2, ?_, e2.trans f2, ?_, ?_⟩
      · simp only [f1, Option.map_some]
      · simp; omega
      · intro he hl
        refine f4 (fun a ha => he a (e2.script a ha)) ?_
        simp at hl; omega

variable {σ : Type} {D : Deco σ} {bfs : Nat} {ok : List Nat → Prop} {R : σ → List Nat → List Nat → Prop}

/-- The stream after `got` was handed out; `whole` is the content of the device. -/
structure IInv (R : σ → List Nat → List Nat → Prop) (whole got : List Nat) (s : ISt σ) : Prop where
  nofail : NoFail s.dev.script
  main : ∃ h, whole = h ++ rest s.dev ∧ R s.deco h (got ++ s.avail)

/-- What an operation for `n` characters that returns `r` does. -/
structure IStep (bfs : Nat) (R : σ → List Nat → List Nat → Prop) (whole got : List Nat) (n : Nat) (s s' : ISt σ) (r : Res) : Prop where
  inv : IInv R whole (got ++ r.data) s'
  threw : r.threw = false
  len : r.data.length ≤ n
  script : ∀ a ∈ s'.dev.script, a ∈ s.dev.script
  file : s'.dev.file = s.dev.file
  short : Eager s.dev.script → 5 ≤ bfs → r.data.length < n → rest s'.dev = [] ∧ s'.avail = []

theorem into_spec (L : Lawful D bfs ok R) {whole got data h : List Nat} {s : ISt σ} {d' : IDev} (hok : ok whole) (ha : s.avail = [])
    (hd : Deliver s.dev d' data) (hl : data.length ≤ bfs) (hw : whole = h ++ rest s.dev) (hr : R s.deco h got) :
    ∃ s', intoBuffer D { s with dev := d' } data = some s' ∧ s'.dev = d' ∧ whole = (h ++ data) ++ rest d' ∧ R s'.deco (h ++ data) (got ++ s'.avail) ∧
      (5 ≤ data.length → s'.avail ≠ []) := by
  have hw' : whole = (h ++ data) ++ rest d' := by rw [hw, hd.rest, List.append_assoc]
  obtain ⟨st', o, e1, e2, e3, e4⟩ := L.step s.deco h got data hr (L.left _ (rest d') (by rw [← hw']; exact hok)) hl
  obtain ⟨m, hm⟩ := L.size data.length hl
  have hle := e3 _ m (le_refl _) hm
  refine ⟨⟨o, if s.cap < m then m else s.cap, st', d'⟩, ?_, rfl, hw', e2, e4⟩
  unfold intoBuffer
  simp only [hm, Option.bind_some, e1]
  rw [if_neg (by split_ifs <;> omega)]

theorem underflow_spec (L : Lawful D bfs ok R) (hb : 1 ≤ bfs) {whole got : List Nat} {s : ISt σ} (hok : ok whole) (ha : s.avail = [])
    (hi : IInv R whole got s) :
    ∃ s' b, underflow D bfs s = some (s', some b) ∧ IInv R whole got s' ∧ (∀ a ∈ s'.dev.script, a ∈ s.dev.script) ∧ s'.dev.file = s.dev.file ∧
      (b = true → s'.avail ≠ []) ∧ (b = false → s'.avail = []) ∧ (Eager s.dev.script → 5 ≤ bfs → b = false → rest s'.dev = []) := by
  obtain ⟨h, hw, hr⟩ := hi.main
  rw [ha, List.append_nil] at hr
  obtain ⟨d', l, e1, e2, e3, e4⟩ := fill_spec bfs s.dev bfs (le_refl _) hi.nofail
  have hnf : NoFail d'.script := fun a ha => hi.nofail a (e2.script a ha)
  unfold underflow
  rw [e1, Option.bind_some]
  cases l with
  | nil =>
    refine ⟨_, false, rfl, ⟨hnf, h, ?_, ?_⟩, e2.script, e2.file, by simp, fun _ => ha, fun he h5 _ => e4 he (by simp; omega)⟩
    · rw [hw, e2.rest]; simp
    · rw [ha, List.append_nil]; exact hr
  | cons x l =>
    obtain ⟨s', f1, f2, f3, f4, f5⟩ := into_spec L hok ha e2 e3 hw hr
    simp only
    rw [if_neg (by omega), f1, Option.map_some]
    refine ⟨s', decide (s'.avail ≠ []), rfl, ⟨by rw [f2]; exact hnf, _, by rw [f2]; exact f3, f4⟩, by rw [f2]; exact e2.script, by rw [f2]; exact e2.file, by simp, by simp, ?_⟩
    intro he h5 hbf
    rw [f2]
    refine e4 he ?_
    by_contra hc
    have : s'.avail = [] := by simpa using hbf
    exact f5 (by omega) this

theorem readLoop_spec (L : Lawful D bfs ok R) (hb : 1 ≤ bfs) {whole : List Nat} (hok : ok whole) : ∀ (fuel : Nat) (got : List Nat) (s : ISt σ) (n : Nat),
    (rest s.dev).length < fuel → (n ≠ 0 → s.avail = []) → IInv R whole got s →
    ∃ s' r, readLoop D bfs fuel s n = some (s', r) ∧ IStep bfs R whole got n s s' r
  | fuel, got, s, 0, _, _, hi => ⟨s, ⟨[], false⟩, by unfold readLoop; rfl, by simpa using hi, rfl, by simp, fun _ h => h, rfl, by simp⟩
  | 0, _, _, n + 1, hf, _, _ => by omega
  | fuel + 1, got, s, n + 1, hf, ha, hi => by
    have ha := ha (by omega)
    obtain ⟨h, hw, hr⟩ := hi.main
    rw [ha, List.append_nil] at hr
    obtain ⟨d', l, e1, e2, e3, e4⟩ := fill_spec bfs s.dev bfs (le_refl _) hi.nofail
    have hnf : NoFail d'.script := fun a ha => hi.nofail a (e2.script a ha)
    rw [readLoop]
    swap
    · omega
    rw [e1, Option.bind_some]
    cases l with
    | nil =>
      refine ⟨_, _, rfl, ⟨hnf, h, ?_, ?_⟩, rfl, by simp, e2.script, e2.file, fun he h5 _ => ⟨e4 he (by simp; omega), ha⟩⟩
      · rw [hw, e2.rest]; simp
      · simp only [ha, List.append_nil]; exact hr
    | cons x l =>
      have hfu : (rest d').length < fuel := by
        have := congrArg List.length e2.rest
        simp at this; omega
      obtain ⟨m, hm⟩ := L.size _ e3
      simp only
      rw [if_neg (by omega), hm, Option.bind_some]
      by_cases hlt : m < n + 1
      · rw [if_pos hlt]
        have hw' : whole = (h ++ x :: l) ++ rest d' := by rw [hw, e2.rest, List.append_assoc]
        obtain ⟨st', o, g1, g2, g3, g4⟩ := L.step s.deco h got (x :: l) hr (L.left _ (rest d') (by rw [← hw']; exact hok)) e3
        have hle := g3 _ m (le_refl _) hm
        rw [g1, Option.bind_some]
        simp only
        rw [if_neg (by omega)]
        obtain ⟨s2, r2, k1, k2⟩ := readLoop_spec L hb hok fuel (got ++ o) { s with deco := st', dev := d' } (n + 1 - o.length) hfu (fun _ => ha)
          ⟨hnf, _, hw', by simp only [ha, List.append_nil]; exact g2⟩
        rw [k1, Option.map_some]
        refine ⟨s2, _, rfl, ?_, k2.threw, ?_, fun a ha => e2.script a (k2.script a ha), by rw [k2.file]; exact e2.file, ?_⟩
        · have := k2.inv; rw [List.append_assoc] at this; exact this
        · have := k2.len; simp; omega
        · intro he h5 hsh
          refine k2.short (fun a ha => he a (e2.script a ha)) h5 ?_
          simp at hsh; omega
      · rw [if_neg hlt]
        obtain ⟨s1, f1, f2, f3, f4, f5⟩ := into_spec L hok ha e2 e3 hw hr
        rw [f1, Option.bind_some]
        have hi1 : IInv R whole got s1 := ⟨by rw [f2]; exact hnf, _, by rw [f2]; exact f3, f4⟩
        by_cases hemp : s1.avail = []
        · rw [if_pos hemp]
          refine ⟨s1, _, rfl, by simpa using hi1, rfl, by simp, by rw [f2]; exact e2.script, by rw [f2]; exact e2.file, fun he h5 _ => ⟨?_, hemp⟩⟩
          rw [f2]
          refine e4 he ?_
          by_contra hc
          exact f5 (by omega) hemp
        · rw [if_neg hemp]
          have hk : (if n + 1 < s1.avail.length then n + 1 else s1.avail.length) = min (n + 1) s1.avail.length := by split_ifs <;> omega
          rw [hk]
          have hmin := Nat.min_le_left (n + 1) s1.avail.length
          have hdl : (s1.avail.take (min (n + 1) s1.avail.length)).length = min (n + 1) s1.avail.length := by rw [List.length_take]; omega
          obtain ⟨s2, r2, k1, k2⟩ := readLoop_spec L hb hok fuel (got ++ s1.avail.take (min (n + 1) s1.avail.length))
            { s1 with avail := s1.avail.drop (min (n + 1) s1.avail.length) } (n + 1 - min (n + 1) s1.avail.length) (by rw [show ({ s1 with avail := s1.avail.drop (min (n + 1) s1.avail.length) } : ISt σ).dev = d' from f2]; exact hfu)
            (fun hne => List.drop_eq_nil_of_le (by omega))
            ⟨by change NoFail s1.dev.script; rw [f2]; exact hnf, _, by change whole = _ ++ rest s1.dev; rw [f2]; exact f3,
              by simp only [List.append_assoc, List.take_append_drop]; exact f4⟩
          rw [k1, Option.map_some]
          refine ⟨s2, _, rfl, ?_, k2.threw, ?_, ?_, ?_, ?_⟩
          · have := k2.inv; rw [List.append_assoc] at this; exact this
          · have := k2.len; simp only [List.length_append, hdl]; omega
          · intro a ha; have := k2.script a ha; change a ∈ s1.dev.script at this; rw [f2] at this; exact e2.script a this
          · rw [k2.file]; change s1.dev.file = _; rw [f2]; exact e2.file
          · intro he h5 hsh
            refine k2.short (fun a ha => ?_) h5 ?_
            · change a ∈ s1.dev.script at ha; rw [f2] at ha; exact he a (e2.script a ha)
            · simp only [List.length_append, hdl] at hsh; omega

theorem read_spec (L : Lawful D bfs ok R) (hb : 1 ≤ bfs) {whole got : List Nat} {s : ISt σ} (hok : ok whole) (hi : IInv R whole got s) (fuel n : Nat)
    (hf : (rest s.dev).length < fuel) : ∃ s' r, read D bfs fuel s n = some (s', r) ∧ IStep bfs R whole got n s s' r := by
  unfold read
  by_cases hl : s.avail.length < n
  · rw [if_pos hl]
    obtain ⟨h, hw, hr⟩ := hi.main
    obtain ⟨s2, r2, k1, k2⟩ := readLoop_spec L hb hok fuel (got ++ s.avail) { s with avail := [] } (n - s.avail.length) hf (fun _ => rfl)
      ⟨hi.nofail, h, hw, by simpa using hr⟩
    rw [k1, Option.map_some]
    refine ⟨s2, _, rfl, ?_, k2.threw, ?_, k2.script, k2.file, ?_⟩
    · have := k2.inv; rw [List.append_assoc] at this; exact this
    · have := k2.len; simp; omega
    · intro he h5 hsh
      refine k2.short he h5 ?_
      simp at hsh; omega
  · rw [if_neg hl]
    obtain ⟨h, hw, hr⟩ := hi.main
    refine ⟨_, _, rfl, ⟨hi.nofail, h, hw, ?_⟩, rfl, by simp, fun _ h => h, rfl, ?_⟩
    · simp only [List.append_assoc, List.take_append_drop]; exact hr
    · intro _ _ hsh; simp at hsh; omega

theorem getc_spec (L : Lawful D bfs ok R) (hb : 1 ≤ bfs) {whole got : List Nat} {s : ISt σ} (hok : ok whole) (hi : IInv R whole got s) :
    ∃ s' r, getc D bfs s = some (s', r) ∧ IStep bfs R whole got 1 s s' r := by
  have key : ∀ (s0 : ISt σ) (c : Nat) (t : List Nat), s0.avail = c :: t → IInv R whole got s0 → IStep bfs R whole got 1 s0 { s0 with avail := t } ⟨[c], false⟩ := by
    intro s0 c t h0 hi0
    obtain ⟨h, hw, hr⟩ := hi0.main
    refine ⟨⟨hi0.nofail, h, hw, ?_⟩, rfl, by simp, fun _ h => h, rfl, by simp⟩
    rw [h0] at hr
    simpa using hr
  unfold getc
  cases ha : s.avail with
  | cons c t => exact ⟨_, _, rfl, key s c t ha hi⟩
  | nil =>
    obtain ⟨s', b, e1, e2, e3, e4, e5, e6, e7⟩ := underflow_spec L hb hok ha hi
    simp only [e1, Option.bind_some]
    cases b with
    | true =>
      cases h1 : s'.avail with
      | nil => exact absurd h1 (e5 rfl)
      | cons c t =>
        have := key s' c t h1 e2
        exact ⟨_, _, by simp only [h1], this.inv, rfl, this.len, fun a ha => e3 a (this.script a ha), by rw [this.file]; exact e4, by simp⟩
    | false =>
      exact ⟨_, _, rfl, by simpa using e2, rfl, by simp, e3, e4, fun he h5 _ => ⟨e7 he h5 rfl, e6 rfl⟩⟩

theorem istep_spec (L : Lawful D bfs ok R) (hb : 1 ≤ bfs) {whole got : List Nat} {s : ISt σ} (hok : ok whole) (hi : IInv R whole got s) (fuel : Nat) (op : IOp)
    (hf : (rest s.dev).length < fuel) : ∃ s' r, istep D bfs fuel s op = some (s', r) ∧ IStep bfs R whole got op.want s s' r := by
  cases op with
  | read n => exact read_spec L hb hok hi fuel n hf
  | getc => exact getc_spec L hb hok hi

theorem irun_spec (L : Lawful D bfs ok R) (hb : 1 ≤ bfs) {whole : List Nat} (hok : ok whole) (fuel : Nat) : ∀ (ops : List IOp) {got : List Nat} {s : ISt σ},
    IInv R whole got s → s.dev.file.length < fuel →
    ∃ s' rs, irun D bfs fuel s ops = some (s', rs) ∧ IInv R whole (got ++ received rs) s' ∧ (∀ r ∈ rs, r.threw = false) ∧
      (∀ a ∈ s'.dev.script, a ∈ s.dev.script) ∧ s'.dev.file = s.dev.file ∧ rs.length = ops.length ∧
      (∀ i (h : i < rs.length) (h' : i < ops.length), (rs[i]).data.length ≤ (ops[i]).want)
  | [], got, s, hi, _ => ⟨s, [], rfl, by simpa [received] using hi, by simp, fun _ h => h, rfl, rfl, by simp⟩
  | op :: ops, got, s, hi, hf => by
    have hrest : (rest s.dev).length < fuel := by simp only [rest, List.length_drop]; omega
    obtain ⟨s1, r, e1, e2⟩ := istep_spec L hb hok hi fuel op hrest
    obtain ⟨s2, rs, f1, f2, f3, f4, f5, f6, f7⟩ := irun_spec L hb hok fuel ops e2.inv (by rw [e2.file]; exact hf)
    refine ⟨s2, r :: rs, by rw [irun, e1, Option.bind_some, f1, Option.map_some], ?_, ?_, fun a ha => e2.script a (f4 a ha), by rw [f5, e2.file], by simp [f6], ?_⟩
    · rw [List.append_assoc] at f2; simpa [received] using f2
    · intro r' hr'
      rcases List.mem_cons.1 hr' with rfl | h
      · exact e2.threw
      · exact f3 r' h
    · intro i h h'
      cases i with
      | zero => exact e2.len
      | succ i => exact f7 i _ _

end Verif.Deco
