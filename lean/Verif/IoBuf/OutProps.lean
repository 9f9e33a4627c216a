import Verif.IoBuf.OutLemmas
/-!
# C18, C19: buffered output

Specification: a program is a list of operations; what it asks to be written is `(ops.map Op.data).flatten`.
-/
namespace Verif.IoBuf

/-- A freshly opened buffer over a device that has received `got` so far and will answer by `script`. -/
def fresh (got : List Nat) (script : List Answer) : St := ⟨none, ⟨got, script⟩⟩

/-- What the program asks to be written. -/
def asked (ops : List Op) : List Nat := (ops.map Op.data).flatten

theorem inv_fresh (cfg : Cfg) (got script) : Inv cfg (fresh got script) := by
  intro l h; simp [fresh] at h

/-! ### Runs over devices without short writes -/

/-- The outcome of a run: what is passed on is made of one contribution per operation performed. -/
theorem run_ok {cfg : Cfg} (hb : 1 ≤ cfg.bfs) (ops : List Op) : ∀ {s : St}, Inv cfg s → Good cfg s.dev → (∀ op ∈ ops, op.Honest) →
    ∃ (s' : St) (outs : List Out) (cs : List (List Nat)), run cfg s ops = some (s', outs) ∧ Inv cfg s' ∧ Good cfg s'.dev ∧
      s'.dev.got ++ s'.held = s.dev.got ++ s.held ++ cs.flatten ∧ s.dev.got <+: s'.dev.got ∧
      cs.length = outs.length ∧ outs.length ≤ ops.length ∧
      (∀ i (h : i < outs.length) (hc : i < cs.length) (ho : i < ops.length),
        (outs[i] = .ok → cs[i] = (ops[i]).data) ∧ cs[i] <+: (ops[i]).data) ∧
      ((∀ a ∈ s.dev.script, a = .full) → (∀ o ∈ outs, o = .ok) ∧ outs.length = ops.length ∧ ∀ a ∈ s'.dev.script, a = .full) := by
  induction ops with
  | nil =>
    intro s hi hg _
    exact ⟨s, [], [], rfl, hi, hg, by simp, List.prefix_refl _, rfl, by simp, by simp, fun h => ⟨by simp, rfl, h⟩⟩
  | cons op ops ih =>
    intro s hi hg hh
    obtain ⟨s1, o, e, h⟩ := step_ok hb hi hg (hh op (by simp))
    obtain ⟨c, e1, e2, e3⟩ := h.sent
    by_cases hd : o = .dead
    · subst hd
      refine ⟨s1, [.dead], [c], by simp [run, e], h.inv, h.good, by simpa using e1, h.mono, rfl, by simp, ?_, fun hf => absurd (h.full hf).1 (by simp)⟩
      intro i h' hc ho
      have : i = 0 := by simpa using h'
      subst this
      simpa using e3
    · obtain ⟨s2, outs, cs, f1, f2, f3, f4, f5, f6, f7, f8, f9⟩ := ih h.inv h.good fun x hx => hh x (by simp [hx])
      refine ⟨s2, o :: outs, c :: cs, by simp [run, e, hd, f1], f2, f3, by rw [f4, e1]; simp, h.mono.trans f5, by simp [f6], by simpa using f7, ?_, ?_⟩
      · intro i h' hc ho
        cases i with
        | zero => exact ⟨e2, e3⟩
        | succ i => simpa using f8 i (by simpa using h') (by simpa using hc) (by simpa using ho)
      · intro hf
        obtain ⟨g1, g2⟩ := h.full hf
        obtain ⟨k1, k2, k3⟩ := f9 g2
        exact ⟨by simpa [g1] using k1, by simpa using k2, k3⟩

theorem contributions {outs : List Out} {cs : List (List Nat)} {ops : List Op} (hc : cs.length = ops.length) (ho : outs.length = ops.length)
    (hall : ∀ o ∈ outs, o = .ok)
    (h : ∀ i (h : i < outs.length) (hc : i < cs.length) (ho : i < ops.length), (outs[i] = .ok → cs[i] = (ops[i]).data) ∧ cs[i] <+: (ops[i]).data) :
    cs.flatten = asked ops := by
  unfold asked
  congr 1
  apply List.ext_getElem (by simpa using hc)
  intro i h1 h2
  have h3 : i < ops.length := by simpa using h2
  simpa using (h i (by omega) h1 h3).1 (hall _ (List.getElem_mem _))

/-- C18 (device without short writes or errors): every operation succeeds, the device receives, in order and once, a
prefix of what was asked, and the rest is held in the buffer. -/
theorem c18_transparent_partial (cfg : Cfg) (hb : 1 ≤ cfg.bfs) (got : List Nat) (script : List Answer) (hs : ∀ a ∈ script, a = .full)
    (ops : List Op) (hh : ∀ op ∈ ops, op.Honest) :
    ∃ s outs, run cfg (fresh got script) ops = some (s, outs) ∧ outs = ops.map (fun _ => Out.ok) ∧
      s.dev.got ++ s.held = got ++ asked ops ∧ s.held.length ≤ cfg.bfs := by
  obtain ⟨s, outs, cs, e, hi, _, e1, _, e3, _, e5, e6⟩ := run_ok hb ops (inv_fresh cfg got script) (.inl hs) hh
  obtain ⟨h1, h2, _⟩ := e6 hs
  refine ⟨s, outs, e, ?_, ?_, ?_⟩
  · apply List.ext_getElem (by simpa using h2)
    intro i a b
    simpa using h1 _ (List.getElem_mem a)
  · rw [e1, contributions (by omega) h2 h1 e5]; simp [fresh, St.held]
  · cases hb' : s.buf with
    | none => simp [St.held, hb']
    | some l => simpa [St.held, hb'] using hi l hb'

/-- C18, completion: after a final flush the device has received exactly what was asked. -/
theorem c18_flush_partial (cfg : Cfg) (hb : 1 ≤ cfg.bfs) (got : List Nat) (script : List Answer) (hs : ∀ a ∈ script, a = .full)
    (ops : List Op) (hh : ∀ op ∈ ops, op.Honest) :
    ∃ s outs, run cfg (fresh got script) (ops ++ [.flush]) = some (s, outs) ∧ s.dev.got = got ++ asked ops ∧ s.held = [] := by
  have hrun : ∀ (ops : List Op) (s : St) (s' : St) (outs : List Out), run cfg s ops = some (s', outs) → (∀ o ∈ outs, o = .ok) → ∀ ops2,
      run cfg s (ops ++ ops2) = (run cfg s' ops2).map fun q => (q.1, outs ++ q.2) := by
    intro ops
    induction ops with
    | nil => intro s s' outs h _ ops2; simp [run] at h; obtain ⟨rfl, rfl⟩ := h; simp
    | cons op ops ih =>
      intro s s' outs h ho ops2
      simp only [run, List.cons_append] at h ⊢
      cases hst : step cfg s op with
      | none => rw [hst] at h; simp at h
      | some r =>
        rw [hst] at h
        simp only [Option.bind_some] at h ⊢
        by_cases hd : r.2 = .dead
        · simp [hd] at h; obtain ⟨_, rfl⟩ := h; simp at ho
        · simp only [hd, if_false] at h ⊢
          cases hr : run cfg r.1 ops with
          | none => rw [hr] at h; simp at h
          | some q =>
            rw [hr] at h
            simp at h
            obtain ⟨rfl, rfl⟩ := h
            rw [ih r.1 q.1 q.2 hr (fun o h' => ho o (by simp [h'])) ops2, Option.map_map]
            rfl
  obtain ⟨s, outs, cs, e, hi, hg, e1, _, e3, _, e5, e6⟩ := run_ok hb ops (inv_fresh cfg got script) (.inl hs) hh
  obtain ⟨h1, h2, h3⟩ := e6 hs
  obtain ⟨s', o, f, hok, _, hf⟩ := flush_ok hi hg
  have ho := (hok.full h3).1
  subst ho
  obtain ⟨c, g1, g2, _⟩ := hok.sent
  have hc := g2 rfl
  subst hc
  refine ⟨s', outs ++ [.ok], by rw [hrun ops _ s outs e h1]; simp [run, step, f], ?_, (hf rfl).1⟩
  rw [(hf rfl).1, e1, contributions (by omega) h2 h1 e5] at g1
  simpa [fresh, St.held] using g1

/-- A program that meets the hypotheses. -/
def demo : List Op := [.write [1, 2, 3], .put 4, .println [5, 6, 7, 8, 9], .printReserve 2 [1, 1], .flush, .write [9]]

example : (∀ op ∈ demo, op.Honest) ∧ (run ⟨4, true⟩ (fresh [] [.full, .full]) demo).map (fun r => (r.1.dev.got, r.1.held)) =
    some ([1, 2, 3, 4, 5, 6, 7, 8, 9, 10, 1, 1], [9]) := by
  constructor
  · intro op h; simp [demo] at h; rcases h with h | h | h | h | h | h <;> subst h <;> simp [Op.Honest]
  · decide +kernel

/-- C18 fails over a device that makes a short write without throwing, as `write(2)` may (the POSIX device,
posix.h:479-499, returns the position reached and the buffer ignores it): data is lost although every
operation succeeds and the buffer is flushed. -/
theorem c18_short_write_violated :
    run ⟨4, true⟩ (fresh [] [.short 2]) [.write [1, 2, 3], .flush] = some (⟨some [], ⟨[1, 2], []⟩⟩, [.ok, .ok]) := by
  decide +kernel

/-! ### Memory safety under any device -/

theorem devWrite_out (d : Dev) (bs : List Nat) : ∃ d', devWrite d bs = (d', .ok) ∨ devWrite d bs = (d', .threw) := by
  obtain ⟨g, s⟩ := d
  rcases s with _ | ⟨a | a | a, t⟩ <;> simp [devWrite]

theorem append_safe {cfg : Cfg} {s : St} (hi : Inv cfg s) {bs : List Nat} (h : bs.length ≤ room cfg s) :
    ∃ s', append cfg s bs = some s' ∧ Inv cfg s' := by
  unfold append
  rw [if_pos h]
  cases hb : s.buf with
  | none => exact ⟨s, rfl, hi⟩
  | some l =>
    have hl := hi l hb
    simp only [room, hb] at h
    refine ⟨_, rfl, ?_⟩
    intro l' hl'
    simp only [Option.some.injEq] at hl'
    subst hl'
    simp; omega

theorem inv_empty (cfg : Cfg) (d : Dev) : Inv cfg ⟨some [], d⟩ := by
  intro l' hl'; simp at hl'; subst hl'; simp

theorem inv_none (cfg : Cfg) (d : Dev) : Inv cfg ⟨none, d⟩ := by
  intro l' hl'; simp at hl'

theorem flush_safe {cfg : Cfg} {s : St} (hi : Inv cfg s) : ∃ s' o, flush s = (s', o) ∧ Inv cfg s' ∧
    (o = .ok → s.buf ≠ none → s'.buf = some []) := by
  unfold flush
  rcases hb : s.buf with _ | (_ | ⟨c, l⟩)
  · exact ⟨s, .ok, rfl, hi, by simp⟩
  · exact ⟨s, .ok, rfl, hi, fun _ _ => hb⟩
  · obtain ⟨d', e | e⟩ := devWrite_out s.dev (c :: l)
    · exact ⟨_, _, by simp only [e]; rfl, inv_empty cfg _, fun _ _ => rfl⟩
    · refine ⟨⟨some (c :: l), d'⟩, .threw, by simp only [e], ?_, by simp⟩
      intro l' hl'; exact hi l' (by rw [hb, ← hl'])

theorem prepare_safe {cfg : Cfg} {s : St} (hi : Inv cfg s) : ∃ s' o, prepare s = (s', o) ∧ Inv cfg s' ∧ (o = .ok → s'.buf = some []) := by
  unfold prepare
  cases hb : s.buf with
  | none => exact ⟨_, _, rfl, inv_empty cfg _, fun _ => rfl⟩
  | some l =>
    obtain ⟨s', o, e, h1, h2⟩ := flush_safe hi
    exact ⟨s', o, e, h1, fun h => h2 h (by simp [hb])⟩

theorem put_safe {cfg : Cfg} (hb : 1 ≤ cfg.bfs) {s : St} (hi : Inv cfg s) (c : Nat) : ∃ r, put cfg s c = some r ∧ Inv cfg r.1 := by
  unfold put
  split
  · unfold overflow
    obtain ⟨s1, o, e, h1, h2⟩ := prepare_safe hi
    rw [e]
    cases o with
    | ok =>
      obtain ⟨s2, e2, h3⟩ := append_safe (bs := [c]) h1 (by simp [room, h2 rfl]; omega)
      exact ⟨(s2, .ok), by simp [e2], h3⟩
    | threw => exact ⟨_, rfl, h1⟩
    | dead => exact ⟨_, rfl, h1⟩
  · obtain ⟨s2, e2, h3⟩ := append_safe (bs := [c]) hi (by simp; omega)
    exact ⟨(s2, .ok), by simp [e2], h3⟩

theorem write_safe {cfg : Cfg} {s : St} (hi : Inv cfg s) (bs : List Nat) : ∃ r, write cfg s bs = some r ∧ Inv cfg r.1 := by
  unfold write
  split
  · unfold unhappy
    cases hb : s.buf with
    | none =>
      dsimp only
      split
      · obtain ⟨s', e, h⟩ := append_safe (bs := bs) (inv_empty cfg s.dev) (by simp [room]; omega)
        exact ⟨(s', .ok), by simp [e], h⟩
      · exact ⟨_, rfl, inv_none cfg _⟩
    | some l =>
      have hil : ∀ d, Inv cfg ⟨some l, d⟩ := by intro d l' hl'; exact hi l' (by rw [hb, ← hl'])
      refine ⟨_, rfl, ?_⟩
      unfold unhappyNoAlloc
      split
      · obtain ⟨d', e | e⟩ := devWrite_out s.dev (l ++ bs) <;> rw [e]
        · exact inv_empty _ _
        · exact hil _
      · obtain ⟨d', e | e⟩ := devWrite_out s.dev l <;> rw [e]
        · dsimp only
          obtain ⟨d'', e' | e'⟩ := devWrite_out d' bs <;> rw [e']
          · exact inv_empty _ _
          · exact hil _
        · exact hil _
  · obtain ⟨s2, e2, h3⟩ := append_safe (bs := bs) hi (by omega)
    exact ⟨(s2, .ok), by simp [e2], h3⟩

theorem step_safe {cfg : Cfg} (hb : 1 ≤ cfg.bfs) {s : St} (hi : Inv cfg s) {op : Op} (hh : op.Honest) :
    ∃ r, step cfg s op = some r ∧ Inv cfg r.1 := by
  have hap : ∀ bs : List Nat, bs.length ≤ room cfg s → ∃ r, ((append cfg s bs).map fun s => (s, Out.ok)) = some r ∧ Inv cfg r.1 := by
    intro bs h
    obtain ⟨s2, e2, h3⟩ := append_safe (bs := bs) hi h
    exact ⟨(s2, .ok), by simp [e2], h3⟩
  cases op with
  | write bs => exact write_safe hi bs
  | put c => exact put_safe hb hi c
  | flush =>
    obtain ⟨s', o, e, h, _⟩ := flush_safe hi
    exact ⟨_, rfl, by rw [e]; exact h⟩
  | println bs =>
    simp only [step, printlnScatter]
    split
    · exact hap _ (by simp; omega)
    · obtain ⟨⟨s1, o⟩, e, h⟩ := write_safe hi bs
      rw [e]
      cases o with
      | ok => exact put_safe hb h 10
      | threw => exact ⟨_, rfl, h⟩
      | dead => exact ⟨_, rfl, h⟩
  | printReserve size bs =>
    have hh' : bs.length ≤ size := hh
    simp only [step, printReserve]
    split
    · split
      · exact hap _ (by omega)
      · obtain ⟨s1, o, e, h1, h2⟩ := prepare_safe hi
        rw [e]
        cases o with
        | ok =>
          obtain ⟨s2, e2, h3⟩ := append_safe (bs := bs) h1 (by simp [room, h2 rfl]; omega)
          exact ⟨(s2, .ok), by simp [e2], h3⟩
        | threw => exact ⟨_, rfl, h1⟩
        | dead => exact ⟨_, rfl, h1⟩
    · split
      · exact hap _ (by omega)
      · exact write_safe hi bs
  | printDynamic size bs =>
    have hh' : bs.length ≤ size := hh
    simp only [step, printDynamic]
    split
    · exact hap _ (by omega)
    · exact write_safe hi bs

/-- C18, memory safety: whatever the device does (short writes, exceptions, at any point), no operation of any program
stores outside the buffer. -/
theorem c18_memory_safe (cfg : Cfg) (hb : 1 ≤ cfg.bfs) (got : List Nat) (script : List Answer) (ops : List Op) (hh : ∀ op ∈ ops, op.Honest) :
    ∃ s outs, run cfg (fresh got script) ops = some (s, outs) ∧ s.held.length ≤ cfg.bfs := by
  suffices h : ∀ (ops : List Op) (s : St), Inv cfg s → (∀ op ∈ ops, op.Honest) → ∃ s' outs, run cfg s ops = some (s', outs) ∧ Inv cfg s' by
    obtain ⟨s, outs, e, hi⟩ := h ops _ (inv_fresh cfg got script) hh
    refine ⟨s, outs, e, ?_⟩
    cases hb' : s.buf with
    | none => simp [St.held, hb']
    | some l => simpa [St.held, hb'] using hi l hb'
  intro ops
  induction ops with
  | nil => intro s hi _; exact ⟨s, [], rfl, hi⟩
  | cons op ops ih =>
    intro s hi hh
    obtain ⟨r, e, h⟩ := step_safe hb hi (hh op (by simp))
    by_cases hd : r.2 = .dead
    · exact ⟨r.1, [.dead], by simp [run, e, hd], h⟩
    · obtain ⟨s', outs, f, g⟩ := ih r.1 h fun x hx => hh x (by simp [hx])
      exact ⟨s', r.2 :: outs, by simp [run, e, hd, f], g⟩

example : (run ⟨4, false⟩ (fresh [] [.short 1, .fail 2, .full]) demo).isSome = true := by decide +kernel

/-! ### Devices that throw -/

/-- C19 (device with `scatter_write` that, when it throws, has taken nothing): whenever the device throws, nothing is sent twice and
nothing of the successful operations is lost: device and buffer together hold, in order, one contribution per operation performed,
complete if it succeeded, a prefix of its data if it threw. -/
theorem c19_scatter_partial (cfg : Cfg) (hb : 1 ≤ cfg.bfs) (hsc : cfg.scatter = true) (got : List Nat) (script : List Answer)
    (hs : ∀ a ∈ script, a = .full ∨ a = .fail 0) (ops : List Op) (hh : ∀ op ∈ ops, op.Honest) :
    ∃ (s : St) (outs : List Out) (cs : List (List Nat)), run cfg (fresh got script) ops = some (s, outs) ∧ s.dev.got ++ s.held = got ++ cs.flatten ∧
      cs.length = outs.length ∧ outs.length ≤ ops.length ∧
      ∀ i (h : i < outs.length) (hc : i < cs.length) (ho : i < ops.length),
        (outs[i] = .ok → cs[i] = (ops[i]).data) ∧ cs[i] <+: (ops[i]).data := by
  obtain ⟨s, outs, cs, e, _, _, e1, _, e3, e4, e5, _⟩ := run_ok hb ops (inv_fresh cfg got script) (.inr ⟨hsc, hs⟩) hh
  exact ⟨s, outs, cs, e, by simpa [fresh, St.held] using e1, e3, e4, e5⟩

example : run ⟨4, true⟩ (fresh [] [.fail 0, .full]) [.write [1, 2, 3], .write [4, 5], .write [6, 7], .flush] =
    some (⟨some [], ⟨[1, 2, 3, 6, 7], []⟩⟩, [.ok, .threw, .ok, .ok]) := by decide +kernel

/-- C19 fails without `scatter_write`: the buffer is sent by a first call, the second call throws, and the content of the
buffer is sent again by the next flush. -/
theorem c19_resend_violated :
    run ⟨4, false⟩ (fresh [] [.full, .fail 0]) [.write [1, 2, 3], .write [4, 5], .flush] =
    some (⟨some [], ⟨[1, 2, 3, 1, 2, 3], []⟩⟩, [.ok, .threw, .ok]) := by decide +kernel

/-- C19 fails when the device takes part of the data before throwing. -/
theorem c19_partial_failure_violated :
    run ⟨4, true⟩ (fresh [] [.fail 2]) [.write [1, 2, 3], .flush, .flush] =
    some (⟨some [], ⟨[1, 2, 1, 2, 3], []⟩⟩, [.ok, .threw, .ok]) := by decide +kernel

/-- C19 fails for types of announced size: a device exception during the flush terminates the process
(`obuffer_constant_flush_prepare` is `noexcept`, general.h:34). -/
theorem c19_terminate_violated :
    run ⟨4, true⟩ (fresh [] [.fail 0]) [.write [1, 2, 3], .printReserve 2 [4, 5], .flush] =
    some (⟨some [1, 2, 3], ⟨[], []⟩⟩, [.ok, .dead]) := by decide +kernel

end Verif.IoBuf
