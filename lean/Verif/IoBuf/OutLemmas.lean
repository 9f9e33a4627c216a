import Verif.IoBuf.OutModel
/-! Helper lemmas about buffered output. -/
namespace Verif.IoBuf

/-- The buffer never holds more than its capacity. -/
def Inv (cfg : Cfg) (s : St) : Prop := ∀ l, s.buf = some l → l.length ≤ cfg.bfs

/-- A device that takes everything, or (with `scatter_write`) either everything or throws having taken nothing. -/
def Good (cfg : Cfg) (d : Dev) : Prop :=
  (∀ a ∈ d.script, a = .full) ∨ (cfg.scatter = true ∧ ∀ a ∈ d.script, a = .full ∨ a = .fail 0)

theorem devWrite_cases {cfg : Cfg} {d : Dev} (h : Good cfg d) (bs : List Nat) :
    (∃ t, devWrite d bs = (⟨d.got ++ bs, t⟩, .ok) ∧ Good cfg ⟨d.got ++ bs, t⟩ ∧ ((∀ a ∈ d.script, a = .full) → ∀ a ∈ t, a = .full)) ∨
    (∃ t, devWrite d bs = (⟨d.got, t⟩, .threw) ∧ Good cfg ⟨d.got, t⟩ ∧ cfg.scatter = true ∧ ¬ ∀ a ∈ d.script, a = .full) := by
  obtain ⟨got, script⟩ := d
  cases script with
  | nil => exact .inl ⟨[], rfl, .inl (by simp), by simp⟩
  | cons a t =>
    rcases h with h | ⟨hs, h⟩
    · have ha : a = .full := h a (by simp)
      subst ha
      exact .inl ⟨t, rfl, .inl fun x hx => h x (by simp [hx]), fun _ x hx => h x (by simp [hx])⟩
    · rcases h a (by simp) with ha | ha
      · subst ha
        exact .inl ⟨t, rfl, .inr ⟨hs, fun x hx => h x (by simp [hx])⟩, fun h' x hx => h' x (by simp [hx])⟩
      · subst ha
        exact .inr ⟨t, by simp [devWrite], .inr ⟨hs, fun x hx => h x (by simp [hx])⟩, hs, by simp⟩

/-- The contract of an operation with data `data` in state `s`. -/
structure Ok (cfg : Cfg) (s : St) (data : List Nat) (s' : St) (o : Out) : Prop where
  inv : Inv cfg s'
  good : Good cfg s'.dev
  sent : ∃ c, s'.dev.got ++ s'.held = s.dev.got ++ s.held ++ c ∧ (o = .ok → c = data) ∧ c <+: data
  mono : s.dev.got <+: s'.dev.got
  full : (∀ a ∈ s.dev.script, a = .full) → o = .ok ∧ ∀ a ∈ s'.dev.script, a = .full
  noscatter : cfg.scatter = false → o = .ok

theorem good_of_full {cfg : Cfg} {d : Dev} (h : Good cfg d) (hs : cfg.scatter = false) : ∀ a ∈ d.script, a = .full := by
  rcases h with h | ⟨h, _⟩
  · exact h
  · rw [hs] at h; cases h

theorem append_ok {cfg : Cfg} {s : St} (hi : Inv cfg s) (hg : Good cfg s.dev) {bs : List Nat} (h : bs.length ≤ room cfg s) :
    ∃ s', append cfg s bs = some s' ∧ Ok cfg s bs s' .ok := by
  unfold append
  rw [if_pos h]
  cases hb : s.buf with
  | none =>
    have : bs = [] := by simpa [room, hb] using h
    subst this
    exact ⟨s, rfl, hi, hg, ⟨[], by simp, by simp, by simp⟩, List.prefix_refl _, fun h => ⟨rfl, h⟩, fun _ => rfl⟩
  | some l =>
    have hl := hi l hb
    simp only [room, hb] at h
    refine ⟨_, rfl, ?_, hg, ⟨bs, by simp [St.held, hb], fun _ => rfl, List.prefix_refl _⟩, List.prefix_refl _, fun h => ⟨rfl, h⟩, fun _ => rfl⟩
    intro l' hl'
    simp only [Option.some.injEq] at hl'
    subst hl'
    simp; omega

theorem flush_ok {cfg : Cfg} {s : St} (hi : Inv cfg s) (hg : Good cfg s.dev) :
    ∃ s' o, flush s = (s', o) ∧ Ok cfg s [] s' o ∧ o ≠ .dead ∧ (o = .ok → s'.held = [] ∧ (s'.buf = none ↔ s.buf = none)) := by
  unfold flush
  rcases hb : s.buf with _ | (_ | ⟨c, l⟩)
  · exact ⟨s, .ok, rfl, ⟨hi, hg, ⟨[], by simp, by simp, by simp⟩, List.prefix_refl _, fun h => ⟨rfl, h⟩, fun _ => rfl⟩, by simp,
      fun _ => ⟨by simp [St.held, hb], by simp [hb]⟩⟩
  · exact ⟨s, .ok, rfl, ⟨hi, hg, ⟨[], by simp, by simp, by simp⟩, List.prefix_refl _, fun h => ⟨rfl, h⟩, fun _ => rfl⟩, by simp,
      fun _ => ⟨by simp [St.held, hb], by simp [hb]⟩⟩
  · rcases devWrite_cases hg (c :: l) with ⟨t, e, hg', hf⟩ | ⟨t, e, hg', hsc, hnf⟩
    · refine ⟨⟨some [], ⟨s.dev.got ++ c :: l, t⟩⟩, .ok, by simp [e], ⟨?_, hg', ⟨[], by simp [St.held, hb], by simp, by simp⟩,
        ⟨_, rfl⟩, fun h => ⟨rfl, hf h⟩, fun _ => rfl⟩, by simp, fun _ => ⟨by simp [St.held], by simp⟩⟩
      intro l' hl'; simp at hl'; subst hl'; simp
    · refine ⟨⟨some (c :: l), ⟨s.dev.got, t⟩⟩, .threw, by simp [e], ⟨?_, hg', ⟨[], by simp [St.held, hb], by simp, by simp⟩,
        List.prefix_refl _, fun h => absurd h hnf, fun h => by rw [hsc] at h; cases h⟩, by simp, by simp⟩
      intro l' hl'
      exact hi l' (by rw [hb, ← hl'])

theorem prepare_ok {cfg : Cfg} {s : St} (hi : Inv cfg s) (hg : Good cfg s.dev) :
    ∃ s' o, prepare s = (s', o) ∧ Ok cfg s [] s' o ∧ o ≠ .dead ∧ (o = .ok → s'.buf = some []) := by
  unfold prepare
  cases hb : s.buf with
  | none =>
    refine ⟨_, _, rfl, ⟨?_, hg, ⟨[], by simp [St.held, hb], by simp, by simp⟩, List.prefix_refl _, fun h => ⟨rfl, h⟩, fun _ => rfl⟩, by simp, by simp⟩
    intro l' hl'; simp at hl'; subst hl'; simp
  | some l =>
    obtain ⟨s', o, e, h1, h2, h3⟩ := flush_ok hi hg
    refine ⟨s', o, e, h1, h2, fun ho => ?_⟩
    obtain ⟨a, b⟩ := h3 ho
    cases hb' : s'.buf with
    | none => rw [hb', hb] at b; simp at b
    | some l' => simp [St.held, hb'] at a; rw [a]

theorem Ok.trans {cfg : Cfg} {s s1 s2 : St} {d1 d2 : List Nat} {o : Out} (h1 : Ok cfg s d1 s1 .ok) (h2 : Ok cfg s1 d2 s2 o) :
    Ok cfg s (d1 ++ d2) s2 o := by
  obtain ⟨c1, e1, f1, _⟩ := h1.sent
  obtain ⟨c2, e2, f2, g2⟩ := h2.sent
  have := f1 rfl
  subst this
  exact ⟨h2.inv, h2.good, ⟨c1 ++ c2, by rw [e2, e1, List.append_assoc], fun h => by rw [f2 h], List.prefix_append_right_inj _ |>.mpr g2⟩,
    h1.mono.trans h2.mono, fun h => h2.full (h1.full h).2, h2.noscatter⟩

theorem Ok.fail {cfg : Cfg} {s s1 : St} {d1 d2 : List Nat} {o : Out} (h1 : Ok cfg s d1 s1 o) (ho : o ≠ .ok) {o' : Out} (ho' : o' ≠ .ok) :
    Ok cfg s (d1 ++ d2) s1 o' := by
  obtain ⟨c1, e1, f1, g1⟩ := h1.sent
  exact ⟨h1.inv, h1.good, ⟨c1, e1, fun h => absurd h ho', g1.trans (List.prefix_append _ _)⟩, h1.mono,
    fun h => absurd (h1.full h).1 ho, fun h => absurd (h1.noscatter h) ho⟩

theorem prepare_append_ok {cfg : Cfg} {s : St} (hi : Inv cfg s) (hg : Good cfg s.dev) {bs : List Nat} (h : bs.length ≤ cfg.bfs) :
    (∃ s1 s2, prepare s = (s1, .ok) ∧ append cfg s1 bs = some s2 ∧ Ok cfg s bs s2 .ok) ∨
    (∃ s1, prepare s = (s1, .threw) ∧ ∀ o ≠ .ok, Ok cfg s bs s1 o) := by
  obtain ⟨s1, o, e, h1, h2, h3⟩ := prepare_ok hi hg
  cases o with
  | dead => exact absurd rfl h2
  | threw => exact .inr ⟨s1, e, fun o ho => by simpa using h1.fail (d2 := bs) (by simp) ho⟩
  | ok =>
    have hb := h3 rfl
    obtain ⟨s2, e2, h4⟩ := append_ok (bs := bs) h1.inv h1.good (by simpa [room, hb] using h)
    exact .inl ⟨s1, s2, e, e2, by simpa using h1.trans h4⟩

theorem put_ok {cfg : Cfg} (hb : 1 ≤ cfg.bfs) {s : St} (hi : Inv cfg s) (hg : Good cfg s.dev) (c : Nat) :
    ∃ s' o, put cfg s c = some (s', o) ∧ Ok cfg s [c] s' o := by
  unfold put
  split
  · unfold overflow
    rcases prepare_append_ok hi hg (bs := [c]) (by simpa using hb) with ⟨s1, s2, e1, e2, h⟩ | ⟨s1, e1, h⟩
    · exact ⟨s2, .ok, by simp [e1, e2], h⟩
    · exact ⟨s1, .threw, by simp [e1], h _ (by simp)⟩
  · obtain ⟨s', e, h⟩ := append_ok (bs := [c]) hi hg (by simp; omega)
    exact ⟨s', .ok, by simp [e], h⟩

theorem write_ok {cfg : Cfg} {s : St} (hi : Inv cfg s) (hg : Good cfg s.dev) (bs : List Nat) :
    ∃ s' o, write cfg s bs = some (s', o) ∧ Ok cfg s bs s' o := by
  unfold write
  split
  · unfold unhappy
    cases hb : s.buf with
    | none =>
      dsimp only
      split
      · next hlt =>
        have hi' : Inv cfg ⟨some [], s.dev⟩ := by intro l' hl'; simp at hl'; subst hl'; simp
        obtain ⟨s', e, h⟩ := append_ok (s := ⟨some [], s.dev⟩) (bs := bs) hi' hg (by simp [room]; omega)
        refine ⟨s', .ok, by simp [e], ⟨h.inv, h.good, ?_, h.mono, h.full, h.noscatter⟩⟩
        obtain ⟨c, e1, e2, e3⟩ := h.sent
        exact ⟨c, by simpa [St.held, hb] using e1, e2, e3⟩
      · rcases devWrite_cases hg bs with ⟨t, e, hg', hf⟩ | ⟨t, e, hg', hsc, hnf⟩
        · exact ⟨⟨none, _⟩, .ok, by simp [e], ⟨by intro l hl; simp at hl, hg', ⟨bs, by simp [St.held, hb], fun _ => rfl, List.prefix_refl _⟩,
            ⟨_, rfl⟩, fun h => ⟨rfl, hf h⟩, fun _ => rfl⟩⟩
        · exact ⟨⟨none, _⟩, .threw, by simp [e], ⟨by intro l hl; simp at hl, hg', ⟨[], by simp [St.held, hb], by simp, List.nil_prefix⟩,
            List.prefix_refl _, fun h => absurd h hnf, fun h => by rw [hsc] at h; cases h⟩⟩
    | some l =>
      dsimp only
      have hil : ∀ d, Inv cfg ⟨some l, d⟩ := by intro d l' hl'; exact hi l' (by rw [hb, ← hl'])
      have hin : ∀ d, Inv cfg ⟨some [], d⟩ := by intro d l' hl'; simp at hl'; subst hl'; simp
      unfold unhappyNoAlloc
      split
      · rcases devWrite_cases hg (l ++ bs) with ⟨t, e, hg', hf⟩ | ⟨t, e, hg', hsc, hnf⟩
        · exact ⟨⟨some [], _⟩, .ok, by simp [e], ⟨hin _, hg', ⟨bs, by simp [St.held, hb], fun _ => rfl, List.prefix_refl _⟩,
            ⟨_, rfl⟩, fun h => ⟨rfl, hf h⟩, fun _ => rfl⟩⟩
        · exact ⟨⟨some l, _⟩, .threw, by simp [e], ⟨hil _, hg', ⟨[], by simp [St.held, hb], by simp, List.nil_prefix⟩,
            List.prefix_refl _, fun h => absurd h hnf, fun h => by rw [hsc] at h; cases h⟩⟩
      · next hns =>
        have hs' : cfg.scatter = false := by simpa using hns
        have hfull := good_of_full hg hs'
        rcases devWrite_cases hg l with ⟨t, e, hg', hf⟩ | ⟨t, e, hg', hsc, hnf⟩
        · rcases devWrite_cases hg' bs with ⟨t', e', hg'', hf'⟩ | ⟨t', e', hg'', hsc', hnf'⟩
          · refine ⟨⟨some [], _⟩, .ok, by rw [e]; dsimp only; rw [e'], ⟨hin _, hg'', ⟨bs, by simp [St.held, hb], fun _ => rfl, List.prefix_refl _⟩,
              ⟨l ++ bs, by simp⟩, fun h => ⟨rfl, hf' (hf h)⟩, fun _ => rfl⟩⟩
          · exact absurd (hf hfull) hnf'
        · exact absurd hfull hnf
  · obtain ⟨s', e, h⟩ := append_ok (bs := bs) hi hg (by omega)
    exact ⟨s', .ok, by simp [e], h⟩

theorem step_ok {cfg : Cfg} (hb : 1 ≤ cfg.bfs) {s : St} (hi : Inv cfg s) (hg : Good cfg s.dev) {op : Op} (hh : op.Honest) :
    ∃ s' o, step cfg s op = some (s', o) ∧ Ok cfg s op.data s' o := by
  cases op with
  | write bs => exact write_ok hi hg bs
  | put c => exact put_ok hb hi hg c
  | flush =>
    obtain ⟨s', o, e, h, _⟩ := flush_ok hi hg
    exact ⟨s', o, by simp [step, e], h⟩
  | println bs =>
    simp only [step, printlnScatter]
    split
    · obtain ⟨s', e, h⟩ := append_ok (bs := bs ++ [10]) hi hg (by simp; omega)
      exact ⟨s', .ok, by simp [e], h⟩
    · obtain ⟨s1, o, e, h⟩ := write_ok hi hg bs
      rw [e]
      cases o with
      | ok =>
        obtain ⟨s2, o2, e2, h2⟩ := put_ok hb h.inv h.good 10
        exact ⟨s2, o2, by simp [e2], h.trans h2⟩
      | threw => exact ⟨s1, .threw, rfl, h.fail (by simp) (by simp)⟩
      | dead => exact ⟨s1, .dead, rfl, h.fail (by simp) (by simp)⟩
  | printReserve size bs =>
    have hh' : bs.length ≤ size := hh
    simp only [step, printReserve]
    split
    · split
      · obtain ⟨s', e, h⟩ := append_ok (bs := bs) hi hg (by omega)
        exact ⟨s', .ok, by simp [e], h⟩
      · rcases prepare_append_ok hi hg (bs := bs) (by omega) with ⟨s1, s2, e1, e2, h⟩ | ⟨s1, e1, h⟩
        · exact ⟨s2, .ok, by simp [e1, e2], h⟩
        · exact ⟨s1, .dead, by simp [e1], h _ (by simp)⟩
    · split
      · obtain ⟨s', e, h⟩ := append_ok (bs := bs) hi hg (by omega)
        exact ⟨s', .ok, by simp [e], h⟩
      · exact write_ok hi hg bs
  | printDynamic size bs =>
    have hh' : bs.length ≤ size := hh
    simp only [step, printDynamic]
    split
    · obtain ⟨s', e, h⟩ := append_ok (bs := bs) hi hg (by omega)
      exact ⟨s', .ok, by simp [e], h⟩
    · exact write_ok hi hg bs

end Verif.IoBuf
