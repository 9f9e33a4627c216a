import Verif.BufObj.Model
import Verif.IoBuf.OutProps
import Mathlib.Tactic
/-! Helper lemmas about buffered stream objects. -/
namespace Verif.BufObj
open Verif.IoBuf (Answer Out Cfg)

/-! ## Operations on the output buffer -/

/-- What is used about operations on an output buffer. -/
structure Contract (cfg : Cfg) (data : List Nat) (op : IoBuf.St → Option (IoBuf.St × Out)) : Prop where
  safe : ∀ b, IoBuf.Inv cfg b → ∃ r, op b = some r ∧ IoBuf.Inv cfg r.1
  keeps : ∀ b r, op b = some r → b.buf ≠ none → r.1.buf ≠ none
  sub : ∀ b r, b.dev.got = [] → op b = some r → r.1.dev.got.Sublist (b.held ++ data) ∧ r.1.held.Sublist (b.held ++ data)
  full : ∀ b r, IoBuf.Inv cfg b → (∀ a ∈ b.dev.script, a = .full) → op b = some r →
    r.1.dev.got ++ r.1.held = b.dev.got ++ b.held ++ data ∧ r.2 = .ok ∧ ∀ a ∈ r.1.dev.script, a = .full

theorem devWrite_sub (d : IoBuf.Dev) (bs : List Nat) : ∃ k t o, IoBuf.devWrite d bs = (⟨d.got ++ bs.take k, t⟩, o) := by
  unfold IoBuf.devWrite
  rcases d.script with _ | ⟨a, t⟩
  · exact ⟨bs.length, [], .ok, by simp⟩
  · cases a with
    | full => exact ⟨bs.length, t, .ok, by simp⟩
    | short k => exact ⟨k, t, .ok, rfl⟩
    | fail k => exact ⟨k, t, .threw, rfl⟩

theorem append_sub {cfg : Cfg} {b b' : IoBuf.St} {bs : List Nat} (e : IoBuf.append cfg b bs = some b') :
    b'.dev = b.dev ∧ b'.held.Sublist (b.held ++ bs) ∧ (b.buf ≠ none → b'.buf ≠ none) := by
  unfold IoBuf.append at e
  split at e
  · cases hb : b.buf with
    | none =>
      rw [hb] at e
      simp only [Option.some.injEq] at e
      subst e
      exact ⟨rfl, List.sublist_append_left _ _, fun h => absurd rfl h⟩
    | some l =>
      rw [hb] at e
      simp only [Option.some.injEq] at e
      subst e
      exact ⟨rfl, by simp [IoBuf.St.held, hb], by simp⟩
  · cases e

theorem flush_sub (b : IoBuf.St) (hg : b.dev.got = []) :
    (IoBuf.flush b).1.dev.got.Sublist b.held ∧ (IoBuf.flush b).1.held.Sublist b.held ∧ (b.buf ≠ none → (IoBuf.flush b).1.buf ≠ none) ∧
    ((IoBuf.flush b).2 = .ok → (IoBuf.flush b).1.held = []) := by
  unfold IoBuf.flush
  rcases hb : b.buf with _ | (_ | ⟨c, l⟩)
  · simp [hg, IoBuf.St.held, hb]
  · simp [hg, IoBuf.St.held, hb]
  · obtain ⟨k, t, o, e⟩ := devWrite_sub b.dev (c :: l)
    simp only [e]
    cases o <;> simp [hg, IoBuf.St.held, hb, List.take_sublist]

theorem prepare_sub (b : IoBuf.St) (hg : b.dev.got = []) :
    (IoBuf.prepare b).1.dev.got.Sublist b.held ∧ (IoBuf.prepare b).1.held.Sublist b.held ∧ (b.buf ≠ none → (IoBuf.prepare b).1.buf ≠ none) ∧
    ((IoBuf.prepare b).2 = .ok → (IoBuf.prepare b).1.held = []) := by
  unfold IoBuf.prepare
  cases hb : b.buf with
  | none => simp [hg, IoBuf.St.held, hb]
  | some l =>
    have := flush_sub b hg
    simpa [hb] using this

theorem write_sub {cfg : Cfg} {b : IoBuf.St} {bs : List Nat} {r : IoBuf.St × Out} (hg : b.dev.got = []) (e : IoBuf.write cfg b bs = some r) :
    r.1.dev.got.Sublist (b.held ++ bs) ∧ r.1.held.Sublist (b.held ++ bs) := by
  unfold IoBuf.write at e
  split at e
  · unfold IoBuf.unhappy at e
    cases hb : b.buf with
    | none =>
      simp only [hb] at e
      split at e
      · simp only [Option.map_eq_some_iff] at e
        obtain ⟨b', e, rfl⟩ := e
        obtain ⟨h1, h2, h3⟩ := append_sub e
        exact ⟨by simp [h1, hg], by simpa [IoBuf.St.held, hb] using h2⟩
      · obtain ⟨k, t, o, e'⟩ := devWrite_sub b.dev bs
        simp only [e', Option.some.injEq] at e
        subst e
        simp [hg, IoBuf.St.held, hb, List.take_sublist]
    | some l =>
      simp only [hb, Option.some.injEq] at e
      subst e
      unfold IoBuf.unhappyNoAlloc
      split
      · obtain ⟨k, t, o, e'⟩ := devWrite_sub b.dev (l ++ bs)
        simp only [e']
        cases o <;> simp [hg, IoBuf.St.held, hb, List.take_sublist]
      · obtain ⟨k, t, o, e'⟩ := devWrite_sub b.dev l
        simp only [e']
        cases o with
        | ok =>
          obtain ⟨k', t', o', e''⟩ := devWrite_sub ⟨b.dev.got ++ l.take k, t⟩ bs
          simp only [e'']
          have hs : (List.take k l ++ List.take k' bs).Sublist (l ++ bs) := (List.take_sublist _ _).append (List.take_sublist _ _)
          cases o' <;> simp [hg, IoBuf.St.held, hb, hs]
        | threw =>
          simp only [hg, IoBuf.St.held, hb, List.nil_append, Option.getD_some, List.sublist_append_left, and_true]
          exact (List.take_sublist _ _).trans (List.sublist_append_left _ _)
        | dead =>
          simp only [hg, IoBuf.St.held, hb, List.nil_append, Option.getD_some, List.sublist_append_left, and_true]
          exact (List.take_sublist _ _).trans (List.sublist_append_left _ _)
  · simp only [Option.map_eq_some_iff] at e
    obtain ⟨b', e, rfl⟩ := e
    obtain ⟨h1, h2, h3⟩ := append_sub e
    exact ⟨by simp [h1, hg], h2⟩

theorem write_keeps {cfg : Cfg} {b : IoBuf.St} {bs : List Nat} {r : IoBuf.St × Out} (e : IoBuf.write cfg b bs = some r) (hb : b.buf ≠ none) :
    r.1.buf ≠ none := by
  unfold IoBuf.write at e
  split at e
  · unfold IoBuf.unhappy at e
    cases hb' : b.buf with
    | none => exact absurd hb' hb
    | some l =>
      simp only [hb', Option.some.injEq] at e
      subst e
      unfold IoBuf.unhappyNoAlloc
      split
      · obtain ⟨k, t, o, e'⟩ := devWrite_sub b.dev (l ++ bs)
        simp only [e']
        cases o <;> simp
      · obtain ⟨k, t, o, e'⟩ := devWrite_sub b.dev l
        simp only [e']
        cases o with
        | ok =>
          obtain ⟨k', t', o', e''⟩ := devWrite_sub ⟨b.dev.got ++ l.take k, t⟩ bs
          simp only [e'']
          cases o' <;> simp
        | threw => simp
        | dead => simp
  · simp only [Option.map_eq_some_iff] at e
    obtain ⟨b', e, rfl⟩ := e
    exact (append_sub e).2.2 hb

theorem full_of_ok {cfg : Cfg} {b : IoBuf.St} {data : List Nat} {op : IoBuf.Op} (hb1 : 1 ≤ cfg.bfs) (hh : op.Honest) (hd : op.data = data) :
    ∀ r, IoBuf.Inv cfg b → (∀ a ∈ b.dev.script, a = .full) → IoBuf.step cfg b op = some r →
    r.1.dev.got ++ r.1.held = b.dev.got ++ b.held ++ data ∧ r.2 = .ok ∧ ∀ a ∈ r.1.dev.script, a = .full := by
  intro r hi hf e
  subst hd
  obtain ⟨s', o, e', h⟩ := IoBuf.step_ok hb1 hi (.inl hf) hh
  rw [e] at e'
  simp only [Option.some.injEq] at e'
  subst e'
  obtain ⟨c, h1, h2, _⟩ := h.sent
  obtain ⟨h3, h4⟩ := h.full hf
  exact ⟨by rw [h1, h2 h3], h3, h4⟩

theorem contract_write (cfg : Cfg) (hb : 1 ≤ cfg.bfs) (bs : List Nat) : Contract cfg bs fun b => IoBuf.write cfg b bs where
  safe := fun b hi => IoBuf.write_safe hi bs
  keeps := fun b r e h => write_keeps e h
  sub := fun b r hg e => write_sub hg e
  full := fun b r hi hf e => full_of_ok (op := .write bs) hb trivial rfl r hi hf e

theorem contract_flush (cfg : Cfg) (hb : 1 ≤ cfg.bfs) : Contract cfg [] fun b => some (IoBuf.flush b) where
  safe := by
    intro b hi
    obtain ⟨s', o, e, h, _⟩ := IoBuf.flush_safe hi
    exact ⟨_, rfl, by rw [e]; exact h⟩
  keeps := by
    intro b r e h
    simp only [Option.some.injEq] at e
    subst e
    unfold IoBuf.flush
    rcases hb : b.buf with _ | (_ | ⟨c, l⟩)
    · exact absurd hb h
    · simp [hb]
    · obtain ⟨k, t, o, e⟩ := devWrite_sub b.dev (c :: l)
      simp only [e]
      cases o <;> simp
  sub := by
    intro b r hg e
    simp only [Option.some.injEq] at e
    subst e
    have := flush_sub b hg
    simpa using ⟨this.1, this.2.1⟩
  full := fun b r hi hf e => full_of_ok (op := .flush) hb trivial rfl r hi hf e

theorem contract_print (cfg : Cfg) (hb : 1 ≤ cfg.bfs) (size : Nat) (bs : List Nat) (hs : bs.length ≤ size) :
    Contract cfg bs fun b => IoBuf.printReserve cfg b size bs where
  safe := fun b hi => IoBuf.step_safe (op := .printReserve size bs) hb hi hs
  keeps := by
    intro b r e h
    unfold IoBuf.printReserve at e
    have hap : ∀ r, ((IoBuf.append cfg b bs).map fun s => (s, Out.ok)) = some r → r.1.buf ≠ none := by
      intro r e
      simp only [Option.map_eq_some_iff] at e
      obtain ⟨b', e, rfl⟩ := e
      exact (append_sub e).2.2 h
    split at e
    · split at e
      · exact hap r e
      · have hp : (IoBuf.prepare b).1.buf ≠ none := by
          have := (prepare_sub { b with dev := { b.dev with got := [] } } rfl).2.2.1 h
          revert this
          unfold IoBuf.prepare IoBuf.flush
          rcases hb : b.buf with _ | (_ | ⟨c, l⟩)
          · exact fun h => h
          · simp [hb]
          · obtain ⟨k, t, o, e⟩ := devWrite_sub b.dev (c :: l)
            simp only [e]
            cases o <;> simp
        rcases hpe : IoBuf.prepare b with ⟨b1, o⟩
        rw [hpe] at e hp
        cases o with
        | ok =>
          simp only [Option.map_eq_some_iff] at e
          obtain ⟨b', e, rfl⟩ := e
          exact (append_sub e).2.2 hp
        | threw => simp only [Option.some.injEq] at e; subst e; exact hp
        | dead => simp only [Option.some.injEq] at e; subst e; exact hp
    · split at e
      · exact hap r e
      · exact write_keeps e h
  sub := by
    intro b r hg e
    unfold IoBuf.printReserve at e
    have hap : ∀ r, ((IoBuf.append cfg b bs).map fun s => (s, Out.ok)) = some r →
        r.1.dev.got.Sublist (b.held ++ bs) ∧ r.1.held.Sublist (b.held ++ bs) := by
      intro r e
      simp only [Option.map_eq_some_iff] at e
      obtain ⟨b', e, rfl⟩ := e
      obtain ⟨h1, h2, _⟩ := append_sub e
      exact ⟨by simp [h1, hg], h2⟩
    split at e
    · split at e
      · exact hap r e
      · obtain ⟨h1, h2, _, h4⟩ := prepare_sub b hg
        rcases hpe : IoBuf.prepare b with ⟨b1, o⟩
        rw [hpe] at e h1 h2 h4
        cases o with
        | ok =>
          simp only [Option.map_eq_some_iff] at e
          obtain ⟨b', e, rfl⟩ := e
          obtain ⟨h5, h6, _⟩ := append_sub e
          rw [h4 rfl] at h6
          exact ⟨by rw [h5]; exact h1.trans (List.sublist_append_left _ _), h6.trans (by simp)⟩
        | threw =>
          simp only [Option.some.injEq] at e; subst e
          exact ⟨h1.trans (List.sublist_append_left _ _), h2.trans (List.sublist_append_left _ _)⟩
        | dead =>
          simp only [Option.some.injEq] at e; subst e
          exact ⟨h1.trans (List.sublist_append_left _ _), h2.trans (List.sublist_append_left _ _)⟩
    · split at e
      · exact hap r e
      · exact write_sub hg e
  full := fun b r hi hf e => full_of_ok (op := .printReserve size bs) hb hs rfl r hi hf e

/-! ## Updating functions -/

@[simp] theorem upd_same {α : Type} (f : Nat → α) (x : Nat) (v : α) : upd f x v x = v := by simp [upd]
theorem upd_ne {α : Type} (f : Nat → α) {x y : Nat} (v : α) (h : y ≠ x) : upd f x v y = f y := by simp [upd, h]

end Verif.BufObj
