import Verif.BufObj.Lemmas2
/-! Every operation keeps the invariant. -/
namespace Verif.BufObj
open Verif.IoBuf (Answer Out Cfg)

theorem closeThrow_eff {cfg : Cfg} (hb : 1 ≤ cfg.bfs) (s : St) (o : Obj) (hr : (chars o).length ≤ cfg.bfs) :
    ∃ r, closeThrow cfg s o = some r ∧ Eff cfg [] s o r ∧ (r.2.2 = .ok → chars r.1 = []) ∧ r.1.ob.map Prod.fst = o.ob.map Prod.fst ∧
      (r.2.2 = .ok ∨ r.2.2 = .threw) := by
  obtain ⟨r, e, he⟩ := output_eff (contract_flush cfg hb) s o hr
  have key : ∀ d : IoBuf.Dev, d.got = [] →
      ((IoBuf.flush ⟨o.ob.map Prod.snd, d⟩).2 = .ok → (IoBuf.flush ⟨o.ob.map Prod.snd, d⟩).1.held = []) ∧
      ((IoBuf.flush ⟨o.ob.map Prod.snd, d⟩).2 = .ok ∨ (IoBuf.flush ⟨o.ob.map Prod.snd, d⟩).2 = .threw) ∧
      (o.ob = none → (IoBuf.flush ⟨o.ob.map Prod.snd, d⟩).1.buf = none) := by
    intro d hd
    refine ⟨(flush_sub _ hd).2.2.2, ?_, ?_⟩
    · unfold IoBuf.flush
      rcases o.ob.map Prod.snd with _ | (_ | ⟨c, l⟩)
      · exact .inl rfl
      · exact .inl rfl
      · obtain ⟨d', e | e⟩ := IoBuf.devWrite_out d (c :: l) <;> simp [e]
    · intro h; simp [IoBuf.flush, h]
  have ch : ∀ s' (b : Option (List Nat)), chars (setOut cfg s' o b).1 = b.getD [] := by
    intro s' b
    cases b with
    | none => rfl
    | some l => cases ho : o.ob <;> simp [setOut, ho, chars]
  have bl : ∀ s' (b : Option (List Nat)), (o.ob = none → b = none) → (o.ob ≠ none → b ≠ none) →
      (setOut cfg s' o b).1.ob.map Prod.fst = o.ob.map Prod.fst := by
    intro s' b h1 h2
    cases ho : o.ob with
    | none => rw [h1 ho]; rfl
    | some p =>
      cases b with
      | none => exact absurd rfl (h2 (by simp [ho]))
      | some l => simp [setOut, ho]
  refine ⟨r, e, he, ?_⟩
  unfold output device at e
  cases hf : o.file with
  | none =>
    obtain ⟨k1, k2, k3⟩ := key ⟨[], [.fail 0, .fail 0]⟩ rfl
    rw [hf] at e
    simp only [Option.map_some, Option.some.injEq] at e
    subst e
    refine ⟨fun h => by rw [ch]; exact k1 h, bl _ _ k3 ?_, k2⟩
    intro h; exact (contract_flush cfg hb).keeps _ _ rfl (by simpa using h)
  | some f =>
    obtain ⟨k1, k2, k3⟩ := key ⟨[], s.script⟩ rfl
    rw [hf] at e
    simp only [Option.map_some, Option.some.injEq] at e
    subst e
    refine ⟨fun h => by rw [ch]; exact k1 h, bl _ _ k3 ?_, k2⟩
    intro h; exact (contract_flush cfg hb).keeps _ _ rfl (by simpa using h)

section
variable {cfg : Cfg} {fl : Prop} {s : St}

theorem blk_dropInput (o : Obj) (k : Bool) : blk (dropInput o) k = blk o k := by
  cases k
  · rfl
  · simp only [blk, dropInput, if_true]
    cases o.ib <;> rfl

/-- The pending characters are written out; after success the buffer is empty. -/
theorem J.closeThrow (hb : 1 ≤ cfg.bfs) (hj : J cfg fl s) {x : Nat} {o : Obj} (hx : s.objs x = some o) :
    ∃ r, closeThrow cfg s o = some r ∧ J cfg fl { r.2.1 with objs := upd s.objs x (some r.1) } ∧ r.2.1.objs = s.objs ∧
      (r.2.2 = .ok → chars r.1 = []) ∧ r.1.tag = o.tag ∧ r.1.file = o.file ∧ r.1.ib = o.ib ∧ (fl → o.file ≠ none → r.2.2 = .ok) ∧
      (r.2.2 = .ok ∨ r.2.2 = .threw) := by
  obtain ⟨r, e, he, h1, h2, h3⟩ := closeThrow_eff hb s o (hj.room x o hx)
  refine ⟨r, e, ?_, he.objs, h1, he.tag, he.file, he.ib, ?_, h3⟩
  · have := hj.out hx he (.inl ⟨rfl, rfl⟩)
    rwa [List.append_nil, ← he.written] at this
  · intro h hf
    cases hf' : o.file with
    | none => exact absurd hf' hf
    | some f =>
      obtain ⟨_, _, _, h⟩ := he.some f hf'
      exact (h (hj.full ‹_›)).2.1

theorem J.closeImpl (hb : 1 ≤ cfg.bfs) (hj : J cfg fl s) {x : Nat} {o : Obj} (hx : s.objs x = some o) :
    ∃ r, closeImpl cfg s o = some r ∧ J cfg fl { r.2 with objs := upd s.objs x (some r.1) } ∧ r.2.objs = s.objs ∧ chars r.1 = [] ∧
      r.1.tag = o.tag ∧ r.1.file = o.file ∧ r.1.ib = o.ib := by
  obtain ⟨r, e, h1, h2, h3, h4, h5, h6, h7, _⟩ := hj.closeThrow hb hx
  have hc : chars { r.1 with ob := r.1.ob.map fun p => (p.1, []) } = [] := by
    simp only [chars]; cases r.1.ob <;> rfl
  refine ⟨({ r.1 with ob := r.1.ob.map fun p => (p.1, []) }, r.2.1), by simp [Verif.BufObj.closeImpl, e], ?_, h2, hc, h4, h5, h6⟩
  have := h1.set (x := x) (o := r.1) (o' := { r.1 with ob := r.1.ob.map fun p => (p.1, []) }) (by simp) (by
    intro k; cases k
    · simp only [blk, Bool.false_eq_true, if_false]; cases r.1.ob <;> rfl
    · rfl) rfl (.inr ⟨hc, fun h hf => h3 (h7 h (by rw [← h5]; exact hf))⟩)
  simpa only [upd_upd] using this

/-- Freeing the buffers of the object in `x`; the state `s` may not know it yet. -/
theorem cleanup_J {g : Nat → Option Obj} (hj : J cfg fl { s with objs := g }) {x : Nat} {o : Obj} (hx : g x = some o) (hc : chars o = []) :
    ∃ h, cleanup cfg s o = some ({ o with ob := none, ib := none }, { s with heap := h }) ∧
      J cfg fl { s with heap := h, objs := upd g x (some { o with ob := none, ib := none }) } := by
  -- output buffer
  have h1 : ∃ h, freeBuf cfg s o.ob = some { s with heap := h } ∧
      J cfg fl { s with heap := h, objs := upd g x (some { o with ob := none }) } := by
    cases ho : o.ob with
    | none =>
      refine ⟨s.heap, rfl, ?_⟩
      have : ({ o with ob := none } : Obj) = o := by cases o; simp_all
      rw [this, upd_self g x _ hx]
      exact hj
    | some p =>
      obtain ⟨b, l⟩ := p
      obtain ⟨h2, h3⟩ := hj.free (o' := { o with ob := none }) hx (k := false) (b := b) (by simp [blk, ho]) (by simp [blk]) (by simp [blk]) rfl rfl
        (by rw [hc]; rfl)
      exact ⟨upd s.heap b none, by simp only [freeBuf, dealloc]; rw [if_pos h2], h3⟩
  obtain ⟨h, e1, j1⟩ := h1
  have h2 : ∃ h', freeBuf cfg { s with heap := h } o.ib = some { s with heap := h' } ∧
      J cfg fl { s with heap := h', objs := upd g x (some { o with ob := none, ib := none }) } := by
    cases hi : o.ib with
    | none =>
      refine ⟨h, rfl, ?_⟩
      have : ({ o with ob := none, ib := none } : Obj) = { o with ob := none } := by cases o; simp_all
      rw [this]
      exact j1
    | some p =>
      obtain ⟨b, l⟩ := p
      obtain ⟨h2, h3⟩ := j1.free (x := x) (o := { o with ob := none }) (o' := { o with ob := none, ib := none }) (by simp) (k := true) (b := b)
        (by simp [blk, hi]) (by simp [blk]) (by simp [blk]) rfl rfl rfl
      refine ⟨upd h b none, by simp only [freeBuf, dealloc]; rw [if_pos h2], ?_⟩
      simpa only [upd_upd] using h3
  obtain ⟨h', e2, j2⟩ := h2
  refine ⟨h', ?_, j2⟩
  simp only [cleanup, e1, e2, Option.bind_some, Option.map_some]

/-- Every operation is defined and keeps the invariant. -/
theorem step_J (hb : 1 ≤ cfg.bfs) (hj : J cfg fl s) {op : Op} (hh : Honest op) : ∃ r, step cfg s op = some r ∧ J cfg fl r.1 := by
  cases op with
  | «open» x f =>
    cases hx : s.objs x with
    | some o => exact ⟨_, by simp only [step, hx]; rfl, hj⟩
    | none => exact ⟨_, by simp only [step, hx]; rfl, hj.new hx (some f)⟩
  | write x bs =>
    cases hx : s.objs x with
    | none => exact ⟨_, by simp only [step, hx]; rfl, hj⟩
    | some o =>
      obtain ⟨r, e, he⟩ := output_eff (contract_write cfg hb bs) s o (hj.room x o hx)
      exact ⟨_, by simp only [step, hx, e, Option.map_some]; rfl, hj.out hx he (.inr rfl)⟩
  | print x size bs =>
    cases hx : s.objs x with
    | none => exact ⟨_, by simp only [step, hx]; rfl, hj⟩
    | some o =>
      obtain ⟨r, e, he⟩ := output_eff (contract_print cfg hb size bs hh) s o (hj.room x o hx)
      have j1 := hj.out hx he (.inr rfl)
      refine ⟨_, by simp only [step, hx, e, Option.map_some]; rfl, ?_⟩
      by_cases hp : prepares cfg o size
      · have j2 := j1.set (x := x) (o := r.1) (o' := dropInput r.1) (by simp) (blk_dropInput _) rfl (.inl ⟨rfl, rfl⟩)
        simp only [upd_upd] at j2
        simpa only [hp, if_true] using j2
      · simpa only [hp, if_false, Bool.false_eq_true] using j1
  | flush x =>
    cases hx : s.objs x with
    | none => exact ⟨_, by simp only [step, hx]; rfl, hj⟩
    | some o =>
      obtain ⟨r, e, h1, h2, h3, h4, h5, h6, h7, h8⟩ := hj.closeThrow hb hx
      refine ⟨_, by simp only [step, hx, e, Option.map_some]; rfl, ?_⟩
      by_cases hok : r.2.2 = .ok
      · have j2 := h1.set (x := x) (o := r.1) (o' := dropInput r.1) (by simp) (blk_dropInput _) rfl (.inl ⟨rfl, rfl⟩)
        simp only [upd_upd] at j2
        simpa only [hok, if_true] using j2
      · simpa only [hok, if_false] using h1
  | fill x data =>
    cases hx : s.objs x with
    | none => exact ⟨_, by simp only [step, hx]; rfl, hj⟩
    | some o =>
      cases hi : o.ib with
      | some p =>
        refine ⟨_, by simp only [step, hx, hi]; rfl, ?_⟩
        exact hj.set hx (by intro k; cases k <;> simp [blk, hi]) rfl (.inl ⟨rfl, rfl⟩)
      | none => exact ⟨_, by simp only [step, hx, hi]; rfl, hj.allocIn hx hi _⟩
  | take x n =>
    cases hx : s.objs x with
    | none => exact ⟨_, by simp only [step, hx]; rfl, hj⟩
    | some o =>
      refine ⟨_, by simp only [step, hx]; rfl, ?_⟩
      refine hj.set hx ?_ rfl (.inl ⟨rfl, rfl⟩)
      intro k; cases k
      · rfl
      · simp only [blk, if_true]; cases o.ib <;> rfl
  | copy x y ans =>
    cases hx : s.objs x with
    | some o => exact ⟨_, by simp only [step, hx]; rfl, hj⟩
    | none =>
      cases hy : s.objs y with
      | none => exact ⟨_, by simp only [step, hx, hy]; rfl, hj⟩
      | some o =>
        cases ans with
        | true => exact ⟨_, by simp only [step, hx, hy, if_true]; rfl, hj.new hx o.file⟩
        | false => exact ⟨_, by simp only [step, hx, hy]; rfl, hj⟩
  | move x y =>
    cases hx : s.objs x with
    | some o => exact ⟨_, by simp only [step, hx]; rfl, hj⟩
    | none =>
      cases hy : s.objs y with
      | none => exact ⟨_, by simp only [step, hx, hy]; rfl, hj⟩
      | some o =>
        have hxy : y ≠ x := by rintro rfl; rw [hx] at hy; cases hy
        refine ⟨_, by simp only [step, hx, hy]; rfl, ?_⟩
        have j1 := (hj.new hx none).swap (x := x) (y := y) (o := { file := none, tag := s.nextTag }) (p := o) (by simp)
          (by simp only; rw [upd_ne _ _ hxy]; exact hy)
        simpa only [upd_upd] using j1
  | assignCopy x y ans =>
    cases hx : s.objs x with
    | none => exact ⟨_, by simp only [step, hx]; rfl, hj⟩
    | some o =>
      cases hy : s.objs y with
      | none => exact ⟨_, by simp only [step, hx, hy]; rfl, hj⟩
      | some p =>
        obtain ⟨r, e, h1, h2, h3, h4, h5, h6, h7, h8⟩ := hj.closeThrow hb hx
        refine ⟨_, by simp only [step, hx, hy, e, Option.map_some]; rfl, ?_⟩
        by_cases hok : r.2.2 = .ok
        · cases ans with
          | true =>
            have j2 := h1.set (x := x) (o := r.1) (o' := { dropInput r.1 with file := p.file }) (by simp) (blk_dropInput _) rfl
              (.inr ⟨h3 hok, fun _ _ => h3 hok⟩)
            simp only [upd_upd] at j2
            simpa only [hok, if_true] using j2
          | false =>
            have j2 := h1.set (x := x) (o := r.1) (o' := dropInput r.1) (by simp) (blk_dropInput _) rfl (.inl ⟨rfl, rfl⟩)
            simp only [upd_upd] at j2
            simpa only [hok, if_true, if_false, Bool.false_eq_true] using j2
        · simpa only [hok, if_false] using h1
  | assignMove x y =>
    cases hx : s.objs x with
    | none => exact ⟨_, by simp only [step, hx]; rfl, hj⟩
    | some o =>
      cases hy : s.objs y with
      | none => exact ⟨_, by simp only [step, hx, hy]; rfl, hj⟩
      | some p =>
        obtain ⟨r, e, h1, h2, h3, h4, h5, h6⟩ := hj.closeImpl hb hx
        obtain ⟨h, e2, j2⟩ := cleanup_J h1 (x := x) (o := r.1) (by simp) h3
        refine ⟨_, by simp only [step, hx, hy, e, e2, Option.bind_some, Option.map_some]; rfl, ?_⟩
        simp only [upd_upd] at j2
        by_cases hxy : x = y
        · simpa only [hxy, if_true] using j2
        · have hyx : y ≠ x := Ne.symm hxy
          have j3 := j2.del (x := x) (o := { r.1 with ob := none, ib := none }) (by simp) rfl rfl
          have j4 := j3.new (x := x) (by simp) none
          have j5 := j4.swap (x := x) (y := y) (o := { file := none, tag := r.2.nextTag }) (p := p) (by simp)
            (by simp only; rw [upd_ne _ _ hyx, upd_ne _ _ hyx, upd_ne _ _ hyx]; exact hy)
          have hnt : r.2.nextTag = s.nextTag := by
            obtain ⟨r', e', he', _⟩ := closeThrow_eff hb s o (hj.room x o hx)
            simp only [Verif.BufObj.closeImpl, e', Option.map_some, Option.some.injEq] at e
            subst e
            exact he'.nextTag
          simp only [upd_upd] at j5
          simpa only [hxy, if_false, hnt] using j5
  | swap x y =>
    cases hx : s.objs x with
    | none => exact ⟨_, by simp only [step, hx]; rfl, hj⟩
    | some o =>
      cases hy : s.objs y with
      | none => exact ⟨_, by simp only [step, hx, hy]; rfl, hj⟩
      | some p => exact ⟨_, by simp only [step, hx, hy]; rfl, hj.swap hx hy⟩
  | reopen x f ans =>
    cases hx : s.objs x with
    | none => exact ⟨_, by simp only [step, hx]; rfl, hj⟩
    | some o =>
      obtain ⟨r, e, h1, h2, h3, h4, h5, h6⟩ := hj.closeImpl hb hx
      refine ⟨_, by simp only [step, hx, e, Option.map_some]; rfl, ?_⟩
      cases ans with
      | true =>
        have j2 := h1.set (x := x) (o := r.1) (o' := { dropInput r.1 with file := some f }) (by simp) (blk_dropInput _) rfl (.inr ⟨h3, fun _ _ => h3⟩)
        simp only [upd_upd] at j2
        simpa only [if_true] using j2
      | false =>
        have j2 := h1.set (x := x) (o := r.1) (o' := dropInput r.1) (by simp) (blk_dropInput _) rfl (.inl ⟨rfl, rfl⟩)
        simp only [upd_upd] at j2
        simpa only [if_false, Bool.false_eq_true] using j2
  | close x =>
    cases hx : s.objs x with
    | none => exact ⟨_, by simp only [step, hx]; rfl, hj⟩
    | some o =>
      obtain ⟨r, e, h1, h2, h3, h4, h5, h6, h7, h8⟩ := hj.closeThrow hb hx
      refine ⟨_, by simp only [step, hx, e, Option.map_some]; rfl, ?_⟩
      by_cases hok : r.2.2 = .ok
      · have j2 := h1.set (x := x) (o := r.1) (o' := { dropInput r.1 with file := none }) (by simp) (blk_dropInput _) rfl
          (.inr ⟨h3 hok, fun _ _ => h3 hok⟩)
        simp only [upd_upd] at j2
        simpa only [hok, if_true] using j2
      · simpa only [hok, if_false] using h1
  | destroy x =>
    cases hx : s.objs x with
    | none => exact ⟨_, by simp only [step, hx]; rfl, hj⟩
    | some o =>
      obtain ⟨r, e, h1, h2, h3, h4, h5, h6⟩ := hj.closeImpl hb hx
      obtain ⟨h, e2, j2⟩ := cleanup_J h1 (x := x) (o := r.1) (by simp) h3
      refine ⟨_, by simp only [step, hx, e, e2, Option.bind_some, Option.map_some]; rfl, ?_⟩
      simp only [upd_upd] at j2
      have j3 := j2.del (x := x) (o := { r.1 with ob := none, ib := none }) (by simp) rfl rfl
      simpa only [upd_upd] using j3

theorem run_J (hb : 1 ≤ cfg.bfs) (ops : List Op) : ∀ {s : St}, J cfg fl s → (∀ op ∈ ops, Honest op) → ∃ s', run cfg s ops = some s' ∧ J cfg fl s' := by
  induction ops with
  | nil => intro s hj _; exact ⟨s, rfl, hj⟩
  | cons op ops ih =>
    intro s hj hh
    obtain ⟨r, e, j⟩ := step_J hb hj (hh op (by simp))
    by_cases hd : r.2 = .dead
    · exact ⟨r.1, by simp [run, e, hd], j⟩
    · obtain ⟨s', e', j'⟩ := ih j fun o ho => hh o (by simp [ho])
      exact ⟨s', by simp [run, e, hd, e'], j'⟩

theorem J.init (cfg : Cfg) (script : List Answer) : J cfg (∀ a ∈ script, a = .full) { script := script } where
  inj := by intro x k y k' b h; cases h
  heap := by
    intro b n
    constructor
    · rintro ⟨⟩
    · rintro ⟨_, x, k, h⟩; cases h
  lt := by intro b h; exact absurd rfl h
  room := by rintro x o ⟨⟩
  tag := by rintro x y o p ⟨⟩
  tagLt := by rintro x o ⟨⟩
  wLt := by intro w hw; cases hw
  sub := by rintro x o ⟨⟩
  log := by intro f p hp; cases hp
  full := fun h => h
  live := by rintro _ x o f ⟨⟩
  rest := by intro _ t f _; rfl

end

end Verif.BufObj
