import Verif.BufObj.Lemmas3
/-!
# C79: buffered stream objects

Opening, copying, moving, assigning, swapping, reopening, closing and destroying buffered streams in any order.
-/
namespace Verif.BufObj
open Verif.IoBuf (Answer Out Cfg)

/-- The output (`false`) or input (`true`) buffer of the object in `x` is the block `b`. -/
def Holds (s : St) (x : Nat) (k : Bool) (b : Nat) : Prop := ∃ o l, s.objs x = some o ∧ (if k then o.ib else o.ob) = some (b, l)

theorem slot_iff (s : St) (x : Nat) (k : Bool) (b : Nat) : slot s.objs x k = some b ↔ Holds s x k b := by
  unfold slot Holds blk
  cases hx : s.objs x with
  | none => simp
  | some o => cases k <;> simp

/-- C79, memory: in every program with buffered streams, whatever the devices answer and wherever exceptions are thrown, no buffer
is freed twice, freed with a wrong size or written beyond its end (the program is defined); at every point each live block of memory belongs to
exactly one buffer of one object, so that when all objects are destroyed everything is freed. -/
theorem c79_memory (cfg : Cfg) (hb : 1 ≤ cfg.bfs) (script : List Answer) (ops : List Op) (hh : ∀ op ∈ ops, Honest op) :
    ∃ s, run cfg { script := script } ops = some s ∧
      (∀ b n, s.heap b = some n ↔ n = cfg.bfs ∧ ∃ x k, Holds s x k b) ∧
      (∀ x k y k' b, Holds s x k b → Holds s y k' b → x = y ∧ k = k') ∧
      ((∀ x, s.objs x = none) → ∀ b, s.heap b = none) := by
  obtain ⟨s, e, j⟩ := run_J hb ops (J.init cfg script) hh
  refine ⟨s, e, ?_, ?_, ?_⟩
  · simp only [← slot_iff]; exact j.heap
  · simp only [← slot_iff]; exact j.inj
  · intro h b
    by_contra hc
    obtain ⟨n, hn⟩ := Option.ne_none_iff_exists'.1 hc
    obtain ⟨_, x, k, hs⟩ := (j.heap b n).1 hn
    simp [slot, h x] at hs

/-- C79, delivery (devices that take everything): after every program, every file has received from every stream exactly what was written to the
stream while it referred to the file, once and in order, except for what a live stream still holds back, which is the end of it. In
particular, everything has arrived when the streams are destroyed, closed or refer to other files. -/
theorem c79_delivered (cfg : Cfg) (hb : 1 ≤ cfg.bfs) (script : List Answer) (hs : ∀ a ∈ script, a = .full) (ops : List Op) (hh : ∀ op ∈ ops, Honest op) :
    ∃ s, run cfg { script := script } ops = some s ∧
      (∀ x o f, s.objs x = some o → o.file = some f → received o.tag (s.files f) ++ (o.ob.map Prod.snd).getD [] = wrote o.tag (some f) s.written) ∧
      (∀ t f, (∀ x o, s.objs x = some o → o.tag = t → o.file ≠ some f) → received t (s.files f) = wrote t (some f) s.written) := by
  obtain ⟨s, e, j⟩ := run_J hb ops (J.init cfg script) hh
  exact ⟨s, e, j.live hs, j.rest hs⟩

/-- C79, devices that fail or take only part: nothing gets into a file that was not written to a stream while it referred to that
file. Every piece a file receives from a stream consists of characters written to the stream while it referred to the file, in that order. -/
theorem c79_no_strays (cfg : Cfg) (hb : 1 ≤ cfg.bfs) (script : List Answer) (ops : List Op) (hh : ∀ op ∈ ops, Honest op) :
    ∃ s, run cfg { script := script } ops = some s ∧ ∀ f t bs, (t, bs) ∈ s.files f → bs.Sublist (wrote t (some f) s.written) := by
  obtain ⟨s, e, j⟩ := run_J hb ops (J.init cfg script) hh
  exact ⟨s, e, fun f t bs h => (j.log f (t, bs) h).1⟩

/-- A program with three streams on files 5 and 6. -/
def demo : List Op :=
  [.open 0 5, .write 0 [1, 2], .print 0 2 [3, 4], .copy 1 0 true, .write 1 [10], .fill 1 [50, 51], .take 1 1, .move 2 0, .write 2 [5, 6, 7], .reopen 1 6 true,
   .write 1 [11, 12], .swap 1 2, .assignMove 2 1, .write 2 [8], .assignCopy 0 2 true, .write 0 [20]]

/-- All streams are destroyed. -/
def finale : List Op := [.destroy 0, .destroy 1, .destroy 2]

example : ∀ op ∈ demo ++ finale, Honest op := by decide +kernel
/-- Before the end, streams hold characters back and own blocks. -/
example : (run ⟨3, false⟩ {} demo).map (fun s => (s.objs 0, s.objs 1, s.objs 2, List.map s.heap [0, 1, 2, 3, 4])) =
    some (some { ob := some (3, [20]), file := some 5, tag := 2 }, some { file := none, tag := 3 }, some { ob := some (0, [8]), file := some 5, tag := 0 },
      [some 3, none, none, some 3, none]) := by decide +kernel
example : (run ⟨3, false⟩ {} (demo ++ finale)).map (fun s => (s.objs 0, s.objs 1, s.objs 2, List.map s.heap [0, 1, 2, 3, 4], s.files 5, s.files 6)) =
    some (none, none, none, [none, none, none, none, none],
      [(0, []), (0, [1, 2]), (1, []), (0, [3, 4, 5, 6, 7]), (1, [10]), (0, []), (2, []), (2, [20]), (0, [8])], [(1, []), (1, [11, 12])]) := rfl
/-- With failing devices. -/
example : (run ⟨3, true⟩ { script := [.full, .fail 1, .short 0, .fail 0] } (demo ++ finale)).map
    (fun s => (s.objs 0, s.objs 1, s.objs 2, List.map s.heap [0, 1, 2, 3, 4], s.files 5)) =
    some (none, none, none, [none, none, none, none, none],
      [(0, []), (0, [1, 2]), (1, []), (0, [3]), (1, []), (0, []), (2, []), (2, [20]), (0, [3, 4, 8])]) := rfl

/-! ## What the variables hold -/

theorem output_frame {cfg : Cfg} {s : St} {o : Obj} {op : IoBuf.St → Option (IoBuf.St × Out)} {r : Obj × St × Out} (e : output cfg s o op = some r) :
    r.1.ib = o.ib ∧ r.1.file = o.file ∧ r.1.tag = o.tag ∧ r.2.1.objs = s.objs ∧ r.2.1.nextTag = s.nextTag ∧ r.2.1.written = s.written := by
  have hset : ∀ (s' : St) b, (setOut cfg s' o b).1.ib = o.ib ∧ (setOut cfg s' o b).1.file = o.file ∧ (setOut cfg s' o b).1.tag = o.tag ∧
      (setOut cfg s' o b).2.objs = s'.objs ∧ (setOut cfg s' o b).2.nextTag = s'.nextTag ∧ (setOut cfg s' o b).2.written = s'.written := by
    intro s' b
    cases b with
    | none => simp [setOut]
    | some l => cases ho : o.ob <;> simp [setOut, ho, alloc]
  unfold output device at e
  cases hf : o.file with
  | none =>
    rw [hf] at e
    simp only [Option.map_map, Option.map_eq_some_iff] at e
    obtain ⟨q, _, rfl⟩ := e
    rw [← hf]
    exact hset s q.1.buf
  | some f =>
    rw [hf] at e
    simp only [Option.map_map, Option.map_eq_some_iff] at e
    obtain ⟨q, _, rfl⟩ := e
    rw [← hf]
    exact hset _ q.1.buf

theorem closeImpl_frame {cfg : Cfg} {s : St} {o : Obj} {r : Obj × St} (e : closeImpl cfg s o = some r) :
    r.1.ib = o.ib ∧ r.1.file = o.file ∧ r.1.tag = o.tag ∧ r.2.objs = s.objs ∧ r.2.nextTag = s.nextTag ∧ r.2.written = s.written := by
  simp only [closeImpl, Option.map_eq_some_iff] at e
  obtain ⟨q, e, rfl⟩ := e
  exact output_frame e

theorem freeBuf_frame {cfg : Cfg} {s s' : St} {b : Option (Nat × List Nat)} (e : freeBuf cfg s b = some s') :
    s'.objs = s.objs ∧ s'.nextTag = s.nextTag ∧ s'.written = s.written := by
  cases b with
  | none => simp only [freeBuf, Option.some.injEq] at e; subst e; simp
  | some p =>
    obtain ⟨b, l⟩ := p
    simp only [freeBuf, dealloc] at e
    split at e
    · simp only [Option.some.injEq] at e; subst e; simp
    · cases e

theorem cleanup_frame {cfg : Cfg} {s : St} {o : Obj} {r : Obj × St} (e : cleanup cfg s o = some r) :
    r.1 = { o with ob := none, ib := none } ∧ r.2.objs = s.objs ∧ r.2.nextTag = s.nextTag ∧ r.2.written = s.written := by
  simp only [cleanup, Option.bind_eq_some_iff, Option.map_eq_some_iff] at e
  obtain ⟨s1, e1, s2, e2, rfl⟩ := e
  have h1 := freeBuf_frame e1
  have h2 := freeBuf_frame e2
  exact ⟨rfl, h2.1.trans h1.1, h2.2.1.trans h1.2.1, h2.2.2.trans h1.2.2⟩

/-- The identities of the streams in the variables, and their files. -/
def who (s : St) : Nat → Option Nat := fun x => (s.objs x).map Obj.tag
def fileOf (s : St) : Nat → Option Nat := fun x => (s.objs x).bind Obj.file

/-- The input read ahead by the stream in `x`. -/
def ahead (s : St) (x : Nat) : List Nat := ((s.objs x).map fun o => (o.ib.map Prod.snd).getD []).getD []

/-- What an object shows. -/
def show1 (o : Obj) : Option Nat × List Nat := (o.file, (o.ib.map Prod.snd).getD [])

theorem map_upd {α β : Type} (g : α → β) (f : Nat → Option α) (x : Nat) (v : Option α) :
    (fun y => (upd f x v y).map g) = upd (fun y => (f y).map g) x (v.map g) := by
  funext y
  by_cases h : y = x
  · subst h; simp
  · simp only [upd_ne _ _ h]

theorem vals_eq (s : St) : vals s = fun x => (s.objs x).map show1 := rfl

theorem upd_map_self {α β : Type} (g : α → β) (f : Nat → Option α) (x : Nat) (v : α) (o : α) (hx : f x = some o) (h : g v = g o) :
    upd (fun y => (f y).map g) x (some (g v)) = fun y => (f y).map g :=
  upd_self _ _ _ (by simp [hx, h])

/-- The statement about one operation, with its outcome `r`. -/
def Does (s : St) (op : Op) (r : St × Out) : Prop :=
  r.1.written = s.written ++ asks (who s) (fileOf s) op ∧
  if r.2 = .ok then vals r.1 = wanted (vals s) op ∧ (who r.1, r.1.nextTag) = identities (who s) s.nextTag op
  else (∀ x, fileOf r.1 x = fileOf s x) ∧ (∀ x, x ≠ target op → vals r.1 x = vals s x) ∧ (ahead r.1 (target op) = ahead s (target op) ∨ ahead r.1 (target op) = []) ∧
    who r.1 = who s ∧ r.1.nextTag = s.nextTag

/-- An operation that only replaces the object in its variable by one with the same identity. -/
theorem does_set {s s' : St} {x : Nat} {o o' : Obj} {op : Op} {out : Out} (hx : s.objs x = some o) (hs : s'.objs = upd s.objs x (some o'))
    (hn : s'.nextTag = s.nextTag) (ht : o'.tag = o.tag) (hw : s'.written = s.written ++ asks (who s) (fileOf s) op) (hop : target op = x)
    (hid : identities (who s) s.nextTag op = (who s, s.nextTag))
    (hok : out = .ok → upd (vals s) x (some (show1 o')) = wanted (vals s) op)
    (hno : out ≠ .ok → o'.file = o.file ∧ ((show1 o').2 = (show1 o).2 ∨ (show1 o').2 = [])) : Does s op (s', out) := by
  have hwho : who s' = who s := by
    have : who s' = fun y => (upd s.objs x (some o') y).map Obj.tag := by funext y; simp only [who, hs]
    rw [this, map_upd]
    exact upd_map_self Obj.tag s.objs x o' o hx ht
  have hv : vals s' = upd (vals s) x (some (show1 o')) := by
    rw [vals_eq, vals_eq, hs, map_upd]; rfl
  refine ⟨hw, ?_⟩
  by_cases h : out = .ok
  · simp only [h, if_true]
    exact ⟨by rw [hv, hok h], by rw [hwho, hn, hid]⟩
  · simp only [h, if_false]
    obtain ⟨h1, h2⟩ := hno h
    refine ⟨?_, ?_, ?_, hwho, hn⟩
    · intro y
      simp only [fileOf, hs]
      by_cases hy : y = x
      · subst hy; simp [hx, h1]
      · rw [upd_ne _ _ hy]
    · intro y hy
      rw [hop] at hy
      rw [hv, upd_ne _ _ hy]
    · rw [hop]
      simp only [ahead, hs, upd_same, hx]
      simpa [show1] using h2

/-- Constructing a new stream. -/
theorem does_new {s s' : St} {x : Nat} {f : Option Nat} {op : Op} (hs : s'.objs = upd s.objs x (some { file := f, tag := s.nextTag }))
    (hn : s'.nextTag = s.nextTag + 1) (hw : s'.written = s.written ++ asks (who s) (fileOf s) op)
    (hid : identities (who s) s.nextTag op = (upd (who s) x (some s.nextTag), s.nextTag + 1))
    (hok : upd (vals s) x (some (f, [])) = wanted (vals s) op) : Does s op (s', .ok) := by
  refine ⟨hw, ?_⟩
  simp only [if_true]
  have hwho : who s' = upd (who s) x (some s.nextTag) := by
    have : who s' = fun y => (upd s.objs x (some { file := f, tag := s.nextTag }) y).map Obj.tag := by funext y; simp only [who, hs]
    rw [this, map_upd]; rfl
  have hv : vals s' = upd (vals s) x (some (f, [])) := by
    rw [vals_eq, vals_eq, hs, map_upd]; rfl
  exact ⟨by rw [hv, hok], by rw [hwho, hn, hid]⟩

/-- C79, the values of the variables. Let an operation that makes sense be performed in any state, with any outcome. Writes are recorded under the
stream's identity and file. If it does not throw, the variables refer to the files, have the input ahead and the identities that the specification
says: copying copies the file only, moving and swapping hand over everything, destination and source are the right way round, no other
variable changes. If it throws, every variable still refers to its file and only the input of the target may be lost. Missing:
flushing, and printing, while input is ahead (next theorem). -/
theorem c79_values_partial (cfg : Cfg) (s : St) (op : Op) (hf : Fits cfg.bfs (vals s) op) (hi : ∀ x, (op = .flush x ∨ ∃ size bs, op = .print x size bs) → ahead s x = [])
    (r : St × Out) (e : step cfg s op = some r) : Does s op r := by
  have hsome : ∀ x, vals s x ≠ none → ∃ o, s.objs x = some o := by
    intro x h
    cases hx : s.objs x with
    | none => simp [vals, hx] at h
    | some o => exact ⟨o, rfl⟩
  have hnone : ∀ x, vals s x = none → s.objs x = none := by
    intro x h
    cases hx : s.objs x with
    | none => rfl
    | some o => simp [vals, hx] at h
  have hvx : ∀ {x o}, s.objs x = some o → vals s x = some (show1 o) := by intro x o h; simp [vals, h, show1]
  have hdrop : ∀ o, (show1 (dropInput o)).2 = [] := by intro o; simp only [show1, dropInput]; cases o.ib <;> rfl
  have hsame : ∀ {x o o'}, s.objs x = some o → o'.ib = o.ib → o'.file = o.file → upd (vals s) x (some (show1 o')) = vals s := by
    intro x o o' hx h1 h2
    exact upd_self _ _ _ (by rw [hvx hx]; simp [show1, h1, h2])
  have hsameD : ∀ {x o o'}, s.objs x = some o → ahead s x = [] → o'.ib = o.ib → o'.file = o.file → upd (vals s) x (some (show1 (dropInput o'))) = vals s := by
    intro x o o' hx ha h1 h2
    refine upd_self _ _ _ ?_
    rw [hvx hx, Option.some.injEq]
    refine Prod.ext (by simp [show1, dropInput, h2]) ?_
    rw [hdrop]
    simpa [ahead, hx, show1] using ha
  cases op with
  | «open» x f =>
    have hx := hnone x hf
    simp only [step, hx, Option.some.injEq] at e
    subst e
    exact does_new (x := x) (f := some f) rfl rfl (by simp [asks]) rfl rfl
  | write x bs =>
    obtain ⟨o, hx⟩ := hsome x hf
    simp only [step, hx, Option.map_eq_some_iff] at e
    obtain ⟨q, e, rfl⟩ := e
    obtain ⟨h1, h2, h3, h4, h5, h6⟩ := output_frame e
    exact does_set hx rfl h5 h3 (by simp [asks, who, fileOf, hx]) rfl rfl (fun _ => hsame hx h1 h2) (fun _ => ⟨h2, .inl (by simp [show1, h1])⟩)
  | print x size bs =>
    obtain ⟨o, hx⟩ := hsome x hf.1
    have ha := hi x (.inr ⟨size, bs, rfl⟩)
    simp only [step, hx, Option.map_eq_some_iff] at e
    obtain ⟨q, e, rfl⟩ := e
    obtain ⟨h1, h2, h3, h4, h5, h6⟩ := output_frame e
    refine does_set hx rfl h5 (by split <;> exact h3) (by simp [asks, who, fileOf, hx]) rfl rfl (fun _ => ?_) (fun _ => ?_)
    · split
      · exact hsameD hx ha h1 h2
      · exact hsame hx h1 h2
    · split
      · exact ⟨h2, .inr (hdrop _)⟩
      · exact ⟨h2, .inl (by simp [show1, h1])⟩
  | flush x =>
    obtain ⟨o, hx⟩ := hsome x hf
    have ha := hi x (.inl rfl)
    simp only [step, hx, Option.map_eq_some_iff] at e
    obtain ⟨q, e, rfl⟩ := e
    obtain ⟨h1, h2, h3, h4, h5, h6⟩ := output_frame e
    by_cases hok : q.2.2 = .ok
    · simp only [hok, if_true]
      exact does_set (o' := dropInput q.1) hx rfl h5 h3 (by simp [asks, h6]) rfl rfl (fun _ => hsameD hx ha h1 h2) (fun h => absurd rfl h)
    · simp only [hok, if_false]
      exact does_set (o' := q.1) hx rfl h5 h3 (by simp [asks, h6]) rfl rfl (fun h => absurd h hok) (fun _ => ⟨h2, .inl (by simp [show1, h1])⟩)
  | fill x data =>
    obtain ⟨o, hx⟩ := hsome x hf.1
    have hl : data.take cfg.bfs = data := List.take_of_length_le hf.2
    simp only [step, hx] at e
    cases hib : o.ib with
    | some p =>
      obtain ⟨b, l⟩ := p
      simp only [hib, Option.some.injEq] at e
      subst e
      exact does_set (o' := { o with ib := some (b, data.take cfg.bfs) }) hx rfl rfl rfl (by simp [asks]) rfl rfl
        (fun _ => by simp only [wanted, hvx hx, show1, hl, Option.map_some, Option.getD_some]) (fun h => absurd rfl h)
    | none =>
      simp only [hib, Option.some.injEq] at e
      subst e
      exact does_set (o' := { o with ib := some ((alloc cfg s).1, data.take cfg.bfs) }) hx rfl rfl rfl (by simp [asks, alloc]) rfl rfl
        (fun _ => by simp only [wanted, hvx hx, show1, hl, Option.map_some, Option.getD_some]) (fun h => absurd rfl h)
  | take x n =>
    obtain ⟨o, hx⟩ := hsome x hf
    simp only [step, hx, Option.some.injEq] at e
    subst e
    refine does_set (o' := { o with ib := o.ib.map fun p => (p.1, p.2.drop n) }) hx rfl rfl rfl (by simp [asks]) rfl rfl (fun _ => ?_) (fun h => absurd rfl h)
    simp only [wanted, hvx hx, show1, Option.map_some]
    cases o.ib <;> simp
  | copy x y ans =>
    have hx := hnone x hf.1
    obtain ⟨o, hy⟩ := hsome y hf.2
    simp only [step, hx, hy] at e
    cases ans with
    | true =>
      simp only [if_true, Option.some.injEq] at e
      subst e
      exact does_new (x := x) (f := o.file) rfl rfl (by simp [asks]) rfl (by simp only [wanted, hvx hy, show1, Option.map_some])
    | false =>
      simp only [Bool.false_eq_true, if_false, Option.some.injEq] at e
      subst e
      exact ⟨by simp [asks], by simp⟩
  | move x y =>
    have hx := hnone x hf.1
    obtain ⟨o, hy⟩ := hsome y hf.2
    simp only [step, hx, hy, Option.some.injEq] at e
    subst e
    refine ⟨by simp [asks], ?_⟩
    simp only [if_true, vals_eq, wanted, identities]
    refine ⟨?_, ?_⟩
    · rw [map_upd, map_upd]; simp [hy, show1]
    · have : who ({ s with objs := upd (upd s.objs x (some o)) y (some { file := none, tag := s.nextTag }), nextTag := s.nextTag + 1 } : St) =
          upd (upd (who s) x (who s y)) y (some s.nextTag) := by
        show (fun z => (upd (upd s.objs x (some o)) y (some { file := none, tag := s.nextTag }) z).map Obj.tag) = _
        rw [map_upd, map_upd]; simp only [Option.map_some, who, hy]; rfl
      rw [this]
  | assignCopy x y ans =>
    obtain ⟨o, hx⟩ := hsome x hf.1
    obtain ⟨p, hy⟩ := hsome y hf.2
    simp only [step, hx, hy, Option.map_eq_some_iff] at e
    obtain ⟨q, e, rfl⟩ := e
    obtain ⟨h1, h2, h3, h4, h5, h6⟩ := output_frame e
    by_cases hok : q.2.2 = .ok
    · cases ans with
      | true =>
        simp only [hok, if_true]
        refine does_set (o' := { dropInput q.1 with file := p.file }) hx rfl h5 h3 (by simp [asks, h6]) rfl rfl (fun _ => ?_) (fun h => absurd rfl h)
        simp only [wanted, hvx hy, Option.map_some]
        have := hdrop q.1
        simp only [show1] at this ⊢
        rw [this]
      | false =>
        simp only [hok, if_true, Bool.false_eq_true, if_false]
        exact does_set (o' := dropInput q.1) hx rfl h5 h3 (by simp [asks, h6]) rfl rfl (fun h => by cases h) (fun _ => ⟨h2, .inr (hdrop _)⟩)
    · simp only [hok, if_false]
      exact does_set (o' := q.1) hx rfl h5 h3 (by simp [asks, h6]) rfl rfl (fun h => absurd h hok) (fun _ => ⟨h2, .inl (by simp [show1, h1])⟩)
  | assignMove x y =>
    obtain ⟨o, hx⟩ := hsome x hf.1
    obtain ⟨p, hy⟩ := hsome y hf.2
    simp only [step, hx, hy, Option.bind_eq_some_iff, Option.map_eq_some_iff] at e
    obtain ⟨q, e1, q2, e2, rfl⟩ := e
    obtain ⟨h1, h2, h3, h4, h5, h6⟩ := closeImpl_frame e1
    obtain ⟨g1, g2, g3, g4⟩ := cleanup_frame e2
    by_cases hxy : x = y
    · simp only [hxy, if_true]
      subst hxy
      refine does_set (o' := q2.1) hx rfl (g3.trans h5) (by rw [g1]; exact h3) (by simp [asks, g4, h6]) rfl (by simp [identities]) (fun _ => ?_) (fun h => absurd rfl h)
      simp only [wanted, if_true, hvx hx, Option.map_some, g1, show1, h2, Option.map_none, Option.getD_none]
    · simp only [hxy, if_false]
      refine ⟨by simp [asks, g4, h6], ?_⟩
      simp only [if_true, vals_eq, wanted, identities, hxy, if_false]
      refine ⟨?_, ?_⟩
      · rw [map_upd, map_upd]; simp [hy, show1]
      · rw [Prod.mk.injEq]
        refine ⟨?_, rfl⟩
        show (fun z => (upd (upd s.objs x (some p)) y (some { file := none, tag := s.nextTag }) z).map Obj.tag) = _
        rw [map_upd, map_upd]; simp only [Option.map_some, who, hy]; rfl
  | swap x y =>
    obtain ⟨o, hx⟩ := hsome x hf.1
    obtain ⟨p, hy⟩ := hsome y hf.2
    simp only [step, hx, hy, Option.some.injEq] at e
    subst e
    refine ⟨by simp [asks], ?_⟩
    simp only [if_true, vals_eq, wanted, identities]
    refine ⟨?_, ?_⟩
    · rw [map_upd, map_upd]; simp [hx, hy]
    · rw [Prod.mk.injEq]
      refine ⟨?_, rfl⟩
      show (fun z => (upd (upd s.objs x (some p)) y (some o) z).map Obj.tag) = _
      rw [map_upd, map_upd]; simp only [Option.map_some, who, hx, hy]; rfl
  | reopen x f ans =>
    obtain ⟨o, hx⟩ := hsome x hf
    simp only [step, hx, Option.map_eq_some_iff] at e
    obtain ⟨q, e, rfl⟩ := e
    obtain ⟨h1, h2, h3, h4, h5, h6⟩ := closeImpl_frame e
    cases ans with
    | true =>
      simp only [if_true]
      refine does_set (o' := { dropInput q.1 with file := some f }) hx rfl h5 h3 (by simp [asks, h6]) rfl rfl (fun _ => ?_) (fun h => absurd rfl h)
      have := hdrop q.1
      simp only [wanted, show1] at this ⊢
      rw [this]
    | false =>
      simp only [Bool.false_eq_true, if_false]
      exact does_set (o' := dropInput q.1) hx rfl h5 h3 (by simp [asks, h6]) rfl rfl (fun h => by cases h) (fun _ => ⟨h2, .inr (hdrop _)⟩)
  | close x =>
    obtain ⟨o, hx⟩ := hsome x hf
    simp only [step, hx, Option.map_eq_some_iff] at e
    obtain ⟨q, e, rfl⟩ := e
    obtain ⟨h1, h2, h3, h4, h5, h6⟩ := output_frame e
    by_cases hok : q.2.2 = .ok
    · simp only [hok, if_true]
      refine does_set (o' := { dropInput q.1 with file := none }) hx rfl h5 h3 (by simp [asks, h6]) rfl rfl (fun _ => ?_) (fun h => absurd rfl h)
      have := hdrop q.1
      simp only [wanted, show1] at this ⊢
      rw [this]
    · simp only [hok, if_false]
      exact does_set (o' := q.1) hx rfl h5 h3 (by simp [asks, h6]) rfl rfl (fun h => absurd h hok) (fun _ => ⟨h2, .inl (by simp [show1, h1])⟩)
  | destroy x =>
    obtain ⟨o, hx⟩ := hsome x hf
    simp only [step, hx, Option.bind_eq_some_iff, Option.map_eq_some_iff] at e
    obtain ⟨q, e1, q2, e2, rfl⟩ := e
    obtain ⟨h1, h2, h3, h4, h5, h6⟩ := closeImpl_frame e1
    obtain ⟨g1, g2, g3, g4⟩ := cleanup_frame e2
    refine ⟨by simp [asks, g4, h6], ?_⟩
    simp only [if_true, vals_eq, wanted, identities]
    refine ⟨by rw [map_upd]; rfl, ?_⟩
    rw [Prod.mk.injEq]
    refine ⟨?_, g3.trans h5⟩
    show (fun z => (upd s.objs x none z).map Obj.tag) = _
    rw [map_upd]; rfl

/-- Two streams, one with characters held back and input ahead. -/
def two : St where
  objs := upd (upd (fun _ => none) 0 (some { ob := some (0, [1]), ib := some (1, [7, 8]), file := some 5, tag := 0 })) 1 (some { file := some 6, tag := 1 })
  heap := upd (upd (fun _ => none) 0 (some 3)) 1 (some 3)
  next := 2
  nextTag := 2

example : (step ⟨3, false⟩ two (.assignMove 1 0)).map (fun r => (vals r.1 0, vals r.1 1, r.2)) = some (some (none, []), some (some 5, [7, 8]), .ok) := rfl
example : Fits 3 (vals two) (.assignMove 1 0) := by simp [Fits, vals, two, upd]

/-- C79 is violated for input: flushing a stream that has input ahead, as well as printing a number to a stream whose output buffer is not
there yet or too full, makes it forget the input that was read but not yet consumed. -/
theorem c79_input_violated :
    ∃ s r r', run ⟨16, false⟩ {} [.open 0 5, .fill 0 [1, 2, 3], .take 0 1] = some s ∧ ahead s 0 = [2, 3] ∧
      step ⟨16, false⟩ s (.flush 0) = some r ∧ r.2 = .ok ∧ ahead r.1 0 = [] ∧
      step ⟨16, false⟩ s (.print 0 4 [52]) = some r' ∧ r'.2 = .ok ∧ ahead r'.1 0 = [] :=
  ⟨_, _, _, rfl, rfl, rfl, rfl, rfl, rfl, rfl, rfl⟩

/-- C79 is violated for errors: reopening a stream whose last characters cannot be written succeeds although they are lost. -/
theorem c79_reopen_violated :
    ∃ s r, run ⟨16, false⟩ { script := [.fail 0] } [.open 0 5, .write 0 [1, 2, 3]] = some s ∧
      step ⟨16, false⟩ s (.reopen 0 6 true) = some r ∧ r.2 = .ok ∧ received 0 (r.1.files 5) = [] ∧ wrote 0 (some 5) r.1.written = [1, 2, 3] ∧
      (r.1.objs 0).map chars = some [] :=
  ⟨_, _, rfl, rfl, rfl, rfl, rfl, rfl⟩

/-- C79 is violated for streams without a file: a moved-from or closed stream accepts characters without complaint, but from then on it can
never be copy-assigned to: every attempt throws and changes nothing. -/
theorem c79_copy_assign_stuck_violated (cfg : Cfg) (s : St) (x y : Nat) (o p : Obj) (b c : Nat) (l : List Nat) (hx : s.objs x = some o) (hy : s.objs y = some p)
    (hf : o.file = none) (hl : o.ob = some (b, c :: l)) (ans : Bool) : step cfg s (.assignCopy x y ans) = some (s, .threw) := by
  have e : closeThrow cfg s o = some (o, s, .threw) := by
    obtain ⟨ob, ib, file, tag⟩ := o
    simp only at hf hl
    subst hf hl
    simp [closeThrow, output, device, IoBuf.flush, IoBuf.devWrite, setOut]
  simp only [step, hx, hy, e, Option.map_some]
  have : upd s.objs x (some o) = s.objs := upd_self _ _ _ hx
  simp [this]

example : ∃ s, run ⟨16, false⟩ {} [.open 0 5, .move 1 0, .write 0 [1]] = some s ∧ s.objs 0 = some { ob := some (0, [1]), file := none, tag := 1 } ∧
    s.objs 1 = some { file := some 5, tag := 0 } := ⟨_, rfl, rfl, rfl⟩

/-- C79: after every other operation that succeeds in giving a stream a file (or when it is new) it holds no characters, so that what is written to it
afterwards goes there; in particular move assignment, reopening and construction work for every stream, whatever it held. -/
theorem c79_fresh (cfg : Cfg) (hb : 1 ≤ cfg.bfs) (script : List Answer) (ops : List Op) (hh : ∀ op ∈ ops, Honest op) (s : St) (e : run cfg { script := script } ops = some s)
    (op : Op) (x f : Nat) (y : Nat) (hop : op = .open x f ∨ op = .reopen x f true ∨ op = .copy x y true ∨ op = .assignCopy x y true)
    (hf : Fits cfg.bfs (vals s) op) (r : St × Out) (er : step cfg s op = some r) (hok : r.2 = .ok) :
    ∃ o, r.1.objs x = some o ∧ (o.ob.map Prod.snd).getD [] = [] := by
  obtain ⟨s', e', j⟩ := run_J hb ops (J.init cfg script) hh
  rw [e, Option.some.injEq] at e'
  subst e'
  have hsome : ∀ x, vals s x ≠ none → ∃ o, s.objs x = some o := by
    intro x h
    cases hx : s.objs x with
    | none => simp [vals, hx] at h
    | some o => exact ⟨o, rfl⟩
  have hnone : ∀ x, vals s x = none → s.objs x = none := by
    intro x h
    cases hx : s.objs x with
    | none => rfl
    | some o => simp [vals, hx] at h
  rcases hop with rfl | rfl | rfl | rfl
  · simp only [step, hnone x hf, Option.some.injEq] at er
    subst er
    exact ⟨_, by simp only [upd_same]; rfl, rfl⟩
  · obtain ⟨o, hx⟩ := hsome x hf
    obtain ⟨q, e1, _, _, hc, _⟩ := j.closeImpl hb hx
    simp only [step, hx, e1, Option.map_some, if_true, Option.some.injEq] at er
    subst er
    exact ⟨{ dropInput q.1 with file := some f }, by simp only [upd_same], hc⟩
  · obtain ⟨o, hy⟩ := hsome y hf.2
    simp only [step, hnone x hf.1, hy, if_true, Option.some.injEq] at er
    subst er
    exact ⟨_, by simp only [upd_same]; rfl, rfl⟩
  · obtain ⟨o, hx⟩ := hsome x hf.1
    obtain ⟨p, hy⟩ := hsome y hf.2
    obtain ⟨q, e1, _, _, hc, _⟩ := j.closeThrow hb hx
    simp only [step, hx, hy, e1, Option.map_some, if_true, Option.some.injEq] at er
    by_cases h : q.2.2 = .ok
    · simp only [h, if_true] at er
      subst er
      exact ⟨{ dropInput q.1 with file := p.file }, by simp only [upd_same], hc h⟩
    · simp only [h, if_false] at er
      subst er
      exact absurd hok h

end Verif.BufObj
