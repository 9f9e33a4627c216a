import Verif.DirIter.Lemmas
/-!
# Directory iteration: one step
-/
namespace Verif.DirIter

/-- The outcome of opening a subdirectory. -/
theorem openSub_post (s : Stream) (n : Name) (sub : Listing) (hl : lookup n s.full = some sub) (w : World) :
    (∃ e w', openSub s n w = (.inl e, w') ∧ w'.opened = w.opened ∧ w.next ≤ w'.next ∧ w.faults ≠ []) ∨
    (∃ w', openSub s n w = (.inr ⟨w.next, s.path ++ [n], sub, sub⟩, w') ∧ w'.opened = w.next :: w.opened ∧ w'.next = w.next + 1 ∧
      (w.faults = [] → w'.faults = [])) := by
  obtain ⟨op, nx, fl⟩ := w
  match fl with
  | [] => right; exact ⟨⟨nx :: op, nx + 1, []⟩, by simp [openSub, World.ask, hl], rfl, rfl, by simp⟩
  | some e :: fs => left; exact ⟨e, ⟨op, nx, fs⟩, by simp [openSub, World.ask], rfl, Nat.le_refl _, by simp⟩
  | [none] => right; exact ⟨⟨nx :: op, nx + 1, []⟩, by simp [openSub, World.ask, hl], rfl, rfl, by simp⟩
  | none :: none :: fs => right; exact ⟨⟨nx :: op, nx + 1, fs⟩, by simp [openSub, World.ask, hl], rfl, rfl, by simp⟩
  | none :: some e :: fs =>
    left
    exact ⟨e, ⟨op, nx + 1, fs⟩, by simp [openSub, World.ask, hl, World.close], rfl, by simp, by simp⟩

theorem setLen_some (it : It) (e : Entry) (h : it.entry = some e) : it.setLen = { it with namlen := (cname e.dname).length } := by
  rw [It.setLen, h]

/-- What a step does: the iterator stays good; it arrives at the end with nothing left to meet, or at the next visit. -/
def Post (base : List Nat) (it : It) (w : World) (r : Res) (it' : It) (w' : World) : Prop :=
  it'.Good base w' ∧ (w.faults = [] → w'.faults = [] ∧ r = .ok) ∧
    (r = .ok → ((it'.atEnd = true ∧ it'.stack = [] ∧ ∀ leave, todo leave it = []) ∨
      ∃ v, it'.atEnd = false ∧ it'.see w' = some (seenAt v) ∧ todoSize it' < todoSize it ∧ lowerSize it' < todoSize it ∧
        ∀ leave, todo leave it = v :: (if leave v then lower leave it' else todo leave it')))

theorem Post.mono {base : List Nat} {it it1 : It} {w w1 : World} {r : Res} {it' : It} {w' : World} (h : Post base it1 w1 r it' w')
    (hf : w.faults = [] → w1.faults = []) (ht : ∀ leave, todo leave it = todo leave it1) (hs : todoSize it1 ≤ todoSize it) :
    Post base it w r it' w' := by
  obtain ⟨h1, h2, h3⟩ := h
  refine ⟨h1, fun h => h2 (hf h), fun hr => ?_⟩
  rcases h3 hr with ⟨a, b, c⟩ | ⟨v, a, b, c, c2, d⟩
  · exact Or.inl ⟨a, b, fun leave => by rw [ht]; exact c leave⟩
  · exact Or.inr ⟨v, a, b, by omega, by omega, fun leave => by rw [ht]; exact d leave⟩

theorem readdir_ask (s : Stream) (w : World) : (∃ e, w.ask.1 = some e ∧ readdir s w = (.error e, s, w.ask.2)) ∨
    (w.ask.1 = none ∧ readdir s w = match s.rest with
      | .done => (.eof, s, w.ask.2)
      | .file n t r => (.entry (s.mk' n t), { s with rest := r }, w.ask.2)
      | .dir n t _ r => (.entry (s.mk' n t), { s with rest := r }, w.ask.2)
      | .dot n t r => (.entry (s.mk' n t), { s with rest := r }, w.ask.2)) := by
  unfold readdir
  rcases w.ask with ⟨_ | e, w'⟩
  · right; exact ⟨rfl, rfl⟩
  · left; exact ⟨e, rfl, rfl⟩

theorem ask_nofault {w : World} (h : w.faults = []) : w.ask = (none, w) := by
  obtain ⟨o, n, f⟩ := w
  simp only at h
  subst h
  rfl

theorem seen_file {base : List Nat} {it : It} {w : World} (h : it.Good base w) (n : Name) (t : Nat) (h0 : 0 ∉ n) (s : Stream) (h1 : s.id = it.cur.id)
    (h2 : s.path = it.cur.path) :
    It.see { it with entry := some (s.mk' n t), namlen := (cname (n ++ [0])).length } w = some (seenAt ⟨it.cur.path ++ [n], false⟩) := by
  simp only [It.see, Option.map_some, Stream.mk', seenAt, Option.some.injEq, Seen.mk.injEq, cname_app n h0, It.cur]
  refine ⟨by simp, by simp, ?_, ?_, ?_⟩
  · have := h.cur_len
    simp only [It.cur] at this
    simp only [List.length_append, List.length_singleton, Bool.false_eq_true, if_false, Nat.add_sub_cancel]
    exact this.symm
  · have := h.cur_open
    simpa [h1, It.cur] using this
  · rw [h2]; rfl

theorem seen_dir (it : It) (w : World) (s sub : Stream) (n : Name) (t : Nat) (h0 : 0 ∉ n) (hl : s.path.length = it.stack.length)
    (hs : sub.path = s.path ++ [n]) (ho : s.id ∈ w.opened) :
    It.see ⟨it.dirp, some (s.mk' n t), (cname (n ++ [0])).length, sub :: it.stack⟩ w = some (seenAt ⟨s.path ++ [n], true⟩) := by
  simp only [It.see, Option.map_some, Stream.mk', seenAt, Option.some.injEq, Seen.mk.injEq, cname_app n h0, It.cur]
  refine ⟨by simp, by simp [hs], ?_, by simp [ho], by trivial⟩
  simp [hl]

theorem todoSize_push (it : It) (e : Option Entry) (l : Nat) (sub : Stream) :
    todoSize ⟨it.dirp, e, l, sub :: it.stack⟩ = size sub.rest + 1 + todoSize it := by
  simp [todoSize]; omega

theorem todo_push (leave : Visit → Bool) (it : It) (e : Option Entry) (l : Nat) (sub : Stream) :
    todo leave ⟨it.dirp, e, l, sub :: it.stack⟩ = walk leave sub.path sub.rest ++ todo leave it := by
  simp [todo]

/-- Every step is as it should be. -/
theorem incr_post (base : List Nat) : ∀ (n : Nat) (it : It) (w : World) (r : Res) (it' : It) (w' : World), it.Good base w →
    incr n it w = some (r, it', w') → Post base it w r it' w' := by
  intro n
  induction n with
  | zero => intro it w r it' w' _ h; simp [incr] at h
  | succ n ih =>
    intro it w r it' w' hg h
    have hga : it.Good base w.ask.2 := hg.world (ask_opened w).1 (Nat.le_of_eq (ask_opened w).2.symm)
    have hfa : w.faults = [] → w.ask.2.faults = [] := fun hf => by rw [ask_nofault hf]; exact hf
    rw [incr_succ] at h
    rcases readdir_ask it.cur w with ⟨e, ha, hr⟩ | ⟨ha, hr⟩
    · rw [hr] at h
      simp only [Option.some.injEq, Prod.mk.injEq] at h
      obtain ⟨rfl, rfl, rfl⟩ := h
      refine ⟨hga, fun hf => ?_, by simp⟩
      rw [ask_nofault hf] at ha; cases ha
    · rw [hr] at h
      have hc := hg.cur
      have hcok := hc.suffix.ok hc.ok
      have hcty := hc.suffix.typed hc.typed
      have hsfx := hc.suffix
      match hrest : it.cur.rest with
      | .done =>
        rw [hrest] at h
        simp only at h
        split_ifs at h with hs
        · simp only [Option.some.injEq, Prod.mk.injEq] at h
          obtain ⟨rfl, rfl, rfl⟩ := h
          refine ⟨hga.entry none it.namlen, fun hf => ⟨hfa hf, rfl⟩, fun _ => Or.inl ⟨by simp [It.atEnd, hs], hs, fun leave => ?_⟩⟩
          rw [todo_eq, hrest, lower, hs]
          rfl
        · refine (ih _ _ _ _ _ (hga.pop hs) h).mono hfa (fun leave => ?_) ?_
          · rw [todo_eq, hrest, lower]
            cases hst : it.stack with
            | nil => exact absurd hst hs
            | cons s ss => simp [walk]
          · rw [todoSize_eq it, lowerSize]
            cases hst : it.stack with
            | nil => exact absurd hst hs
            | cons s ss => simp
      | .file m t rs =>
        rw [hrest] at h hcok hcty hsfx
        simp only at h
        have hg' := hga.upd { it.cur with rest := rs } ⟨hc.ok, hc.typed, Suffix.file hsfx⟩ rfl rfl
        rw [afterRead, if_neg (by exact hcty.1), setLen_some _ (it.cur.mk' m t) rfl] at h
        simp only [Option.some.injEq, Prod.mk.injEq] at h
        obtain ⟨rfl, rfl, rfl⟩ := h
        refine ⟨hg'.entry _ _, fun hf => ⟨hfa hf, rfl⟩, fun _ => Or.inr ⟨⟨it.cur.path ++ [m], false⟩, by simp [It.atEnd], ?_, ?_, ?_, ?_⟩⟩
        · have := seen_file hg' m t hcok.2.1 it.cur (by rw [upd_cur]) (by rw [upd_cur])
          rw [upd_cur] at this
          exact this
        · show todoSize (it.upd { it.cur with rest := rs }) < todoSize it
          rw [todoSize_eq, todoSize_eq it, upd_cur, upd_lowerSize, hrest]
          simp only [size]; omega
        · show lowerSize (it.upd { it.cur with rest := rs }) < todoSize it
          rw [todoSize_eq it, upd_lowerSize]; omega
        · intro leave
          show todo leave it = _ :: (if leave _ then lower leave (it.upd { it.cur with rest := rs }) else todo leave (it.upd { it.cur with rest := rs }))
          rw [todo_eq leave it, todo_eq leave (it.upd _), upd_cur, upd_lower, hrest, walk]
          split_ifs <;> rfl
      | .dot m t rs =>
        rw [hrest] at h hcok hcty hsfx
        simp only at h
        have hg' := hga.upd { it.cur with rest := rs } ⟨hc.ok, hc.typed, Suffix.dot hsfx⟩ rfl rfl
        have hm0 : 0 ∉ m := by
          rcases hcok.2.1 with rfl | rfl <;> decide
        rw [afterRead, if_pos (by exact hcty.1), show (it.cur.mk' m t).dname = m ++ [0] from rfl, if_pos ((isDot_iff m hm0).mpr hcok.2.1)] at h
        refine (ih _ _ _ _ _ (hg'.entry (some (it.cur.mk' m t)) (it.upd { it.cur with rest := rs }).namlen) h).mono hfa (fun leave => ?_) ?_
        · show _ = todo leave (it.upd { it.cur with rest := rs })
          rw [todo_eq leave it, todo_eq leave (it.upd _), upd_cur, upd_lower, hrest, walk]
        · show todoSize (it.upd { it.cur with rest := rs }) ≤ _
          rw [todoSize_eq, todoSize_eq it, upd_cur, upd_lowerSize, hrest]
          simp only [size]; omega
      | .dir m t sub rs =>
        rw [hrest] at h hcok hcty hsfx
        simp only at h
        have hg' := hga.upd { it.cur with rest := rs } ⟨hc.ok, hc.typed, Suffix.dir hsfx⟩ rfl rfl
        have hlk : lookup m it.cur.full = some sub := by
          rw [hsfx.lookup_eq hc.ok (by simp [Listing.names]), lookup, if_pos rfl]
        have hcm : cname (m ++ [0]) = m := cname_app m hcok.2.1
        rw [afterRead, if_pos (by exact hcty.1), show (it.cur.mk' m t).dname = m ++ [0] from rfl,
          if_neg (fun hd => hcok.2.2.2.1 ((isDot_iff m hcok.2.1).mp hd))] at h
        have hcur : It.cur { it.upd { it.cur with rest := rs } with entry := some (it.cur.mk' m t) } = { it.cur with rest := rs } :=
          upd_cur it _
        rw [hcur] at h
        rcases openSub_post { it.cur with rest := rs } m sub hlk w.ask.2 with ⟨e, w1, ho, h1, h2, h3⟩ | ⟨w1, ho, h1, h2, h3⟩
        · rw [hcm, ho] at h
          simp only [Option.some.injEq, Prod.mk.injEq] at h
          obtain ⟨rfl, rfl, rfl⟩ := h
          exact ⟨(hg'.world h1 h2).entry _ _, fun hf => absurd (hfa hf) h3, by simp⟩
        · rw [hcm, ho] at h
          simp only [It.setLen, Option.some.injEq, Prod.mk.injEq] at h
          obtain ⟨rfl, rfl, rfl⟩ := h
          have hlen := hg'.cur_len
          rw [upd_cur] at hlen
          have hp := hg'.push w1 ⟨w.ask.2.next, it.cur.path ++ [m], sub, sub⟩ ⟨hcok.2.2.2.2.1, hcty.2.1, Suffix.refl _⟩ rfl
            (by simp only [List.length_append, List.length_singleton]; exact congrArg (· + 1) hlen) h1 h2
          have e2 : todoSize (it.upd ⟨it.cur.id, it.cur.path, it.cur.full, rs⟩) = size rs + 1 + lowerSize it := by
            rw [todoSize_eq, upd_cur, upd_lowerSize]
          have e3 := todoSize_eq it
          rw [hrest] at e3
          simp only [size] at e3
          refine ⟨hp.entry _ _, fun hf => ⟨h3 (hfa hf), by simp⟩, fun _ => Or.inr ⟨⟨it.cur.path ++ [m], true⟩, by simp [It.atEnd], ?_, ?_, ?_, ?_⟩⟩
          · exact seen_dir (it.upd { it.cur with rest := rs }) w1 it.cur ⟨w.ask.2.next, it.cur.path ++ [m], sub, sub⟩ m t hcok.2.1 hlen rfl
              (by rw [h1]; exact List.mem_cons_of_mem _ hga.cur_open)
          · refine Nat.lt_of_le_of_lt (Nat.le_of_eq (todoSize_push (it.upd ⟨it.cur.id, it.cur.path, it.cur.full, rs⟩) _ _ _)) ?_
            simp only
            omega
          · show todoSize (it.upd ⟨it.cur.id, it.cur.path, it.cur.full, rs⟩) < _
            omega
          · intro leave
            show todo leave it = _ :: (if leave _ then todo leave (it.upd { it.cur with rest := rs }) else
              todo leave ⟨(it.upd { it.cur with rest := rs }).dirp, _, _, ⟨w.ask.2.next, it.cur.path ++ [m], sub, sub⟩ :: (it.upd { it.cur with rest := rs }).stack⟩)
            rw [todo_push, todo_eq leave (it.upd { it.cur with rest := rs }), upd_cur, upd_lower, todo_eq leave it, hrest, walk]
            split_ifs with hl
            · rfl
            · simp only [List.cons_append, List.append_assoc]

end Verif.DirIter
