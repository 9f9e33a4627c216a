import Verif.DirIter.Lemmas4
/-!
# C81: directory iteration

`recursive(at(dir))`: a loop, leaving directories by `pop` where the user likes, meets the files in the order of the specification, every
file once, and closes what it opens, also when calls of the system fail. What `at(*it)`, `drt(*it)` and `depth(it)` say about directories
is wrong, as is the treatment of entries without a reported type. `current(at(dir))`: a loop meets all entries, however the system delivers
them; two nested loops disturb each other.
-/
namespace Verif.DirIter

/-- The stream of a generator: at the top, open, over a directory; identities of open directories are not given out again. -/
structure Start (s : Stream) (w : World) : Prop where
  top : s.path = []
  ok : s.full.Ok
  isOpen : s.id ∈ w.opened
  fresh : ∀ i ∈ w.opened, i < w.next
  nodup : w.opened.Nodup

/-- The file `drt(*it)` refers to: the name, relative to the directory of `at(*it)`. -/
def Seen.drt (v : Seen) : List Name := v.at' ++ [v.name]

/-! ## Recursive iteration -/

theorem seenAt_fields (v : Visit) : (seenAt v).path = v.path ∧ (seenAt v).alive = true ∧ (seenAt v).name = v.path.getLast?.getD [] ∧
    (seenAt v).at' = (if v.isDir then v.path else v.path.dropLast) ∧
    (seenAt v).depth = (if v.isDir then v.path.length else v.path.length - 1) := ⟨rfl, rfl, rfl, rfl, rfl⟩

theorem loop_fields (leave : List Name → Bool) (s : Stream) (w : World) (h : Start s w) (hty : s.full.Typed) :
    ∃ N, ∀ n ≥ N, ∃ sn e w', loop (fun v => leave v.path) n s w = some (sn, e, w') ∧ w'.opened = w.opened ∧
      (∃ us, us <+: walk (fun v => leave v.path) [] s.full ∧ sn = us.map seenAt ∧ (e = .finished → us = walk (fun v => leave v.path) [] s.full)) ∧
      (w.faults = [] → e = .finished) :=
  ⟨size s.full + 3, fun n hn => loop_post (fun v => leave v.path) s w w.opened h.top h.ok hty rfl h.isOpen h.fresh h.nodup n hn⟩

/-- For every directory, whatever the user leaves: if no call of the system fails, a recursive loop meets exactly the files of the
specification, in that order, ends, shows of each its name, in memory that is there, and has closed all it opened. -/
theorem c81_walk (leave : List Name → Bool) (s : Stream) (w : World) (h : Start s w) (hty : s.full.Typed) (hf : w.faults = []) :
    ∃ N, ∀ n ≥ N, ∃ sn w', loop (fun v => leave v.path) n s w = some (sn, .finished, w') ∧
      sn.map (·.path) = (walk (fun v => leave v.path) [] s.full).map (·.path) ∧
      (∀ v ∈ sn, v.alive = true ∧ v.name = v.path.getLast?.getD []) ∧ w'.opened = w.opened := by
  obtain ⟨N, hN⟩ := loop_fields leave s w h hty
  refine ⟨N, fun n hn => ?_⟩
  obtain ⟨sn, e, w', h1, h2, ⟨us, _, rfl, h5⟩, h6⟩ := hN n hn
  obtain rfl := h6 hf
  obtain rfl := h5 rfl
  refine ⟨_, w', h1, by simp [seenAt_fields], ?_, h2⟩
  intro v hv
  obtain ⟨u, _, rfl⟩ := List.mem_map.mp hv
  exact ⟨rfl, rfl⟩

/-- Without `pop`, the files met are all the files below the directory, none twice. -/
theorem c81_once (l : Listing) (h : l.Ok) :
    ((walk (fun _ => false) [] l).map (·.path)).Nodup ∧ ∀ p d, (⟨p, d⟩ : Visit) ∈ walk (fun _ => false) [] l ↔ find p l = some d := by
  refine ⟨nodup_walk l [] h, fun p d => ?_⟩
  rw [mem_walk l [] _ h]
  simp

/-- Whatever calls of the system fail: what is met is a beginning of what there is to meet, all of it if the loop reaches its end, every name in
memory that is there; afterwards everything opened is closed. -/
theorem c81_failure (leave : List Name → Bool) (s : Stream) (w : World) (h : Start s w) (hty : s.full.Typed) :
    ∃ N, ∀ n ≥ N, ∃ sn e w', loop (fun v => leave v.path) n s w = some (sn, e, w') ∧
      sn.map (·.path) <+: (walk (fun v => leave v.path) [] s.full).map (·.path) ∧
      (e = .finished → sn.map (·.path) = (walk (fun v => leave v.path) [] s.full).map (·.path)) ∧
      (∀ v ∈ sn, v.alive = true ∧ v.name = v.path.getLast?.getD []) ∧ w'.opened = w.opened := by
  obtain ⟨N, hN⟩ := loop_fields leave s w h hty
  refine ⟨N, fun n hn => ?_⟩
  obtain ⟨sn, e, w', h1, h2, ⟨us, h3, rfl, h5⟩, _⟩ := hN n hn
  refine ⟨_, e, w', h1, ?_, ?_, ?_, h2⟩
  · have := h3.map (·.path)
    rw [List.map_map]
    exact this
  · intro he
    rw [h5 he]
    simp [seenAt_fields]
  · intro v hv
    obtain ⟨u, _, rfl⟩ := List.mem_map.mp hv
    exact ⟨rfl, rfl⟩

/-- Paths met are not empty, and below where the walk begins. -/
theorem walk_path (leave : Visit → Bool) (l : Listing) : ∀ (pre : List Name), ∀ v ∈ walk leave pre l, v.path ≠ [] := by
  induction l with
  | done => intro pre v hv; simp [walk] at hv
  | file m t r ih =>
    intro pre v hv
    rw [walk] at hv
    split_ifs at hv
    · simp only [List.mem_singleton] at hv; subst hv; simp
    · rcases List.mem_cons.mp hv with rfl | hv
      · simp
      · exact ih _ _ hv
  | dir m t s r ihs ih =>
    intro pre v hv
    rw [walk] at hv
    split_ifs at hv
    · rcases List.mem_cons.mp hv with rfl | hv
      · simp
      · exact ih _ _ hv
    · rcases List.mem_cons.mp hv with rfl | hv
      · simp
      · rcases List.mem_append.mp hv with hv | hv
        · exact ihs _ _ hv
        · exact ih _ _ hv
  | dot m t r ih =>
    intro pre v hv
    rw [walk] at hv
    exact ih _ _ hv

/-- What is met with `pop` is among what is met without. -/
theorem walk_sublist (leave : Visit → Bool) (l : Listing) : ∀ (pre : List Name), (walk leave pre l).Sublist (walk (fun _ => false) pre l) := by
  induction l with
  | done => intro pre; simp [walk]
  | file m t r ih =>
    intro pre
    simp only [walk, Bool.false_eq_true, if_false]
    split_ifs
    · exact List.Sublist.cons_cons _ (List.nil_sublist _)
    · exact List.Sublist.cons_cons _ (ih pre)
  | dir m t s r ihs ih =>
    intro pre
    simp only [walk, Bool.false_eq_true, if_false]
    split_ifs
    · exact List.Sublist.cons_cons _ ((ih pre).trans (List.sublist_append_right _ _))
    · exact List.Sublist.cons_cons _ ((ihs _).append (ih pre))
  | dot m t r ih => intro pre; simpa only [walk] using ih pre

theorem loop_at (leave : List Name → Bool) (s : Stream) (w : World) (h : Start s w) (hty : s.full.Typed) :
    ∃ N, ∀ n ≥ N, ∃ sn e w', loop (fun v => leave v.path) n s w = some (sn, e, w') ∧ ∀ v ∈ sn, ∃ q m d, v.path = q ++ [m] ∧ v.name = m ∧
      find v.path s.full = some d ∧ v.at' = (if d then v.path else q) ∧ v.depth = (if d then v.path.length else q.length) := by
  obtain ⟨N, hN⟩ := loop_fields leave s w h hty
  refine ⟨N, fun n hn => ?_⟩
  obtain ⟨sn, e, w', h1, _, ⟨us, h3, rfl, _⟩, _⟩ := hN n hn
  refine ⟨_, e, w', h1, fun v hv => ?_⟩
  obtain ⟨u, hu, rfl⟩ := List.mem_map.mp hv
  have hw := (walk_sublist _ _ _).subset (h3.subset hu)
  have hfind := (c81_once s.full h.ok).2 u.path u.isDir |>.mp hw
  have hne := walk_path _ _ _ _ hw
  obtain ⟨q, m, hq⟩ : ∃ q m, u.path = q ++ [m] := ⟨u.path.dropLast, u.path.getLast hne, (List.dropLast_append_getLast hne).symm⟩
  refine ⟨q, m, u.isDir, hq, by simp [seenAt, hq], hfind, ?_, ?_⟩ <;> rcases hb : u.isDir <;> simp [seenAt, hq, hb]

/-- Of the files met that are not directories, `at(*it)` is the directory the file is in, `drt(*it)` refers to the file, and `depth(it)` is
the number of directories between it and the top. Partial: not so for directories (`c81_at_violated`). -/
theorem c81_at_partial (leave : List Name → Bool) (s : Stream) (w : World) (h : Start s w) (hty : s.full.Typed) :
    ∃ N, ∀ n ≥ N, ∃ sn e w', loop (fun v => leave v.path) n s w = some (sn, e, w') ∧
      ∀ v ∈ sn, find v.path s.full = some false → v.at' = v.path.dropLast ∧ v.drt = v.path ∧ v.depth + 1 = v.path.length := by
  obtain ⟨N, hN⟩ := loop_at leave s w h hty
  refine ⟨N, fun n hn => ?_⟩
  obtain ⟨sn, e, w', h1, h2⟩ := hN n hn
  refine ⟨sn, e, w', h1, fun v hv hd => ?_⟩
  obtain ⟨q, m, d, h3, h4, h5, h6, h7⟩ := h2 v hv
  rw [hd] at h5
  obtain rfl := Option.some.inj h5
  simp only [Bool.false_eq_true, if_false] at h6 h7
  simp [Seen.drt, h3, h4, h6, h7]

/-- Of every directory met, `at(*it)` is not the directory it is in but the directory itself, which has just been entered, so that
`drt(*it)` refers to another file (one of the same name in it), and `depth(it)` is one more than that of other files beside it. -/
theorem c81_at_violated (leave : List Name → Bool) (s : Stream) (w : World) (h : Start s w) (hty : s.full.Typed) :
    ∃ N, ∀ n ≥ N, ∃ sn e w', loop (fun v => leave v.path) n s w = some (sn, e, w') ∧
      ∀ v ∈ sn, find v.path s.full = some true → v.at' = v.path ∧ v.drt ≠ v.path ∧ v.depth = v.path.length := by
  obtain ⟨N, hN⟩ := loop_at leave s w h hty
  refine ⟨N, fun n hn => ?_⟩
  obtain ⟨sn, e, w', h1, h2⟩ := hN n hn
  refine ⟨sn, e, w', h1, fun v hv hd => ?_⟩
  obtain ⟨q, m, d, h3, h4, h5, h6, h7⟩ := h2 v hv
  rw [hd] at h5
  obtain rfl := Option.some.inj h5
  simp only [if_true] at h6 h7
  refine ⟨h6, ?_, h7⟩
  rw [Seen.drt, h6]
  intro hc
  have := congrArg List.length hc
  simp at this

/-- "a", "d/b", "c", with "." and ".."; the types reported as given. -/
def sample (tdir tdot : Nat) : Listing :=
  .dot [46] tdot (.file [97] 8 (.dot [46, 46] tdot (.dir [100] tdir (.file [98] 8 .done) (.file [99] 8 .done))))

/-- The stream of a generator over a directory, in a process that has opened nothing else. -/
def top (l : Listing) : Stream := ⟨0, [], l, .done⟩

def world (fs : List (Option Nat)) : World := ⟨[0], 1, fs⟩

theorem sample_start (a b : Nat) (fs : List (Option Nat)) : Start (top (sample a b)) (world fs) :=
  ⟨rfl, by simp [top, sample, Listing.Ok, IsDot, Listing.names], by simp [top, world], by simp [world], by simp [world]⟩

example : (sample 4 4).Typed := by simp [sample, Listing.Typed]

/-- Everything is met; the directory comes with wrong `at`, and the depth of its contents. -/
example : (loop (fun _ => false) 30 (top (sample 4 4)) (world [])).map (fun r => (r.1, r.2.1, r.2.2.opened)) =
    some ([⟨[97], [], 0, true, [[97]]⟩, ⟨[100], [[100]], 1, true, [[100]]⟩, ⟨[98], [[100]], 1, true, [[100], [98]]⟩, ⟨[99], [], 0, true, [[99]]⟩],
      .finished, [0]) := by decide +kernel

/-- `pop` at the directory passes over its contents. -/
example : (loop (fun v => v.path == [[100]]) 30 (top (sample 4 4)) (world [])).map (fun r => r.1.map (·.path)) =
    some [[[97]], [[100]], [[99]]] := by decide +kernel

/-- An error inside the directory: an exception, and the directory is closed. -/
example : (loop (fun _ => false) 30 (top (sample 4 4)) (world [none, none, none, none, none, none, some 5])).map
    (fun r => (r.1.map (·.path), r.2.1, r.2.2.opened)) = some ([[[97]], [[100]]], .threw 5, [0]) := by decide +kernel

/-- Directories whose type the system does not report (as some file systems do not): "." and ".." are delivered, the contents of the directory
are not. -/
theorem c81_unknown_violated : ∃ s w, Start s w ∧ w.faults = [] ∧ ∃ sn w', loop (fun _ => false) 30 s w = some (sn, .finished, w') ∧
    sn.map (·.path) = [[[46]], [[97]], [[46, 46]], [[100]], [[99]]] ∧ find [[100], [98]] s.full = some false ∧ [[100], [98]] ∉ sn.map (·.path) := by
  refine ⟨top (sample 0 0), world [], sample_start 0 0 [], rfl, ?_⟩
  have h : ((loop (fun _ => false) 30 (top (sample 0 0)) (world [])).map fun r => (r.1.map (·.path), r.2.1)) =
      some ([[[46]], [[97]], [[46, 46]], [[100]], [[99]]], .finished) := by decide +kernel
  rw [Option.map_eq_some_iff] at h
  obtain ⟨⟨sn, e, w'⟩, h1, h2⟩ := h
  simp only [Prod.mk.injEq] at h2
  obtain ⟨h2, rfl⟩ := h2
  exact ⟨sn, w', h1, h2, by decide +kernel, by rw [h2]; decide⟩

/-- After an exception from `++` the iterator is not at the end, and its name is in memory already given back: here the directory "d" was left
and closed before the error, and the name shown is that of the file in it. -/
theorem c81_dangling_violated : ∃ s w, Start s w ∧ s.full.Typed ∧ ∃ it w' er, ((begin' 30 s w).bind fun r => (incr 30 r.2.1 r.2.2).bind fun r =>
    (incr 30 r.2.1 r.2.2).bind fun r => incr 30 r.2.1 r.2.2) = some (.threw er, it, w') ∧ it.atEnd = false ∧
    (it.see w').map (fun v => (v.name, v.alive)) = some ([98], false) := by
  refine ⟨top (sample 4 4), world [none, none, none, none, none, none, none, none, some 5], sample_start _ _ _, by simp [top, sample, Listing.Typed], ?_⟩
  have h : (((begin' 30 (top (sample 4 4)) (world [none, none, none, none, none, none, none, none, some 5])).bind fun r =>
      (incr 30 r.2.1 r.2.2).bind fun r => (incr 30 r.2.1 r.2.2).bind fun r => incr 30 r.2.1 r.2.2).map fun r =>
      (r.1, r.2.1.atEnd, (r.2.1.see r.2.2).map (fun v => (v.name, v.alive)))) = some (.threw 5, false, some ([98], false)) := by decide +kernel
  rw [Option.map_eq_some_iff] at h
  obtain ⟨⟨r, it, w'⟩, h1, h2⟩ := h
  simp only [Prod.mk.injEq] at h2
  obtain ⟨rfl, h2, h3⟩ := h2
  exact ⟨it, w', 5, h1, h2, h3⟩

/-- `pop` may read directories, and is `noexcept`: an error of the system terminates the program. -/
theorem c81_pop_violated : ∃ s w, Start s w ∧ s.full.Typed ∧ ∃ sn w', loop (fun v => v.path == [[100]]) 30 s w = some (sn, .terminated, w') := by
  refine ⟨top (sample 4 4), world [none, none, none, none, none, none, some 5], sample_start _ _ _, by simp [top, sample, Listing.Typed], ?_⟩
  have h : ((loop (fun v => v.path == [[100]]) 30 (top (sample 4 4)) (world [none, none, none, none, none, none, some 5])).map fun r => r.2.1) =
      some .terminated := by decide +kernel
  rw [Option.map_eq_some_iff] at h
  obtain ⟨⟨sn, e, w'⟩, h1, h2⟩ := h
  simp only at h2
  subst h2
  exact ⟨sn, w', h1⟩

/-! ## Iteration over one directory -/

/-- However the system divides what it delivers, and wherever the position was before: a loop shows all entries, in order, and ends. -/
theorem c81_list (o : Ofd) (as : List Answer) (has : ∀ a ∈ as, ∃ k, a = .block k) :
    ∃ N, ∀ n ≥ N, ∃ o' as', loop1 n o as = some (o.ents, .finished, o', as') ∧ o'.ents = o.ents := by
  refine ⟨o.ents.length + 1, fun n hn => ?_⟩
  obtain ⟨sn, e, o', as', h1, h2, _, _, h5⟩ := rest1_post n (rewind o).1 (rewind o).2 as (by simp only [rewind, List.nil_append, List.drop_zero]; omega)
  rcases h5 with ⟨rfl, rfl, _⟩ | ⟨er, h6, _⟩
  · exact ⟨o', as', h1, h2⟩
  · obtain ⟨k, hk⟩ := has _ h6
    cases hk

/-- With errors: a beginning of the entries; all of them, or an exception with the error of the system. -/
theorem c81_list_failure (o : Ofd) (as : List Answer) :
    ∃ N, ∀ n ≥ N, ∃ sn e o' as', loop1 n o as = some (sn, e, o', as') ∧ sn <+: o.ents ∧
      (e = .finished ∧ sn = o.ents ∨ ∃ er, .error er ∈ as ∧ e = .threw er) := by
  refine ⟨o.ents.length + 1, fun n hn => ?_⟩
  obtain ⟨sn, e, o', as', h1, h2, _, h4, h5⟩ := rest1_post n (rewind o).1 (rewind o).2 as (by simp only [rewind, List.nil_append, List.drop_zero]; omega)
  refine ⟨sn, e, o', as', h1, h4, ?_⟩
  rcases h5 with ⟨rfl, rfl, _⟩ | h5
  · exact Or.inl ⟨rfl, rfl⟩
  · exact Or.inr h5

/-- Two loops over the same open directory, one inside the other, share its position, though each has its own generator: for every
directory, when the system delivers `k+1` entries first, the inner loop shows all, the outer loop ends after those `k+1`. -/
theorem c81_nested_violated (o : Ofd) (k : Nat) (as : List Answer) (has : ∀ a ∈ as, ∃ k, a = .block k) (hne : o.ents ≠ []) :
    ∃ N, ∀ n ≥ N, nested n o (.block k :: as) = some (o.ents.take (k + 1), o.ents) := by
  refine ⟨o.ents.length + 2, fun n hn => ?_⟩
  rw [nested]
  simp only [rewind, readdir1, List.drop_zero]
  rcases hx : o.ents.take (k + 1) with _ | ⟨x, b⟩
  · rcases he : o.ents with _ | ⟨y, q⟩
    · exact absurd he hne
    · rw [he] at hx; simp at hx
  · simp only
    obtain ⟨sn, e, o', as', h1, h2, h3, _, h5⟩ := rest1_post n { o with pos := 0 } [] as (by simp only [List.nil_append, List.drop_zero]; omega)
    rcases h5 with ⟨rfl, rfl, h6⟩ | ⟨er, h6, _⟩
    · have hl : loop1 n { o with pos := 0 + (b.length + 1) } as = some (o.ents, .finished, o', as') := h1
      rw [hl]
      simp only [Option.bind_some]
      have hb : b.length ≤ o.ents.length := by
        have := congrArg List.length hx
        rw [List.length_take, List.length_cons] at this
        omega
      have hd : o'.ents.drop o'.pos = [] := by simpa using h6
      obtain ⟨sn2, e2, o2, as2, g1, _, _, _, g5⟩ := rest1_post n o' b as' (by rw [hd, List.append_nil]; omega)
      rcases g5 with ⟨rfl, rfl, _⟩ | ⟨er, g6, _⟩
      · rw [g1, hd]; simp
      · obtain ⟨k, hk⟩ := has _ (h3.subset g6)
        cases hk
    · obtain ⟨k, hk⟩ := has _ h6
      cases hk

/-- Three entries, delivered two at a time: the outer loop misses one. -/
example : nested 9 ⟨[([97], 8), ([98], 8), ([99], 8)], 2⟩ [.block 1] = some ([([97], 8), ([98], 8)], [([97], 8), ([98], 8), ([99], 8)]) := by
  decide +kernel

end Verif.DirIter
