import Verif.DirIter.Lemmas3
/-!
# Directory iteration: the walk meets every file once; loops over one directory
-/
namespace Verif.DirIter

theorem find_head (l : Listing) : ∀ (p : List Name) (d : Bool), find p l = some d → ∃ n q, p = n :: q ∧ n ∈ l.names := by
  induction l with
  | done => intro p d h; simp [find] at h
  | file m t r ih =>
    intro p d h
    match p, h with
    | [], h => simp [find] at h
    | [n], h =>
      rw [find] at h
      split_ifs at h with hn
      · exact ⟨n, [], rfl, by simp [Listing.names, hn]⟩
      · obtain ⟨a, b, e, hm⟩ := ih _ _ h
        exact ⟨a, b, e, by simp [Listing.names, hm]⟩
    | n :: a :: q, h =>
      rw [find] at h
      · obtain ⟨a, b, e, hm⟩ := ih _ _ h
        exact ⟨a, b, e, by simp [Listing.names, hm]⟩
      · simp
  | dir m t s r ihs ih =>
    intro p d h
    match p, h with
    | [], h => simp [find] at h
    | [n], h =>
      rw [find] at h
      split_ifs at h with hn
      · exact ⟨n, [], rfl, by simp [Listing.names, hn]⟩
      · obtain ⟨a, b, e, hm⟩ := ih _ _ h
        exact ⟨a, b, e, by simp [Listing.names, hm]⟩
    | n :: a :: q, h =>
      rw [find] at h
      · split_ifs at h with hn
        · exact ⟨n, _, rfl, by simp [Listing.names, hn]⟩
        · obtain ⟨a, b, e, hm⟩ := ih _ _ h
          exact ⟨a, b, e, by simp [Listing.names, hm]⟩
      · simp
  | dot m t r ih =>
    intro p d h
    match p, h with
    | [], h => simp [find] at h
    | n :: q, h =>
      rw [find] at h
      · obtain ⟨a, b, e, hm⟩ := ih _ _ h
        exact ⟨a, b, e, by simp [Listing.names, hm]⟩
      all_goals simp

theorem find_nil (l : Listing) : find [] l = none := by
  cases l <;> simp [find]

theorem find_file (p : List Name) (m : Name) (t : Nat) (r : Listing) : find p (.file m t r) = if p = [m] then some false else find p r := by
  match p with
  | [] => simp [find, find_nil]
  | [n] => rw [find]; simp
  | n :: a :: q => rw [find] <;> simp

theorem find_dir (n : Name) (q : List Name) (m : Name) (t : Nat) (s r : Listing) :
    find (n :: q) (.dir m t s r) = if n = m then (if q = [] then some true else find q s) else find (n :: q) r := by
  match q with
  | [] => simp [find]
  | a :: q => rw [find] <;> simp

theorem find_dot (p : List Name) (m : Name) (t : Nat) (r : Listing) : find p (.dot m t r) = find p r := by
  match p with
  | [] => simp [find, find_nil]
  | n :: q => rw [find] <;> simp

/-- The files met are those that are there. -/
theorem mem_walk (l : Listing) : ∀ (pre : List Name) (v : Visit), l.Ok →
    (v ∈ walk (fun _ => false) pre l ↔ ∃ p, v.path = pre ++ p ∧ find p l = some v.isDir) := by
  induction l with
  | done => intro pre v _; simp [walk, find]
  | file m t r ih =>
    intro pre v hok
    obtain ⟨hn, _, _, _, hr⟩ := hok
    simp only [walk, Bool.false_eq_true, if_false, List.mem_cons, ih pre v hr, find_file]
    constructor
    · rintro (rfl | ⟨p, h1, h2⟩)
      · exact ⟨[m], rfl, by simp⟩
      · refine ⟨p, h1, ?_⟩
        obtain ⟨n, q, rfl, hm⟩ := find_head _ _ _ h2
        rw [if_neg (by rintro h; cases h; exact hn hm), h2]
    · rintro ⟨p, h1, h2⟩
      split_ifs at h2 with hp
      · left
        obtain ⟨vp, vd⟩ := v
        simp only [Option.some.injEq] at h2
        simp only at h1
        rw [h1, hp, ← h2]
      · exact Or.inr ⟨p, h1, h2⟩
  | dir m t s r ihs ih =>
    intro pre v hok
    obtain ⟨hn, _, _, _, hs, hr⟩ := hok
    simp only [walk, Bool.false_eq_true, if_false, List.mem_cons, List.mem_append, ih pre v hr, ihs (pre ++ [m]) v hs]
    constructor
    · rintro (rfl | ⟨p, h1, h2⟩ | ⟨p, h1, h2⟩)
      · exact ⟨[m], rfl, by rw [find_dir]; simp⟩
      · refine ⟨m :: p, by rw [h1]; simp, ?_⟩
        rw [find_dir, if_pos rfl, if_neg (by rintro rfl; rw [find_nil] at h2; cases h2), h2]
      · refine ⟨p, h1, ?_⟩
        obtain ⟨n, q, rfl, hm⟩ := find_head _ _ _ h2
        rw [find_dir, if_neg (by rintro rfl; exact hn hm), h2]
    · rintro ⟨p, h1, h2⟩
      cases p with
      | nil => rw [find_nil] at h2; cases h2
      | cons n q =>
        rw [find_dir] at h2
        split_ifs at h2 with hp hq
        · left
          obtain ⟨vp, vd⟩ := v
          simp only [Option.some.injEq] at h2
          simp only at h1
          rw [h1, hp, hq, ← h2]
        · right; left
          exact ⟨q, by rw [h1, hp]; simp, h2⟩
        · right; right
          exact ⟨_, h1, h2⟩
  | dot m t r ih =>
    intro pre v hok
    obtain ⟨_, _, hr⟩ := hok
    simp only [walk, ih pre v hr, find_dot]

/-- No file is met twice. -/
theorem nodup_walk (l : Listing) : ∀ (pre : List Name), l.Ok → ((walk (fun _ => false) pre l).map (·.path)).Nodup := by
  induction l with
  | done => intro pre _; simp [walk]
  | file m t r ih =>
    intro pre hok
    obtain ⟨hn, _, _, _, hr⟩ := hok
    simp only [walk, Bool.false_eq_true, if_false, List.map_cons, List.nodup_cons]
    refine ⟨?_, ih pre hr⟩
    intro h
    obtain ⟨v, hv, he⟩ := List.mem_map.mp h
    obtain ⟨p, h1, h2⟩ := (mem_walk r pre v hr).mp hv
    obtain ⟨n, q, rfl, hm⟩ := find_head _ _ _ h2
    rw [he] at h1
    have := List.append_cancel_left h1
    cases this
    exact hn hm
  | dir m t s r ihs ih =>
    intro pre hok
    obtain ⟨hn, _, _, _, hs, hr⟩ := hok
    simp only [walk, Bool.false_eq_true, if_false, List.map_cons, List.nodup_cons, List.map_append, List.nodup_append, List.mem_append]
    refine ⟨?_, ihs _ hs, ih pre hr, ?_⟩
    · rintro (h | h)
      · obtain ⟨v, hv, he⟩ := List.mem_map.mp h
        obtain ⟨p, h1, h2⟩ := (mem_walk s _ v hs).mp hv
        obtain ⟨n, q, rfl, hm⟩ := find_head _ _ _ h2
        rw [he] at h1
        simp at h1
      · obtain ⟨v, hv, he⟩ := List.mem_map.mp h
        obtain ⟨p, h1, h2⟩ := (mem_walk r _ v hr).mp hv
        obtain ⟨n, q, rfl, hm⟩ := find_head _ _ _ h2
        rw [he] at h1
        have := List.append_cancel_left h1
        cases this
        exact hn hm
    · intro a ha b hb hab
      obtain ⟨v, hv, he⟩ := List.mem_map.mp ha
      obtain ⟨p, h1, h2⟩ := (mem_walk s _ v hs).mp hv
      obtain ⟨v', hv', he'⟩ := List.mem_map.mp hb
      obtain ⟨p', h1', h2'⟩ := (mem_walk r _ v' hr).mp hv'
      obtain ⟨n, q, rfl, hm⟩ := find_head _ _ _ h2'
      rw [he] at h1
      rw [he', ← hab, h1, List.append_assoc] at h1'
      have := List.append_cancel_left h1'
      simp only [List.singleton_append, List.cons.injEq] at this
      exact hn (this.1 ▸ hm)
  | dot m t r ih =>
    intro pre hok
    obtain ⟨_, _, hr⟩ := hok
    simp only [walk]
    exact ih pre hr

/-- The rest of a loop over one directory. -/
theorem rest1_post : ∀ (n : Nat) (o : Ofd) (b : Buf) (as : List Answer), (b ++ o.ents.drop o.pos).length < n →
    ∃ sn e o' as', rest1 n o b as = some (sn, e, o', as') ∧ o'.ents = o.ents ∧ as' <:+ as ∧ sn <+: b ++ o.ents.drop o.pos ∧
      (e = .finished ∧ sn = b ++ o.ents.drop o.pos ∧ o'.ents.length ≤ o'.pos ∨ ∃ er, .error er ∈ as ∧ e = .threw er) := by
  intro n
  induction n with
  | zero => intro o b as h; omega
  | succ n ih =>
    intro o b as h
    rw [rest1]
    cases b with
    | cons x b =>
      simp only [readdir1]
      obtain ⟨sn, e, o', as', h1, h2, h3, h4, h5⟩ := ih o b as (by simp only [List.cons_append, List.length_cons] at h; omega)
      rw [h1]
      refine ⟨x :: sn, e, o', as', rfl, h2, h3, by simpa using h4, ?_⟩
      rcases h5 with ⟨a, b, c⟩ | h5
      · exact Or.inl ⟨a, by rw [b]; rfl, c⟩
      · exact Or.inr h5
    | nil =>
      have step : ∀ (k : Nat) (x : Name × Nat) (b : Buf) (as0 : List Answer), as0 <:+ as → (o.ents.drop o.pos).take (k + 1) = x :: b →
          ∃ sn e o' as', Option.map (fun r => (x :: r.1, r.2)) (rest1 n { o with pos := o.pos + (b.length + 1) } b as0) = some (sn, e, o', as') ∧
            o'.ents = o.ents ∧ as' <:+ as ∧ sn <+: [] ++ o.ents.drop o.pos ∧
            (e = .finished ∧ sn = [] ++ o.ents.drop o.pos ∧ o'.ents.length ≤ o'.pos ∨ ∃ er, .error er ∈ as ∧ e = .threw er) := by
        intro k x b as0 has hx
        have hl : b.length + 1 = min (k + 1) (o.ents.drop o.pos).length := by
          have := congrArg List.length hx
          rw [List.length_take] at this
          simp only [List.length_cons] at this
          omega
        have hd : (o.ents.drop o.pos) = (x :: b) ++ o.ents.drop (o.pos + (b.length + 1)) := by
          conv_lhs => rw [← List.take_append_drop (b.length + 1) (o.ents.drop o.pos)]
          rw [List.drop_drop]
          congr 1
          rw [← hx, hl]
          rcases Nat.le_total (k + 1) (o.ents.drop o.pos).length with hc | hc
          · rw [Nat.min_eq_left hc]
          · rw [Nat.min_eq_right hc, List.take_of_length_le hc, List.take_of_length_le (Nat.le_refl _)]
        obtain ⟨sn, e, o', as', h1, h2, h3, h4, h5⟩ := ih { o with pos := o.pos + (b.length + 1) } b as0 (by
          rw [hd] at h
          simp only [List.nil_append, List.cons_append, List.length_cons] at h
          show (b ++ o.ents.drop (o.pos + (b.length + 1))).length < n
          omega)
        rw [h1]
        simp only at h2 h4 h5
        refine ⟨x :: sn, e, o', as', rfl, h2, h3.trans has, ?_, ?_⟩
        · rw [hd]; simpa using h4
        · rcases h5 with ⟨a, b, c⟩ | ⟨er, h5, h6⟩
          · exact Or.inl ⟨a, by rw [hd, b]; rfl, c⟩
          · exact Or.inr ⟨er, has.subset h5, h6⟩
      rw [readdir1.eq_def]
      cases as with
      | nil =>
        simp only
        rcases hx : o.ents.drop o.pos with _ | ⟨x, b⟩
        · simp only
          refine ⟨[], .finished, o, [], rfl, rfl, by simp, by simp, Or.inl ⟨rfl, by simp, ?_⟩⟩
          simpa using hx
        · simp only
          rw [hx] at step
          exact step b.length x b [] (by simp) (by simp)
      | cons a as =>
        cases a with
        | error er => exact ⟨[], .threw er, o, as, rfl, rfl, by simp, by simp, Or.inr ⟨er, by simp, rfl⟩⟩
        | block k =>
          simp only
          rcases hx : (o.ents.drop o.pos).take (k + 1) with _ | ⟨x, b⟩
          · simp only
            have : o.ents.drop o.pos = [] := by
              rcases hd : o.ents.drop o.pos with _ | ⟨y, q⟩
              · rfl
              · rw [hd] at hx; simp at hx
            refine ⟨[], .finished, o, as, rfl, rfl, by simp, by simp, Or.inl ⟨rfl, by simp [this], ?_⟩⟩
            simpa using this
          · simp only
            exact step k x b as (by simp) hx

end Verif.DirIter
