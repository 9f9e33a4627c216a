import Verif.DirIter.Lemmas2
/-!
# Directory iteration: whole loops
-/
namespace Verif.DirIter

theorem readdir_size (s : Stream) (w : World) (e : Entry) (s' : Stream) (w' : World) (h : readdir s w = (.entry e, s', w')) :
    size s'.rest < size s.rest := by
  rcases readdir_ask s w with ⟨e', _, hr⟩ | ⟨_, hr⟩
  · rw [hr] at h; cases h
  · rw [hr] at h
    split at h <;> cases h <;> simp only [*, size] <;> omega

theorem afterRead_none (e : Entry) (it : It) (w : World) (it' : It) (w' : World) (h : afterRead e it w = (it', w', none)) : it' = it := by
  unfold afterRead at h
  split_ifs at h
  · cases h; rfl
  · split at h <;> cases h
  · cases h

/-- `++` ends. -/
theorem incr_total : ∀ (n : Nat) (it : It) (w : World), todoSize it < n → ∃ r, incr n it w = some r := by
  intro n
  induction n with
  | zero => intro it w h; omega
  | succ n ih =>
    intro it w h
    rw [incr_succ]
    rcases hr : readdir it.cur w with ⟨g, s, w'⟩
    cases g with
    | error e => exact ⟨_, rfl⟩
    | eof =>
      simp only
      split_ifs with hs
      · exact ⟨_, rfl⟩
      · apply ih
        have := todoSize_eq it
        rw [lowerSize] at this
        cases hst : it.stack with
        | nil => exact absurd hst hs
        | cons s ss => simp only [hst] at this ⊢; simp only [List.tail_cons]; omega
    | entry e =>
      simp only
      rcases ha : afterRead e { it.upd s with entry := some e } w' with ⟨it2, w2, _ | r⟩
      · have hi := afterRead_none _ _ _ _ _ ha
        subst hi
        apply ih
        show todoSize (it.upd s) < n
        have h1 := todoSize_eq (it.upd s)
        rw [upd_cur, upd_lowerSize] at h1
        have h2 := todoSize_eq it
        have h3 := readdir_size _ _ _ _ _ hr
        omega
      · exact ⟨_, rfl⟩

theorem lowerSize_le (it : It) : lowerSize it < todoSize it := by
  have := todoSize_eq it; omega

/-- What is still to be met at an iterator, the present file included. -/
def ahead (leave : Visit → Bool) (it : It) (w : World) (vs : List Visit) : Prop :=
  (it.atEnd = true ∧ it.stack = [] ∧ vs = []) ∨
    (∃ v, it.atEnd = false ∧ it.see w = some (seenAt v) ∧ vs = v :: (if leave v then lower leave it else todo leave it))

/-- The decision of the user, on what is seen. -/
def onSeen (L : Seen → Bool) : Visit → Bool := fun v => L (seenAt v)

theorem pop_lower (leave : Visit → Bool) (it : It) (hs : it.stack ≠ []) : lower leave it = todo leave { it with stack := it.stack.tail } ∧
    lowerSize it = todoSize { it with stack := it.stack.tail } := by
  obtain ⟨d, e, l, st⟩ := it
  cases st with
  | nil => exact absurd rfl hs
  | cons s ss => exact ⟨rfl, rfl⟩

/-- A loop sees what there is to see, in order; all of it, unless a call of the system fails. -/
theorem drive_post (base : List Nat) (L : Seen → Bool) : ∀ (n : Nat) (it : It) (w : World) (vs : List Visit) (sn : List Seen) (e : End) (it' : It)
    (w' : World), it.Good base w → ahead (onSeen L) it w vs → drive L n it w = some (sn, e, it', w') →
    it'.Good base w' ∧ (∃ us, us <+: vs ∧ sn = us.map seenAt ∧ (e = .finished → us = vs)) ∧ (w.faults = [] → e = .finished) := by
  intro n
  induction n with
  | zero => intro it w vs sn e it' w' _ _ h; simp [drive] at h
  | succ n ih =>
    intro it w vs sn e it' w' hg ha h
    rw [drive] at h
    rcases ha with ⟨h1, h2, rfl⟩ | ⟨v, h1, h2, rfl⟩
    · rw [if_pos h1] at h
      simp only [Option.some.injEq, Prod.mk.injEq] at h
      obtain ⟨rfl, rfl, rfl, rfl⟩ := h
      exact ⟨hg, ⟨[], List.prefix_refl _, rfl, fun _ => rfl⟩, fun _ => rfl⟩
    · rw [if_neg (by rw [h1]; simp), h2] at h
      simp only at h
      by_cases hl : L (seenAt v) = true
      · rw [if_pos hl] at h
        have hl' : onSeen L v = true := hl
        rw [if_pos hl']
        cases hst : it.stack with
        | nil =>
          rw [pop, hst] at h
          simp only [Option.map_eq_some_iff] at h
          obtain ⟨⟨sn1, e1, it1, w1⟩, hd, h⟩ := h
          simp only [Prod.mk.injEq] at h
          obtain ⟨rfl, rfl, rfl, rfl⟩ := h
          have hlow : lower (onSeen L) it = [] := by rw [lower, hst]
          rw [hlow]
          have hgn : It.Good base ⟨it.dirp, none, 0, []⟩ w := by
            have := hg.entry none 0
            rw [hst] at this
            exact this
          obtain ⟨g1, ⟨us, g2, g3, g4⟩, g5⟩ := ih _ _ [] _ _ _ _ hgn (Or.inl ⟨rfl, rfl, rfl⟩) hd
          exact ⟨g1, ⟨v :: us, List.cons_prefix_cons.mpr ⟨rfl, g2⟩, by simp [g3], fun he => by rw [g4 he]⟩, g5⟩
        | cons s ss =>
          have hne : it.stack ≠ [] := by rw [hst]; simp
          have hgp := hg.pop hne
          have hcur : it.cur = s := by simp [It.cur, hst]
          rw [hst, List.tail_cons, hcur] at hgp
          obtain ⟨e1, e2⟩ := pop_lower (onSeen L) it hne
          rw [hst, List.tail_cons] at e1
          rw [pop, hst] at h
          simp only at h
          rcases hi : incr n { it with stack := ss } (w.close s.id) with _ | ⟨r, it1, w1⟩
          · rw [hi] at h; simp at h
          · rw [hi] at h
            have hpost := incr_post base n _ _ _ _ _ hgp hi
            obtain ⟨p1, p2, p3⟩ := hpost
            cases r with
            | threw er =>
              simp only [Option.some.injEq, Prod.mk.injEq] at h
              obtain ⟨rfl, rfl, rfl, rfl⟩ := h
              refine ⟨hg, ⟨[v], by simp, rfl, by simp⟩, fun hf => ?_⟩
              have := (p2 hf).2
              cases this
            | ok =>
              simp only [Option.map_eq_some_iff] at h
              obtain ⟨⟨sn1, e1', it2, w2⟩, hd, h⟩ := h
              simp only [Prod.mk.injEq] at h
              obtain ⟨rfl, rfl, rfl, rfl⟩ := h
              have hah : ahead (onSeen L) it1 w1 (lower (onSeen L) it) := by
                rw [e1]
                rcases p3 rfl with ⟨a, b, c⟩ | ⟨v', a, b, _, _, d⟩
                · exact Or.inl ⟨a, b, c _⟩
                · exact Or.inr ⟨v', a, b, d _⟩
              obtain ⟨g1, ⟨us, g2, g3, g4⟩, g5⟩ := ih _ _ _ _ _ _ _ p1 hah hd
              exact ⟨g1, ⟨v :: us, List.cons_prefix_cons.mpr ⟨rfl, g2⟩, by simp [g3], fun he => by rw [g4 he]⟩, fun hf => g5 (p2 hf).1⟩
      · rw [if_neg hl] at h
        have hl' : ¬ onSeen L v = true := hl
        rw [if_neg hl']
        rcases hi : incr n it w with _ | ⟨r, it1, w1⟩
        · rw [hi] at h; simp at h
        · rw [hi] at h
          obtain ⟨p1, p2, p3⟩ := incr_post base n _ _ _ _ _ hg hi
          cases r with
          | threw er =>
            simp only [Option.some.injEq, Prod.mk.injEq] at h
            obtain ⟨rfl, rfl, rfl, rfl⟩ := h
            refine ⟨p1, ⟨[v], by simp, rfl, by simp⟩, fun hf => ?_⟩
            have := (p2 hf).2
            cases this
          | ok =>
            simp only [Option.map_eq_some_iff] at h
            obtain ⟨⟨sn1, e1', it2, w2⟩, hd, h⟩ := h
            simp only [Prod.mk.injEq] at h
            obtain ⟨rfl, rfl, rfl, rfl⟩ := h
            have hah : ahead (onSeen L) it1 w1 (todo (onSeen L) it) := by
              rcases p3 rfl with ⟨a, b, c⟩ | ⟨v', a, b, _, _, d⟩
              · exact Or.inl ⟨a, b, c _⟩
              · exact Or.inr ⟨v', a, b, d _⟩
            obtain ⟨g1, ⟨us, g2, g3, g4⟩, g5⟩ := ih _ _ _ _ _ _ _ p1 hah hd
            exact ⟨g1, ⟨v :: us, List.cons_prefix_cons.mpr ⟨rfl, g2⟩, by simp [g3], fun he => by rw [g4 he]⟩, fun hf => g5 (p2 hf).1⟩

/-- Loops end. -/
theorem drive_total (base : List Nat) (L : Seen → Bool) : ∀ (n : Nat) (it : It) (w : World) (vs : List Visit), it.Good base w →
    ahead (onSeen L) it w vs → todoSize it + 1 < n → ∃ r, drive L n it w = some r := by
  intro n
  induction n with
  | zero => intro it w vs _ _ h; omega
  | succ n ih =>
    intro it w vs hg ha hn
    rw [drive]
    rcases ha with ⟨h1, h2, rfl⟩ | ⟨v, h1, h2, rfl⟩
    · rw [if_pos h1]; exact ⟨_, rfl⟩
    · rw [if_neg (by rw [h1]; simp), h2]
      simp only
      by_cases hl : L (seenAt v) = true
      · rw [if_pos hl]
        cases hst : it.stack with
        | nil =>
          rw [pop, hst]
          simp only
          obtain ⟨m, rfl⟩ : ∃ m, n = m + 1 := ⟨n - 1, by omega⟩
          rw [drive, if_pos (by simp [It.atEnd, hst])]
          exact ⟨_, rfl⟩
        | cons s ss =>
          have hne : it.stack ≠ [] := by rw [hst]; simp
          have hgp := hg.pop hne
          have hcur : it.cur = s := by simp [It.cur, hst]
          rw [hst, List.tail_cons, hcur] at hgp
          obtain ⟨e1, e2⟩ := pop_lower (onSeen L) it hne
          rw [hst, List.tail_cons] at e1 e2
          have hlt := lowerSize_le it
          rw [pop, hst]
          simp only
          obtain ⟨⟨r, it1, w1⟩, hi⟩ := incr_total n { it with stack := ss } (w.close s.id) (by omega)
          rw [hi]
          obtain ⟨p1, p2, p3⟩ := incr_post base n _ _ _ _ _ hgp hi
          cases r with
          | threw er => exact ⟨_, rfl⟩
          | ok =>
            simp only
            have hah : ahead (onSeen L) it1 w1 (todo (onSeen L) { it with stack := ss }) := by
              rcases p3 rfl with ⟨a, b, c⟩ | ⟨v', a, b, _, _, d⟩
              · exact Or.inl ⟨a, b, c _⟩
              · exact Or.inr ⟨v', a, b, d _⟩
            rcases p3 rfl with ⟨a, b, c⟩ | ⟨v', a, b, c1, c2, d⟩
            · obtain ⟨m, rfl⟩ : ∃ m, n = m + 1 := ⟨n - 1, by omega⟩
              rw [drive, if_pos a]
              exact ⟨_, rfl⟩
            · obtain ⟨r, hr⟩ := ih it1 w1 _ p1 hah (by omega)
              rw [hr]; exact ⟨_, rfl⟩
      · rw [if_neg hl]
        obtain ⟨⟨r, it1, w1⟩, hi⟩ := incr_total n it w (by omega)
        rw [hi]
        obtain ⟨p1, p2, p3⟩ := incr_post base n _ _ _ _ _ hg hi
        cases r with
        | threw er => exact ⟨_, rfl⟩
        | ok =>
          simp only
          have hah : ahead (onSeen L) it1 w1 (todo (onSeen L) it) := by
            rcases p3 rfl with ⟨a, b, c⟩ | ⟨v', a, b, _, _, d⟩
            · exact Or.inl ⟨a, b, c _⟩
            · exact Or.inr ⟨v', a, b, d _⟩
          rcases p3 rfl with ⟨a, b, c⟩ | ⟨v', a, b, c1, c2, d⟩
          · obtain ⟨m, rfl⟩ : ∃ m, n = m + 1 := ⟨n - 1, by omega⟩
            rw [drive, if_pos a]
            exact ⟨_, rfl⟩
          · obtain ⟨r, hr⟩ := ih it1 w1 _ p1 hah (by omega)
            rw [hr]; exact ⟨_, rfl⟩

/-- The destructor closes what the iterator opened. -/
theorem destroy_opened (base : List Nat) (it : It) (w : World) (h : w.opened = it.stack.map (·.id) ++ base) : (destroy it w).opened = base := by
  obtain ⟨d, e, l, st⟩ := it
  induction st generalizing w with
  | nil => simpa [destroy] using h
  | cons s ss ih =>
    simp only [destroy, List.foldl_cons]
    apply ih
    simp only [List.map_cons, List.cons_append] at h
    simp [World.close, h]

/-- The whole loop. -/
theorem loop_post (L : Seen → Bool) (s : Stream) (w : World) (base : List Nat) (hp : s.path = []) (hok : s.full.Ok) (hty : s.full.Typed)
    (ho : w.opened = base) (hs : s.id ∈ base) (hf : ∀ i ∈ base, i < w.next) (hn : base.Nodup) (n : Nat) (hsize : size s.full + 3 ≤ n) :
    ∃ sn e w', loop L n s w = some (sn, e, w') ∧ w'.opened = base ∧
      (∃ us, us <+: walk (onSeen L) [] s.full ∧ sn = us.map seenAt ∧ (e = .finished → us = walk (onSeen L) [] s.full)) ∧
      (w.faults = [] → e = .finished) := by
  have hg : It.Good base ⟨{ s with rest := s.full }, none, 0, []⟩ w :=
    ⟨⟨hok, hty, Suffix.refl _⟩, by simp, hp, by simp, by simpa using ho, hs, by rw [ho]; exact hf, by rw [ho]; exact hn⟩
  have hsz : todoSize ⟨{ s with rest := s.full }, none, 0, []⟩ = size s.full + 1 := by simp [todoSize]
  have htd : ∀ leave, todo leave ⟨{ s with rest := s.full }, none, 0, []⟩ = walk leave [] s.full := by
    intro leave; simp [todo, hp]
  obtain ⟨⟨r, it, w1⟩, hi⟩ := incr_total n ⟨{ s with rest := s.full }, none, 0, []⟩ w (by omega)
  obtain ⟨p1, p2, p3⟩ := incr_post base n _ _ _ _ _ hg hi
  rw [loop, begin', hi]
  cases r with
  | threw e =>
    refine ⟨[], .threw e, destroy it w1, rfl, destroy_opened base it w1 p1.opened, ⟨[], by simp, rfl, by simp⟩, fun hf => ?_⟩
    have := (p2 hf).2
    cases this
  | ok =>
    simp only
    have hah : ahead (onSeen L) it w1 (walk (onSeen L) [] s.full) := by
      rcases p3 rfl with ⟨a, b, c⟩ | ⟨v', a, b, _, _, d⟩
      · exact Or.inl ⟨a, b, by rw [← htd]; exact c _⟩
      · exact Or.inr ⟨v', a, b, by rw [← htd]; exact d _⟩
    obtain ⟨⟨sn, e, it2, w2⟩, hd⟩ : ∃ r, drive L n it w1 = some r := by
      rcases p3 rfl with ⟨a, b, c⟩ | ⟨v', a, b, c1, _, d⟩
      · obtain ⟨m, rfl⟩ : ∃ m, n = m + 1 := ⟨n - 1, by omega⟩
        rw [drive, if_pos a]; exact ⟨_, rfl⟩
      · exact drive_total base L n it w1 _ p1 hah (by omega)
    obtain ⟨g1, g2, g3⟩ := drive_post base L n it w1 _ _ _ _ _ p1 hah hd
    rw [hd]
    exact ⟨sn, e, destroy it2 w2, rfl, destroy_opened base it2 w2 g1.opened, g2, fun hf => g3 (p2 hf).1⟩

end Verif.DirIter
