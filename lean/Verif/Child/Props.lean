import Verif.Child.Lemmas2
/-!
# C86: child processes

A program that is started gets the streams it was asked to get, nothing else of the parent's changes, and a stream to a child ends when the
parent closes it.
-/
namespace Verif.Child

theorem wanted_of {T : Table} {P : Pipes} {io : Nat → Want} {i n : Nat} (h : io i ≠ .devNull) (hn : source P io i = some n) :
    wanted T P io i = fileAt T n := by
  unfold wanted
  split
  · exact absurd ‹_› h
  · rw [hn]; rfl

/-- Streams 0, 1 and 2 of the child refer to what was asked for. Missing: requests that are not `Simple`, for which it is false, see below. -/
theorem c86_streams_partial (s : St) (io : Nat → Want) (hp : Possible s.tab s.pipes io) (hs : Simple s.tab s.pipes io) :
    ∃ t, (start s io).2 = some t ∧ ∀ i < 3, fileAt t i = wanted s.tab s.pipes io i := by
  obtain ⟨t, h, h1, -⟩ := child_spec hp hs
  exact ⟨t, h, h1⟩

/-- Of the other descriptors of the parent the child has those that are not to be closed, except the ends of its pipes that are for the
parent; nothing else. -/
theorem c86_rest_partial (s : St) (io : Nat → Want) (hp : Possible s.tab s.pipes io) (hs : Simple s.tab s.pipes io) :
    ∃ t, (start s io).2 = some t ∧ ∀ j, 3 ≤ j →
      ((OtherEnd s.pipes io j ∨ ∃ e, at? s.tab j = some e ∧ e.cloexec = true) → at? t j = none) ∧
      (¬ OtherEnd s.pipes io j → (∀ e, at? s.tab j = some e → e.cloexec = false) → at? t j = at? s.tab j) := by
  obtain ⟨t, h, -, h1⟩ := child_spec hp hs
  exact ⟨t, h, h1⟩

/-- In the parent exactly the ends of the pipes that the child uses are closed, and the pipe objects know it. For every request. -/
theorem c86_parent (s : St) (io : Nat → Want) :
    (∀ j, OwnEnd s.pipes io j → at? (start s io).1.tab j = none) ∧
    (∀ j, ¬ OwnEnd s.pipes io j → at? (start s io).1.tab j = at? s.tab j) ∧
    (∀ q c, (∃ i < 3, io i = .pipe q ∧ c = mine i) → (start s io).1.pipes q c = none) ∧
    ∀ q c, (¬ ∃ i < 3, io i = .pipe q ∧ c = mine i) → (start s io).1.pipes q c = s.pipes q c := by
  obtain ⟨h1, h2⟩ := start_parent s io
  refine ⟨fun j => (h1 j).1, fun j => (h1 j).2, fun q c h => ?_, fun q c h => ?_⟩
  · rw [h2, if_pos h]
  · rw [h2, if_neg h]

/-- A pipe that the child reads as stream 0 and that only the parent can write has no writer in the child: when the parent closes its end,
the child sees the end. Missing: children started meanwhile, for which it is false, see `c86_end_violated`. -/
theorem c86_end_partial (s : St) (io : Nat → Want) (hp : Possible s.tab s.pipes io) (hs : Simple s.tab s.pipes io) (p w : Nat)
    (h0 : io 0 = .pipe p) (hw : s.pipes p true = some w) (only : ∀ j, fileAt s.tab j = some (.wr p) → j = w) :
    (∃ t, (start s io).2 = some t ∧ ∀ j, fileAt t j ≠ some (.wr p)) ∧
    ∀ j, fileAt (closeEnd (start s io).1 p true).tab j ≠ some (.wr p) := by
  have how : OtherEnd s.pipes io w := ⟨0, by decide, p, h0, hw⟩
  constructor
  · obtain ⟨t, h, h1, h2⟩ := child_spec hp hs
    refine ⟨t, h, fun j => ?_⟩
    by_cases hj : j < 3
    · rw [h1 j hj]
      unfold wanted
      split
      · simp
      · intro hx
        cases hn : source s.pipes io j with
        | none => rw [hn] at hx; cases hx
        | some n =>
          rw [hn] at hx
          have : n = w := only n hx
          subst this
          exact hs.apart n how j hj hn
    · intro hx
      by_cases ho : OtherEnd s.pipes io j ∨ ∃ e, at? s.tab j = some e ∧ e.cloexec = true
      · rw [fileAt, (h2 j (by omega)).1 ho] at hx; cases hx
      · have ho1 : ¬ OtherEnd s.pipes io j := fun h => ho (.inl h)
        have ho2 : ∀ e, at? s.tab j = some e → e.cloexec = false := fun e he => by
          cases hc : e.cloexec
          · rfl
          · exact absurd (.inr ⟨e, he, hc⟩) ho
        rw [fileAt, (h2 j (by omega)).2 ho1 ho2] at hx
        exact ho1 (only j hx ▸ how)
  · intro j hx
    obtain ⟨p1, p2, p3, p4⟩ := c86_parent s io
    have sub : ∀ j, fileAt (start s io).1.tab j = some (.wr p) → j = w := by
      intro j hj
      by_cases hoj : OwnEnd s.pipes io j
      · rw [fileAt, p1 j hoj] at hj; cases hj
      · rw [fileAt, p2 j hoj] at hj; exact only j hj
    unfold closeEnd at hx
    have hkeep : (start s io).1.pipes p true = some w := by
      rw [p4, hw]
      rintro ⟨i, hi, hi1, hi2⟩
      exact hs.apart w how i hi (by simp [source, hi1, ← hi2, hw])
    rw [hkeep] at hx
    simp only [fileAt, sysClose, at_put] at hx
    by_cases hjw : j = w
    · simp [hjw] at hx
    · rw [if_neg hjw] at hx
      exact hjw (sub j hx)

/-- A new pipe takes two free descriptors and changes nothing else. -/
theorem c86_pipe (s : St) (p : Nat) : ∃ r w, r ≠ w ∧ at? s.tab r = none ∧ at? s.tab w = none ∧
    (mkPipe s p).pipes p false = some r ∧ (mkPipe s p).pipes p true = some w ∧
    fileAt (mkPipe s p).tab r = some (.rd p) ∧ fileAt (mkPipe s p).tab w = some (.wr p) ∧
    (∀ j, j ≠ r → j ≠ w → at? (mkPipe s p).tab j = at? s.tab j) ∧ ∀ q, q ≠ p → (mkPipe s p).pipes q = s.pipes q := by
  have hr := at_low s.tab
  have hne : lowFree (put s.tab (lowFree s.tab) (some ⟨.rd p, false⟩)) ≠ lowFree s.tab := low_ne _ _ (by simp [at_put])
  have hw := at_low (put s.tab (lowFree s.tab) (some ⟨.rd p, false⟩))
  rw [at_put, if_neg hne] at hw
  refine ⟨lowFree s.tab, lowFree (put s.tab (lowFree s.tab) (some ⟨.rd p, false⟩)), fun h => hne h.symm, hr, hw, ?_, ?_, ?_, ?_, ?_, ?_⟩
  · simp [mkPipe]
  · simp [mkPipe]
  · simp [mkPipe, fileAt, at_put, hne.symm]
  · simp [mkPipe, fileAt, at_put]
  · intro j h1 h2
    simp [mkPipe, at_put, h1, h2]
  · intro q hq
    funext b
    simp [mkPipe, hq]

/-- The streams of a request. -/
def ask (a b c : Want) : Nat → Want
  | 0 => a
  | 1 => b
  | _ => c

/-- The usual case, without hypotheses about the request: a program whose parent has the standard descriptors makes three new pipes and starts
a child with them. The child reads from the first and writes to the second and third, and has no other end of them. -/
theorem c86_three_pipes (s : St) (std : ∀ i < 3, at? s.tab i ≠ none)
    (new : ∀ j, fileAt s.tab j ≠ some (.wr 0) ∧ fileAt s.tab j ≠ some (.rd 1) ∧ fileAt s.tab j ≠ some (.rd 2)) :
    ∃ t, (start (mkPipe (mkPipe (mkPipe s 0) 1) 2) (ask (.pipe 0) (.pipe 1) (.pipe 2))).2 = some t ∧
      fileAt t 0 = some (.rd 0) ∧ fileAt t 1 = some (.wr 1) ∧ fileAt t 2 = some (.wr 2) ∧
      ∀ j, fileAt t j ≠ some (.wr 0) ∧ fileAt t j ≠ some (.rd 1) ∧ fileAt t j ≠ some (.rd 2) := by
  obtain ⟨r0, w0, n0, fr0, fw0, pr0, pw0, ar0, aw0, u0, v0⟩ := c86_pipe s 0
  set s0 := mkPipe s 0
  obtain ⟨r1, w1, n1, fr1, fw1, pr1, pw1, ar1, aw1, u1, v1⟩ := c86_pipe s0 1
  set s1 := mkPipe s0 1
  obtain ⟨r2, w2, n2, fr2, fw2, pr2, pw2, ar2, aw2, u2, v2⟩ := c86_pipe s1 2
  set s2 := mkPipe s1 2
  have ne_of : ∀ {t : Table} {a b : Nat} {f : File}, at? t a = none → fileAt t b = some f → a ≠ b := by
    intro t a b f h1 h2 h
    subst h
    rw [fileAt, h1] at h2
    cases h2
  have d01 := ne_of fr1 ar0
  have d02 := ne_of fr1 aw0
  have d03 := ne_of fw1 ar0
  have d04 := ne_of fw1 aw0
  have ar0' : fileAt s1.tab r0 = some (.rd 0) := by rw [fileAt, u1 r0 d01.symm d03.symm]; exact ar0
  have aw0' : fileAt s1.tab w0 = some (.wr 0) := by rw [fileAt, u1 w0 d02.symm d04.symm]; exact aw0
  have e01 := ne_of fr2 ar0'
  have e02 := ne_of fr2 aw0'
  have e03 := ne_of fw2 ar0'
  have e04 := ne_of fw2 aw0'
  have e11 := ne_of fr2 ar1
  have e12 := ne_of fr2 aw1
  have e13 := ne_of fw2 ar1
  have e14 := ne_of fw2 aw1
  have std0 : ∀ i < 3, i ≠ r0 ∧ i ≠ w0 := fun i hi => ⟨fun h => std i hi (h ▸ fr0), fun h => std i hi (h ▸ fw0)⟩
  have std1 : ∀ i < 3, at? s0.tab i ≠ none := fun i hi => by rw [u0 i (std0 i hi).1 (std0 i hi).2]; exact std i hi
  have std1' : ∀ i < 3, i ≠ r1 ∧ i ≠ w1 := fun i hi => ⟨fun h => std1 i hi (h ▸ fr1), fun h => std1 i hi (h ▸ fw1)⟩
  have std2 : ∀ i < 3, at? s1.tab i ≠ none := fun i hi => by rw [u1 i (std1' i hi).1 (std1' i hi).2]; exact std1 i hi
  have std2' : ∀ i < 3, i ≠ r2 ∧ i ≠ w2 := fun i hi => ⟨fun h => std2 i hi (h ▸ fr2), fun h => std2 i hi (h ▸ fw2)⟩
  have ge : ∀ j, (∀ i < 3, i ≠ j) → 3 ≤ j := fun j h => by
    by_contra hc
    exact h j (by omega) rfl
  have q0 : s2.pipes 0 = s0.pipes 0 := by rw [v2 0 (by decide), v1 0 (by decide)]
  have q1 : s2.pipes 1 = s1.pipes 1 := v2 1 (by decide)
  have f0 : fileAt s2.tab r0 = some (.rd 0) := by rw [fileAt, u2 r0 e01.symm e03.symm]; exact ar0'
  have f1 : fileAt s2.tab w1 = some (.wr 1) := by rw [fileAt, u2 w1 e12.symm e14.symm]; exact aw1
  set io := ask (.pipe 0) (.pipe 1) (.pipe 2)
  have so0 : source s2.pipes io 0 = some r0 := by show s2.pipes 0 (mine 0) = _; rw [q0]; exact pr0
  have so1 : source s2.pipes io 1 = some w1 := by show s2.pipes 1 (mine 1) = _; rw [q1]; exact pw1
  have so2 : source s2.pipes io 2 = some w2 := pw2
  have entry : ∀ {j f}, fileAt s2.tab j = some f → ∃ e, at? s2.tab j = some e := by
    intro j f h
    cases he : at? s2.tab j with
    | none => rw [fileAt, he] at h; cases h
    | some e => exact ⟨e, rfl⟩
  have three : ∀ {Q : Nat → Prop}, (∀ i < 3, Q i) ↔ Q 0 ∧ Q 1 ∧ Q 2 := by
    intro Q
    constructor
    · intro h; exact ⟨h 0 (by decide), h 1 (by decide), h 2 (by decide)⟩
    · rintro ⟨h0, h1, h2⟩ i hi
      rcases (by omega : i = 0 ∨ i = 1 ∨ i = 2) with rfl | rfl | rfl <;> assumption
  have hp : Possible s2.tab s2.pipes io := by
    unfold Possible
    rw [three]
    obtain ⟨e0, h0⟩ := entry f0
    obtain ⟨e1, h1⟩ := entry f1
    obtain ⟨e2, h2⟩ := entry aw2
    exact ⟨.inr (.inr ⟨r0, e0, so0, h0⟩), .inr (.inr ⟨w1, e1, so1, h1⟩), .inr (.inr ⟨w2, e2, so2, h2⟩)⟩
  have oth : ∀ j, OtherEnd s2.pipes io j → j = w0 ∨ j = r1 ∨ j = r2 := by
    rintro j ⟨i, hi, p, h1, h2⟩
    rcases (by omega : i = 0 ∨ i = 1 ∨ i = 2) with rfl | rfl | rfl
    · cases h1
      rw [q0] at h2
      exact .inl (Option.some.inj (h2.symm.trans pw0))
    · cases h1
      rw [q1] at h2
      exact .inr (.inl (Option.some.inj (h2.symm.trans pr1)))
    · cases h1
      exact .inr (.inr (Option.some.inj (h2.symm.trans pr2)))
  have hs : Simple s2.tab s2.pipes io := by
    refine ⟨?_, ?_, ?_, ?_, ?_⟩
    · rintro ⟨i, hi, h⟩
      rcases (by omega : i = 0 ∨ i = 1 ∨ i = 2) with rfl | rfl | rfl <;> cases h
    · intro j h
      rcases oth j h with rfl | rfl | rfl
      · exact ge _ fun i hi => (std0 i hi).2
      · exact ge _ fun i hi => (std1' i hi).1
      · exact ge _ fun i hi => (std2' i hi).1
    · intro j h
      rw [three, so0, so1, so2]
      simp only [ne_eq, Option.some.injEq]
      rcases oth j h with rfl | rfl | rfl
      · exact ⟨n0, d04, e04⟩
      · exact ⟨d01.symm, n1.symm, e13⟩
      · exact ⟨e01.symm, e12.symm, n2.symm⟩
    · intro i hi n hn h
      exfalso
      have : 3 ≤ n := by
        rcases (by omega : i = 0 ∨ i = 1 ∨ i = 2) with rfl | rfl | rfl
        · rw [so0] at h; injection h with h; subst h; exact ge _ fun i hi => (std0 i hi).1
        · rw [so1] at h; injection h with h; subst h; exact ge _ fun i hi => (std1' i hi).2
        · rw [so2] at h; injection h with h; subst h; exact ge _ fun i hi => (std2' i hi).2
      omega
    · intro i hi h
      exfalso
      have : 3 ≤ i := by
        rcases (by omega : i = 0 ∨ i = 1 ∨ i = 2) with rfl | rfl | rfl
        · rw [so0] at h; injection h with h; exact absurd h.symm (std0 0 hi).1
        · rw [so1] at h; injection h with h; exact absurd h.symm (std1' 1 hi).2
        · rw [so2] at h; injection h with h; exact absurd h.symm (std2' 2 hi).2
      omega
  obtain ⟨t, h, h1, h2⟩ := child_spec hp hs
  have g0 : fileAt t 0 = some (.rd 0) := by
    rw [h1 0 (by decide), wanted_of (by decide) so0]; exact f0
  have g1 : fileAt t 1 = some (.wr 1) := by
    rw [h1 1 (by decide), wanted_of (by decide) so1]; exact f1
  have g2 : fileAt t 2 = some (.wr 2) := by
    rw [h1 2 (by decide), wanted_of (by decide) so2]; exact aw2
  refine ⟨t, h, g0, g1, g2, fun j => ?_⟩
  by_cases hj : j < 3
  · rcases (by omega : j = 0 ∨ j = 1 ∨ j = 2) with rfl | rfl | rfl
    · simp [g0]
    · simp [g1]
    · simp [g2]
  · by_cases ho : OtherEnd s2.pipes io j
    · simp [fileAt, (h2 j (by omega)).1 (.inl ho)]
    · have hw0 : j ≠ w0 := fun e => ho ⟨0, by decide, 0, rfl, by rw [q0, e]; exact pw0⟩
      have hr1 : j ≠ r1 := fun e => ho ⟨1, by decide, 1, rfl, by rw [q1, e]; exact pr1⟩
      have hr2 : j ≠ r2 := fun e => ho ⟨2, by decide, 2, rfl, by rw [e]; exact pr2⟩
      have key : ∀ f, f = .wr 0 ∨ f = .rd 1 ∨ f = .rd 2 → fileAt s2.tab j ≠ some f := by
        intro f hf hx
        by_cases jw2 : j = w2
        · rw [jw2, aw2] at hx; injection hx with hx; subst hx; simp at hf
        rw [fileAt, u2 j hr2 jw2, ← fileAt] at hx
        by_cases jw1 : j = w1
        · rw [jw1, aw1] at hx; injection hx with hx; subst hx; simp at hf
        rw [fileAt, u1 j hr1 jw1, ← fileAt] at hx
        by_cases jr0 : j = r0
        · rw [jr0, ar0] at hx; injection hx with hx; subst hx; simp at hf
        rw [fileAt, u0 j jr0 hw0, ← fileAt] at hx
        rcases hf with rfl | rfl | rfl
        · exact (new j).1 hx
        · exact (new j).2.1 hx
        · exact (new j).2.2 hx
      have final : ∀ f, f = .wr 0 ∨ f = .rd 1 ∨ f = .rd 2 → fileAt t j ≠ some f := by
        intro f hf hx
        by_cases hc : ∃ e, at? s2.tab j = some e ∧ e.cloexec = true
        · rw [fileAt, (h2 j (by omega)).1 (.inr hc)] at hx; cases hx
        · refine key f hf ?_
          rw [fileAt, ← (h2 j (by omega)).2 ho (fun e he => by
            cases hb : e.cloexec
            · rfl
            · exact absurd ⟨e, he, hb⟩ hc)]
          exact hx
      exact ⟨final _ (by simp), final _ (by simp), final _ (by simp)⟩

/-! ## Cases -/

/-- A parent with a terminal as streams 0, 1, 2 (files 10, 11, 12). -/
def tty : St := ⟨[some ⟨.file 10, false⟩, some ⟨.file 11, false⟩, some ⟨.file 12, false⟩], fun _ _ => none⟩

example : ((start (mkPipe (mkPipe tty 0) 1) (ask (.pipe 0) (.pipe 1) .devNull)).2.map fun t => (List.range 8).map (fileAt t)) =
    some [some (.rd 0), some (.wr 1), some .null, some (.rd 0), none, none, some (.wr 1), none] := by decide +kernel

example : (List.range 8).map (fileAt (start (mkPipe (mkPipe tty 0) 1) (ask (.pipe 0) (.pipe 1) .devNull)).1.tab) =
    [some (.file 10), some (.file 11), some (.file 12), none, some (.wr 0), some (.rd 1), none, none] := by decide +kernel

/-- The hypotheses of the partial theorems are met by a parent with another file and a request of a pipe, a file and the null device. -/
example : ∃ (s : St) (io : Nat → Want), Possible s.tab s.pipes io ∧ Simple s.tab s.pipes io ∧ io 0 = .pipe 0 ∧ io 1 = .file (some 3) ∧
    io 2 = .devNull ∧ s.pipes 0 true = some 5 ∧ ∀ j, fileAt s.tab j = some (.wr 0) → j = 5 := by
  refine ⟨mkPipe ⟨tty.tab ++ [some ⟨.file 20, true⟩], tty.pipes⟩ 0, ask (.pipe 0) (.file (some 3)) .devNull, ?_, ⟨?_, ?_, ?_, ?_, ?_⟩,
    rfl, rfl, rfl, rfl, ?_⟩
  · intro i hi
    rcases (by omega : i = 0 ∨ i = 1 ∨ i = 2) with rfl | rfl | rfl
    · exact .inr (.inr ⟨4, ⟨.rd 0, false⟩, by decide, by decide⟩)
    · exact .inr (.inr ⟨3, ⟨.file 20, true⟩, by decide, by decide⟩)
    · exact .inr (.inl rfl)
  · intro _ i hi
    rcases (by omega : i = 0 ∨ i = 1 ∨ i = 2) with rfl | rfl | rfl <;> decide
  · rintro j ⟨i, hi, p, h1, h2⟩
    rcases (by omega : i = 0 ∨ i = 1 ∨ i = 2) with rfl | rfl | rfl
    · cases h1
      have : (5 : Nat) = j := Option.some.inj h2
      omega
    · cases h1
    · cases h1
  · rintro j ⟨i, hi, p, h1, h2⟩
    rcases (by omega : i = 0 ∨ i = 1 ∨ i = 2) with rfl | rfl | rfl
    · cases h1
      have : (5 : Nat) = j := Option.some.inj h2
      subst this
      intro i hi
      rcases (by omega : i = 0 ∨ i = 1 ∨ i = 2) with rfl | rfl | rfl <;> decide
    · cases h1
    · cases h1
  · intro i hi n hn h
    exfalso
    rcases (by omega : i = 0 ∨ i = 1 ∨ i = 2) with rfl | rfl | rfl
    · have : (4 : Nat) = n := Option.some.inj h
      omega
    · have : (3 : Nat) = n := Option.some.inj h
      omega
    · cases h
  · intro i hi h
    exfalso
    rcases (by omega : i = 0 ∨ i = 1 ∨ i = 2) with rfl | rfl | rfl
    · have : (4 : Nat) = 0 := Option.some.inj h
      omega
    · have : (3 : Nat) = 1 := Option.some.inj h
      omega
    · cases h
  · intro j h
    by_cases hj : j < 6
    · rcases (by omega : j = 0 ∨ j = 1 ∨ j = 2 ∨ j = 3 ∨ j = 4 ∨ j = 5) with rfl | rfl | rfl | rfl | rfl | rfl <;>
        first | rfl | (revert h; decide)
    · exfalso
      have : fileAt (mkPipe ⟨tty.tab ++ [some ⟨.file 20, true⟩], tty.pipes⟩ 0).tab j = none := by
        have hl : (mkPipe ⟨tty.tab ++ [some ⟨.file 20, true⟩], tty.pipes⟩ 0).tab.length = 6 := by decide
        simp [fileAt, at?, List.getElem?_eq_none (show (mkPipe ⟨tty.tab ++ [some ⟨.file 20, true⟩], tty.pipes⟩ 0).tab.length ≤ j by omega)]
      rw [this] at h
      cases h

/-- **Violated**: exchanging the streams 1 and 2 sends both to the old 2. -/
theorem c86_exchange_violated : ∃ t, (start tty (ask .keep (.file (some 2)) (.file (some 1)))).2 = some t ∧
    wanted tty.tab tty.pipes (ask .keep (.file (some 2)) (.file (some 1))) 2 = some (.file 11) ∧ fileAt t 2 = some (.file 12) := by
  refine ⟨[some ⟨.file 10, false⟩, some ⟨.file 12, false⟩, some ⟨.file 12, false⟩], ?_, ?_, ?_⟩ <;> decide +kernel

/-- **Violated**: with the null device for stream 1, stream 2 taken from the parent's stream 1 is the null device. -/
theorem c86_null_violated : ∃ t, (start tty (ask .keep .devNull (.file (some 1)))).2 = some t ∧
    wanted tty.tab tty.pipes (ask .keep .devNull (.file (some 1))) 2 = some (.file 11) ∧ fileAt t 2 = some .null := by
  refine ⟨[some ⟨.file 10, false⟩, some ⟨.null, false⟩, some ⟨.null, false⟩, none], ?_, ?_, ?_⟩ <;> decide +kernel

/-- **Violated**: in a parent whose stream 0 is closed, the null device asked for as stream 0 is not there. -/
theorem c86_closed_violated : ∃ t, (start ⟨[none, some ⟨.file 11, false⟩, some ⟨.file 12, false⟩], tty.pipes⟩ (ask .devNull .keep .keep)).2 = some t ∧
    fileAt t 0 = none := by
  refine ⟨[none, some ⟨.file 11, false⟩, some ⟨.file 12, false⟩], ?_, ?_⟩ <;> decide +kernel

/-- **Violated**: a pipe used for a second child is not refused; the child gets the parent's stream instead. -/
theorem c86_second_violated : ∃ t, (start (start (mkPipe tty 0) (ask (.pipe 0) .keep .keep)).1 (ask (.pipe 0) .keep .keep)).2 = some t ∧
    fileAt t 0 = some (.file 10) := by
  refine ⟨[some ⟨.file 10, false⟩, some ⟨.file 11, false⟩, some ⟨.file 12, false⟩, none, none], ?_, ?_⟩ <;> decide +kernel

/-- **Violated**: an empty file object is not refused either. -/
theorem c86_empty_violated : ∃ t, (start tty (ask (.file none) .keep .keep)).2 = some t ∧ fileAt t 0 = some (.file 10) := by
  refine ⟨tty.tab, ?_, ?_⟩ <;> decide +kernel

/-- **Violated**: a child that talks to itself through a pipe cannot be started: the end to read from is closed before it is copied. The parent
is not told. -/
theorem c86_loop_violated : (start (mkPipe tty 0) (ask (.pipe 0) (.pipe 0) .keep)).2 = none := by decide +kernel

/-- **Violated**: the parent starts two children, each reading from its own pipe, and closes its end of the first. The second child still holds
it: the first waits for the end of its input as long as the second runs. -/
theorem c86_end_violated :
    let one := start (mkPipe tty 0) (ask (.pipe 0) .keep .keep)
    let two := start (mkPipe one.1 1) (ask (.pipe 1) .keep .keep)
    let parent := closeEnd two.1 0 true
    (∀ j < parent.tab.length, fileAt parent.tab j ≠ some (.wr 0)) ∧
    ∃ t, two.2 = some t ∧ fileAt t 4 = some (.wr 0) := by
  refine ⟨by decide +kernel, _, rfl, by decide +kernel⟩

end Verif.Child
