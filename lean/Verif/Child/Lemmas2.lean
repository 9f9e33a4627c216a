import Verif.Child.Lemmas
namespace Verif.Child

open Classical

theorem source_none {T P io} (hp : Possible T P io) {i : Nat} (hi : i < 3) : source P io i = none ↔ io i = .devNull := by
  rcases hp i hi with h | h | ⟨n, e, h, -⟩
  · simp [source, h]
  · simp [source, h]
  · rw [h]
    constructor
    · intro hx; cases hx
    · intro hx; simp [source, hx] at h

theorem keep_source {P io} {i : Nat} (h : io i = .keep) : source P io i = some i := by simp [source, h]

theorem source_open {T P io} (hp : Possible T P io) {i n : Nat} (hi : i < 3) (hn : source P io i = some n) (hne : n ≠ i) : at? T n ≠ none := by
  rcases hp i hi with h | h | ⟨m, e, h, ho⟩
  · rw [keep_source h] at hn; injection hn with hn; exact absurd hn.symm hne
  · rw [(source_none hp hi).2 h] at hn; cases hn
  · rw [h] at hn; injection hn with hn; subst hn; rw [ho]; simp

/-- The descriptors before the program starts. -/
theorem child_pre {s : St} {io : Nat → Want} (hp : Possible s.tab s.pipes io) (hs : Simple s.tab s.pipes io) :
    ∃ t, child s io = some (exec t) ∧
      (∀ i < 3, at? t i = match source s.pipes io i with
        | none => some ⟨.null, false⟩
        | some n => if n = i then at? s.tab i else clr (at? s.tab n)) ∧
      ∀ j, 3 ≤ j → (OtherEnd s.pipes io j → at? t j = none) ∧ (¬ OtherEnd s.pipes io j → at? t j = at? s.tab j) := by
  obtain ⟨a1, i1⟩ := deal_step (by decide) (inv_zero s io) hp hs
  obtain ⟨a2, i2⟩ := deal_step (by decide) i1 hp hs
  obtain ⟨a3, i3⟩ := deal_step (by decide) i2 hp hs
  simp only [child]
  rw [a1, a2, a3]
  set s3 := (dealChild (dealChild (dealChild s (redirect (io 0)) 0).2 (redirect (io (0 + 1))) (0 + 1)).2 (redirect (io (0 + 1 + 1))) (0 + 1 + 1)).2 with hs3
  have oe : ∀ j, (∃ i < 0 + 1 + 1 + 1, ∃ p, io i = .pipe p ∧ s.pipes p (other i) = some j) ↔ OtherEnd s.pipes io j := fun j => Iff.rfl
  have low : ∀ j < 3, at? s3.tab j = at? s.tab j := fun j hj =>
    (i3.2 j).2 fun hx => by have := hs.high j ((oe j).1 hx); omega
  have src : ∀ i < 3, ∀ n, source s.pipes io i = some n → at? s3.tab n = at? s.tab n := fun i hi n hn =>
    (i3.2 n).2 fun hx => hs.apart n ((oe n).1 hx) i hi hn
  obtain ⟨tN, eN, fN⟩ := nullPhase_spec s3.tab (source s.pipes io 0) (source s.pipes io 1) (source s.pipes io 2) (by
    intro hx i hi
    rw [low i hi]
    apply hs.std _ i hi
    rcases hx with hx | hx | hx
    · exact ⟨0, by decide, (source_none hp (by decide)).1 hx⟩
    · exact ⟨1, by decide, (source_none hp (by decide)).1 hx⟩
    · exact ⟨2, by decide, (source_none hp (by decide)).1 hx⟩)
  have nl : ∀ i < 3, source s.pipes io i = none → at? tN i = some ⟨.null, false⟩ := by
    intro i hi hn
    rw [fN, if_pos]
    rcases (by omega : i = 0 ∨ i = 1 ∨ i = 2) with rfl | rfl | rfl <;> simp [hn]
  have ns : ∀ i < 3, ∀ n, source s.pipes io i = some n → at? tN n = at? s.tab n := by
    intro i hi n hn
    rw [fN, if_neg, src i hi n hn]
    have key : n < 3 → source s.pipes io n ≠ none := by
      intro h3 hx
      by_cases hni : n = i
      · subst hni; rw [hn] at hx; cases hx
      · rw [source_none hp h3] at hx
        rcases hs.order i hi n h3 hn hni with h | h
        · rw [hx] at h; cases h
        · exact h.2 hx
    rintro (⟨rfl, h⟩ | ⟨rfl, h⟩ | ⟨rfl, h⟩) <;> exact key (by decide) h
  obtain ⟨t1, e1, g1, k1, u1⟩ := dupTo_spec tN (source s.pipes io 0) 0 (by
    intro n hn hne
    rw [ns 0 (by decide) n hn]
    exact source_open hp (by decide) hn hne)
  have ks : ∀ i < 3, ∀ n < 3, source s.pipes io i = some n → n < i → source s.pipes io n = some n := by
    intro i hi n hn h hlt
    rcases hs.order i hi n hn h (by omega) with h | h
    · exact keep_source h
    · omega
  have s1 : ∀ n, source s.pipes io 1 = some n → n ≠ 1 → at? t1 n = at? s.tab n := by
    intro n hn hne
    by_cases h0 : n = 0
    · subst h0
      have := ks 1 (by decide) 0 (by decide) hn (by decide)
      rw [k1 (.inr this), ns 1 (by decide) 0 hn]
    · rw [u1 n h0, ns 1 (by decide) n hn]
  obtain ⟨t2, e2, g2, k2, u2⟩ := dupTo_spec t1 (source s.pipes io 1) 1 (by
    intro n hn hne
    rw [s1 n hn hne]
    exact source_open hp (by decide) hn hne)
  have s2 : ∀ n, source s.pipes io 2 = some n → n ≠ 2 → at? t2 n = at? s.tab n := by
    intro n hn hne
    by_cases h1 : n = 1
    · subst h1
      have := ks 2 (by decide) 1 (by decide) hn (by decide)
      rw [k2 (.inr this), u1 1 (by decide), ns 2 (by decide) 1 hn]
    · rw [u2 n h1]
      by_cases h0 : n = 0
      · subst h0
        have := ks 2 (by decide) 0 (by decide) hn (by decide)
        rw [k1 (.inr this), ns 2 (by decide) 0 hn]
      · rw [u1 n h0, ns 2 (by decide) n hn]
  obtain ⟨t3, e3, g3, k3, u3⟩ := dupTo_spec t2 (source s.pipes io 2) 2 (by
    intro n hn hne
    rw [s2 n hn hne]
    exact source_open hp (by decide) hn hne)
  refine ⟨t3, by simp [eN, dupPhase, e1, e2, e3], ?_, ?_⟩
  · intro i hi
    rcases (by omega : i = 0 ∨ i = 1 ∨ i = 2) with rfl | rfl | rfl
    · rw [u3 0 (by decide), u2 0 (by decide)]
      cases h : source s.pipes io 0 with
      | none => rw [k1 (.inl h)]; exact nl 0 hi h
      | some n =>
        by_cases hn : n = 0
        · subst hn; simp only [if_true]; rw [k1 (.inr h), ns 0 hi 0 h]
        · simp only [if_neg hn]; rw [g1 n h hn, ns 0 hi n h]
    · rw [u3 1 (by decide)]
      cases h : source s.pipes io 1 with
      | none => rw [k2 (.inl h), u1 1 (by decide)]; exact nl 1 hi h
      | some n =>
        by_cases hn : n = 1
        · subst hn; simp only [if_true]; rw [k2 (.inr h), u1 1 (by decide), ns 1 hi 1 h]
        · simp only [if_neg hn]; rw [g2 n h hn, s1 n h hn]
    · cases h : source s.pipes io 2 with
      | none => rw [k3 (.inl h), u2 2 (by decide), u1 2 (by decide)]; exact nl 2 hi h
      | some n =>
        by_cases hn : n = 2
        · subst hn; simp only [if_true]; rw [k3 (.inr h), u2 2 (by decide), u1 2 (by decide), ns 2 hi 2 h]
        · simp only [if_neg hn]; rw [g3 n h hn, s2 n h hn]
  · intro j hj
    have : at? t3 j = at? s3.tab j := by
      rw [u3 j (by omega), u2 j (by omega), u1 j (by omega), fN, if_neg]
      omega
    rw [this]
    exact i3.2 j

theorem child_spec {s : St} {io : Nat → Want} (hp : Possible s.tab s.pipes io) (hs : Simple s.tab s.pipes io) :
    ∃ t, child s io = some t ∧ (∀ i < 3, fileAt t i = wanted s.tab s.pipes io i) ∧
      ∀ j, 3 ≤ j → ((OtherEnd s.pipes io j ∨ ∃ e, at? s.tab j = some e ∧ e.cloexec = true) → at? t j = none) ∧
        (¬ OtherEnd s.pipes io j → (∀ e, at? s.tab j = some e → e.cloexec = false) → at? t j = at? s.tab j) := by
  obtain ⟨t, h, h1, h2⟩ := child_pre hp hs
  refine ⟨exec t, h, ?_, ?_⟩
  · intro i hi
    simp only [fileAt, at_exec, h1 i hi]
    cases hn : source s.pipes io i with
    | none =>
      have := (source_none hp hi).1 hn
      simp [wanted, this]
    | some n =>
      have hd : io i ≠ .devNull := fun hx => by rw [(source_none hp hi).2 hx] at hn; cases hn
      have hw : wanted s.tab s.pipes io i = fileAt s.tab n := by
        unfold wanted
        split
        · exact absurd ‹_› hd
        · rw [hn]; rfl
      rw [hw]
      by_cases hi' : n = i
      · subst hi'
        have := hs.kept n hi hn
        simp only [if_true, fileAt]
        cases he : at? s.tab n with
        | none => rfl
        | some e => simp [this e he]
      · simp only [if_neg hi', fileAt, clr]
        cases he : at? s.tab n <;> simp
  · intro j hj
    rw [at_exec]
    refine ⟨?_, ?_⟩
    · rintro (ho | ⟨e, he, hc⟩)
      · simp [(h2 j hj).1 ho]
      · by_cases ho : OtherEnd s.pipes io j
        · simp [(h2 j hj).1 ho]
        · simp [(h2 j hj).2 ho, he, hc]
    · intro ho hc
      rw [(h2 j hj).2 ho]
      cases he : at? s.tab j with
      | none => rfl
      | some e => simp [hc e he]

/-- The parent closes the ends that the child uses. -/
theorem dealParent_spec (s : St) (w : Want) (i : Nat) (b : Bool) (hb : b = other i) :
    (∀ j, at? (dealParent s (redirect w) b).tab j = if ∃ p, w = .pipe p ∧ s.pipes p (mine i) = some j then none else at? s.tab j) ∧
    ∀ q c, (dealParent s (redirect w) b).pipes q c = if w = .pipe q ∧ c = mine i then none else s.pipes q c := by
  have hm : (!b) = mine i := by subst hb; rfl
  cases w with
  | keep => simp [dealParent, redirect]
  | devNull => simp [dealParent, redirect]
  | file fd => simp [dealParent, redirect]
  | pipe p =>
    simp only [dealParent, redirect, hm]
    cases h : s.pipes p (mine i) with
    | none =>
      refine ⟨fun j => by simp [h], fun q c => ?_⟩
      by_cases hq : Want.pipe p = Want.pipe q ∧ c = mine i
      · rw [if_pos hq]; obtain ⟨h1, rfl⟩ := hq; injection h1 with h1; subst h1; exact h
      · rw [if_neg hq]
    | some d =>
      refine ⟨fun j => ?_, fun q c => ?_⟩
      · simp [sysClose, at_put, h, eq_comm]
      · simp [forget, eq_comm]

theorem start_parent (s : St) (io : Nat → Want) :
    (∀ j, (OwnEnd s.pipes io j → at? (start s io).1.tab j = none) ∧ (¬ OwnEnd s.pipes io j → at? (start s io).1.tab j = at? s.tab j)) ∧
    ∀ q c, (start s io).1.pipes q c = if ∃ i < 3, io i = .pipe q ∧ c = mine i then none else s.pipes q c := by
  obtain ⟨a0, b0⟩ := dealParent_spec s (io 0) 0 true rfl
  obtain ⟨a1, b1⟩ := dealParent_spec (dealParent s (redirect (io 0)) true) (io 1) 1 false rfl
  obtain ⟨a2, b2⟩ := dealParent_spec (dealParent (dealParent s (redirect (io 0)) true) (redirect (io 1)) false) (io 2) 2 false rfl
  have m01 : mine 0 ≠ mine 1 := by decide
  have m12 : mine 1 = mine 2 := rfl
  have three : ∀ Q : Nat → Prop, (∃ i < 3, Q i) ↔ Q 0 ∨ Q 1 ∨ Q 2 := by
    intro Q
    constructor
    · rintro ⟨i, hi, h⟩
      rcases (by omega : i = 0 ∨ i = 1 ∨ i = 2) with rfl | rfl | rfl <;> simp [h]
    · rintro (h | h | h)
      · exact ⟨0, by decide, h⟩
      · exact ⟨1, by decide, h⟩
      · exact ⟨2, by decide, h⟩
  refine ⟨fun j => ?_, fun q c => ?_⟩
  · have e : at? (start s io).1.tab j = if OwnEnd s.pipes io j then none else at? s.tab j := by
      simp only [start]
      rw [a2, a1, a0]
      simp only [b1, b0]
      by_cases h0 : ∃ p, io 0 = .pipe p ∧ s.pipes p (mine 0) = some j
      · have : OwnEnd s.pipes io j := ⟨0, by decide, h0⟩
        simp [this, h0]
      by_cases h1 : ∃ p, io 1 = .pipe p ∧ s.pipes p (mine 1) = some j
      · have : OwnEnd s.pipes io j := ⟨1, by decide, h1⟩
        obtain ⟨p, h1a, h1b⟩ := h1
        simp [this, h1a, h1b, m01.symm]
      by_cases h2 : ∃ p, io 2 = .pipe p ∧ s.pipes p (mine 2) = some j
      · have : OwnEnd s.pipes io j := ⟨2, by decide, h2⟩
        obtain ⟨p, h2a, h2b⟩ := h2
        have hx : io 1 ≠ .pipe p := fun hx => h1 ⟨p, hx, by rw [m12, h2b]⟩
        have m02 : mine 2 ≠ mine 0 := by decide
        simp [this, h2a, h2b, hx, m02]
      · have : ¬ OwnEnd s.pipes io j := by
          unfold OwnEnd
          rw [three]
          rintro (h | h | h)
          · exact h0 h
          · exact h1 h
          · exact h2 h
        rw [if_neg this]
        have n1 : ¬ ∃ p, io 1 = .pipe p ∧ (if io 0 = .pipe p ∧ mine 1 = mine 0 then none else s.pipes p (mine 1)) = some j := by
          rintro ⟨p, hx, hy⟩
          rw [if_neg (fun h => m01 h.2.symm)] at hy
          exact h1 ⟨p, hx, hy⟩
        have n2 : ¬ ∃ p, io 2 = .pipe p ∧ (if io 1 = .pipe p ∧ mine 2 = mine 1 then none
            else if io 0 = .pipe p ∧ mine 2 = mine 0 then none else s.pipes p (mine 2)) = some j := by
          rintro ⟨p, hx, hy⟩
          split at hy
          · cases hy
          · split at hy
            · cases hy
            · exact h2 ⟨p, hx, hy⟩
        rw [if_neg n2, if_neg n1, if_neg h0]
    constructor
    · intro h; rw [e, if_pos h]
    · intro h; rw [e, if_neg h]
  · simp only [start]
    rw [b2, b1, b0]
    have := three fun i => io i = .pipe q ∧ c = mine i
    simp only [this]
    by_cases h0 : io 0 = .pipe q ∧ c = mine 0 <;> by_cases h1 : io 1 = .pipe q ∧ c = mine 1 <;>
      by_cases h2 : io 2 = .pipe q ∧ c = mine 2 <;> simp [h0, h1, h2]

end Verif.Child
