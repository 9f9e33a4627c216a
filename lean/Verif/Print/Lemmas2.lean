import Verif.Print.Lemmas
/-! # Lemmas on devices without a buffer -/
namespace Verif.Print

theorem Dev.got_call (d : Dev) (bs : List Nat) : (d.call bs).got = d.got ++ bs := by
  simp [Dev.got, Dev.call]

/-- Everything printed so far, including what is still in the temporary buffer. -/
def Tmp.out (t : Tmp) : List Nat := t.dev.got ++ t.held

theorem Tmp.lawful : Lawful tmpStream Tmp.out (fun t => t.held.length ≤ 512) (fun _ => False) where
  push t bs h hb := by
    simp only [tmpStream, Tmp.out, List.length_append] at *
    exact ⟨by omega, by simp⟩
  write t bs h := by
    show Done _ _ _ _ _ (Tmp.write t bs)
    unfold Tmp.write
    simp only []
    split_ifs with h1 h2
    · refine ⟨by show (List.drop _ _).length ≤ 512; omega, ?_⟩
      simp [Tmp.out, Dev.got_call]
    · refine ⟨Nat.zero_le _, ?_⟩
      simp [Tmp.out, Dev.got_call]
    · exact ⟨by show (t.held ++ bs).length ≤ 512; rw [List.length_append]; omega, by simp [Tmp.out]⟩
  overflow t c h h0 := by
    show Done _ _ _ _ _ (Tmp.overflow t c)
    simp only [tmpStream] at h0
    unfold Tmp.overflow
    rw [if_pos (by omega)]
    exact ⟨by simp, by simp [Tmp.out, Dev.got_call]⟩
  const := by simp [tmpStream]
  contiguous := by simp [tmpStream]
  mono := by simp

theorem Tmp.flush_got (t : Tmp) : t.flush.dev.got = t.out := by
  unfold Tmp.flush Tmp.out
  split_ifs with h
  · simp [h]
  · simp [Dev.got_call]

theorem take_of_take {α : Type} {l1 l2 : List α} {n m : Nat} (h : l1.take n = l2.take n) (hm : m ≤ n) : l1.take m = l2.take m := by
  have := congrArg (List.take m) h
  simpa [List.take_take, Nat.min_eq_left hm] using this

theorem drop_take_of_take {m mem : List Nat} {off k : Nat} {bs js : List Nat} (h : m.take (off + (bs ++ js).length) = mem.take off ++ (bs ++ js))
    (hoff : off ≤ mem.length) (hk : k = bs.length) : (m.drop off).take k = bs := by
  subst hk
  have h2 : m.take (off + bs.length) = mem.take off ++ bs := by
    have := congrArg (List.take (off + bs.length)) h
    rw [List.take_take, Nat.min_eq_left (by simp)] at this
    rw [this, ← List.append_assoc, List.take_append_of_le_length (by simp; omega)]
    apply List.take_of_length_le; simp; omega
  have := congrArg (List.drop off) h2
  rw [List.drop_append_of_le_length (by simp; omega), List.drop_take, Nat.add_sub_cancel_left] at this
  rw [this]
  simp

/-- One step fills the piece with the text and keeps what lies before. -/
theorem scatterOne_ok {rf : Bool} {a : Arrays} {i : Item} (hi : i.Honest) (hp : i.plain = true)
    (hs : a.sp + i.reserve.getD 0 ≤ a.stack.length)
    (hh : a.hp + (if i.reserve.isSome then 0 else i.dynamic.getD 0) ≤ a.heap.length) :
    ∃ a' p, scatterOne rf a i = .ok (a', p) ∧ a'.stack.length = a.stack.length ∧ a'.heap.length = a.heap.length ∧
      a.sp ≤ a'.sp ∧ a'.sp ≤ a.sp + i.reserve.getD 0 ∧ a.hp ≤ a'.hp ∧
      a'.hp ≤ a.hp + (if i.reserve.isSome then 0 else i.dynamic.getD 0) ∧
      a'.stack.take a.sp = a.stack.take a.sp ∧ a'.heap.take a.hp = a.heap.take a.hp ∧
      ∀ b : Arrays, b.stack.take a'.sp = a'.stack.take a'.sp → b.heap.take a'.hp = a'.heap.take a'.hp → p.read b = i.text := by
  have onStack : ∀ n, i.reserve = some n → ∃ a' p, (do
      let m ← storeAt a.stack a.sp (i.text ++ i.junk)
      Except.ok ({ a with stack := m, sp := a.sp + i.text.length }, Piece.stack a.sp i.text.length) : R (Arrays × Piece))
        = .ok (a', p) ∧ a'.stack.length = a.stack.length ∧ a'.heap.length = a.heap.length ∧
      a.sp ≤ a'.sp ∧ a'.sp ≤ a.sp + i.reserve.getD 0 ∧ a.hp ≤ a'.hp ∧
      a'.hp ≤ a.hp + (if i.reserve.isSome then 0 else i.dynamic.getD 0) ∧
      a'.stack.take a.sp = a.stack.take a.sp ∧ a'.heap.take a.hp = a.heap.take a.hp ∧
      ∀ b : Arrays, b.stack.take a'.sp = a'.stack.take a'.sp → b.heap.take a'.hp = a'.heap.take a'.hp → p.read b = i.text := by
    intro n hn
    have hlen := hi.reserve_ok n hn
    rw [hn] at hs ⊢
    simp only [Option.getD_some] at hs ⊢
    obtain ⟨m, e, h1, h2, h3⟩ := storeAt_ok (mem := a.stack) (off := a.sp) (bs := i.text ++ i.junk) (by rw [List.length_append]; omega)
    rw [e]
    refine ⟨_, _, rfl, h1, rfl, Nat.le_add_right _ _, ?_, Nat.le_refl _, Nat.le_add_right _ _, h2, rfl, ?_⟩
    · show a.sp + i.text.length ≤ a.sp + n; omega
    · intro b hb _
      show (b.stack.drop a.sp).take i.text.length = i.text
      have hb : b.stack.take (a.sp + i.text.length) = m.take (a.sp + i.text.length) := hb
      have := drop_take_of_take h3 (by omega) rfl
      have e1 : ∀ l : List Nat, (l.drop a.sp).take i.text.length = (l.take (a.sp + i.text.length)).drop a.sp := by
        intro l; rw [List.drop_take]; simp
      rw [e1] at this ⊢
      rw [hb]; exact this
  unfold scatterOne
  simp only []
  by_cases h1 : (rf && i.reserve.isSome) = true
  · rw [if_pos h1]
    obtain ⟨n, hn⟩ := Option.isSome_iff_exists.1 (Bool.and_eq_true_iff.1 h1).2
    exact onStack n hn
  · rw [if_neg h1]
    by_cases h2 : i.scatter = true
    · rw [if_pos h2]
      exact ⟨_, _, rfl, rfl, rfl, Nat.le_refl _, Nat.le_add_right _ _, Nat.le_refl _, Nat.le_add_right _ _, rfl, rfl, fun _ _ _ => rfl⟩
    · rw [if_neg h2]
      by_cases h3 : i.reserve.isSome = true
      · rw [if_pos h3]
        obtain ⟨n, hn⟩ := Option.isSome_iff_exists.1 h3
        exact onStack n hn
      · rw [if_neg h3] at hh ⊢
        have h4 : i.dynamic.isSome = true := by
          simp only [Item.plain, Bool.or_eq_true] at hp
          rcases hp with (h | h) | h
          · exact absurd h h2
          · exact absurd h h3
          · exact h
        rw [if_pos h4]
        obtain ⟨n, hn⟩ := Option.isSome_iff_exists.1 h4
        have hlen := hi.dynamic_ok n hn
        rw [hn] at hh ⊢
        simp only [Option.getD_some] at hh ⊢
        obtain ⟨m, e, k1, k2, k3⟩ := storeAt_ok (mem := a.heap) (off := a.hp) (bs := i.text ++ i.junk) (by rw [List.length_append]; omega)
        rw [e]
        refine ⟨_, _, rfl, rfl, k1, Nat.le_refl _, Nat.le_add_right _ _, Nat.le_add_right _ _, ?_, rfl, k2, ?_⟩
        · rw [if_neg h3]; show a.hp + i.text.length ≤ a.hp + n; omega
        · intro b _ hb
          show (b.heap.drop a.hp).take i.text.length = i.text
          have hb : b.heap.take (a.hp + i.text.length) = m.take (a.hp + i.text.length) := hb
          have := drop_take_of_take k3 (by omega) rfl
          have e1 : ∀ l : List Nat, (l.drop a.hp).take i.text.length = (l.take (a.hp + i.text.length)).drop a.hp := by
            intro l; rw [List.drop_take]; simp
          rw [e1] at this ⊢
          rw [hb]; exact this

theorem scatterAll_ok {rf : Bool} (l : List Item) (hl : ∀ i ∈ l, i.Honest ∧ i.plain = true) : ∀ a : Arrays,
    a.sp + reserveTotal l ≤ a.stack.length → a.hp + dynamicTotal l ≤ a.heap.length →
    ∃ a' ps, scatterAll rf a l = .ok (a', ps) ∧ a'.stack.take a.sp = a.stack.take a.sp ∧
      a'.heap.take a.hp = a.heap.take a.hp ∧ (ps.map (Piece.read a')).flatten = (l.map Item.text).flatten := by
  induction l with
  | nil => intro a _ _; exact ⟨a, [], rfl, rfl, rfl, rfl⟩
  | cons i rest ih =>
    intro a hs hh
    simp only [reserveTotal, dynamicTotal, List.map_cons, List.sum_cons] at hs hh
    obtain ⟨a1, p, e, l1, l2, s1, s2, t1, t2, k1, k2, hr⟩ := scatterOne_ok (rf := rf) (a := a) (hl i (by simp)).1 (hl i (by simp)).2
      (by omega) (by omega)
    obtain ⟨a2, ps, e2, m1, m2, m3⟩ := ih (fun j hj => hl j (by simp [hj])) a1
      (by rw [reserveTotal, l1]; omega) (by rw [dynamicTotal, l2]; omega)
    refine ⟨a2, p :: ps, ?_, ?_, ?_, ?_⟩
    · simp only [scatterAll, e, e2]
    · rw [take_of_take m1 s1, k1]
    · rw [take_of_take m2 t1, k2]
    · simp only [List.map_cons, List.flatten_cons, m3, hr a2 m1 m2]

theorem devPrims_ok (l : List Prim) (h : ∀ p ∈ l, ∃ bs, p = .write bs) : ∀ d : Dev,
    ∃ d', devPrims d l = .ok d' ∧ d'.got = d.got ++ (l.map Prim.text).flatten := by
  induction l with
  | nil => intro d; exact ⟨d, rfl, by simp⟩
  | cons p t ih =>
    intro d
    obtain ⟨bs, rfl⟩ := h p (by simp)
    obtain ⟨d', e, g⟩ := ih (fun q hq => h q (by simp [hq])) (d.call bs)
    exact ⟨d', e, by rw [g, Dev.got_call]; simp [Prim.text]⟩

/-- The argument only has a `print_define`. -/
def Item.onlyCustom (i : Item) : Prop := i.scatter = false ∧ i.reserve = none ∧ i.dynamic = none

theorem devControl_ok {cfg : DevCfg} {line : Bool} {d : Dev} {i : Item} (hi : i.Honest)
    (hc : i.onlyCustom → line = false ∧ ∀ l, i.custom = some l → ∀ p ∈ l, ∃ bs, p = Prim.write bs) :
    ∃ d', devControl cfg line d i = .ok d' ∧ d'.got = d.got ++ (i.text ++ lf line) := by
  unfold devControl
  by_cases h1 : i.scatter = true
  · rw [if_pos h1]
    cases line
    · exact ⟨_, rfl, by simp [Dev.got_call, lf]⟩
    · simp only [if_true]
      split_ifs
      · exact ⟨_, rfl, by simp [Dev.got_call, lf]⟩
      · exact ⟨_, rfl, by simp [Dev.got_call, lf]⟩
  · rw [if_neg h1]
    cases h2 : i.reserve with
    | some n =>
      have := hi.reserve_ok n h2
      simp only []
      rw [intoArray_ok (by omega)]
      exact ⟨_, rfl, Dev.got_call _ _⟩
    | none =>
      cases h3 : i.dynamic with
      | some n =>
        have := hi.dynamic_ok n h3
        have := hi.dynamic_small n h3
        simp only []
        rw [if_neg (by omega), intoArray_ok (by omega)]
        exact ⟨_, rfl, Dev.got_call _ _⟩
      | none =>
        obtain ⟨hl, hw⟩ := hc ⟨by simpa using h1, h2, h3⟩
        cases h4 : i.custom with
        | none =>
          rcases hi.some_way with h | h | h | h
          · exact absurd h h1
          · exact absurd h2 h
          · exact absurd h3 h
          · exact absurd h4 h
        | some l =>
          subst hl
          obtain ⟨d', e, g⟩ := devPrims_ok l (hw l h4) d
          exact ⟨d', e, by rw [g, hi.custom_ok l h4]; simp [lf]⟩

theorem tmpFits (i : Item) : Fits tmpStream i := by simp [Fits, tmpStream]

theorem fallback_ok {cfg : DevCfg} {line : Bool} {d : Dev} {items : List Item} (hr : ∀ i ∈ items, i.Honest)
    (hl : items.length < 2 ^ 53) (h0 : items ≠ [] ∨ line = true)
    (ho : reserveTotal items < 2 ^ 64 ∧ dynamicTotal items < 2 ^ 64) :
    ∃ d', fallback cfg line d items = .ok d' ∧ d'.got = d.got ++ expected line items := by
  unfold fallback expected
  rw [lf_def]
  by_cases h1 : line = true ∧ items = []
  · rw [if_pos h1]
    obtain ⟨rfl, rfl⟩ := h1
    exact ⟨_, rfl, by simp [Dev.got_call, lf]⟩
  · rw [if_neg h1]
    have hne : items ≠ [] := by
      rcases h0 with h | h
      · exact h
      · exact fun e => h1 ⟨h, e⟩
    by_cases h2 : cfg.scatter = true ∧ items.all Item.plain = true
    · rw [if_pos h2]
      simp only []
      rw [if_neg (by omega)]
      obtain ⟨a', ps, e, _, _, m⟩ := scatterAll_ok
        (rf := !items.all Item.scatter && items.all fun i => i.scatter || i.reserve.isSome) items
        (fun i hi => ⟨hr i hi, List.all_eq_true.1 h2.2 i hi⟩)
        ⟨List.replicate (reserveTotal items) 0, List.replicate (dynamicTotal items) 0, 0, 0⟩ (by simp) (by simp)
      rw [e]
      simp only [m]
      exact ⟨_, rfl, Dev.got_call _ _⟩
    · rw [if_neg h2]
      have := multi_ok Tmp.lawful line items 0 (s := ⟨[], d⟩) (by simp) hr (fun i _ => tmpFits i) hl (List.length_pos_iff.2 hne)
      match hm : multi tmpStream line 0 ⟨[], d⟩ items, this with
      | .ok t, this =>
        refine ⟨_, rfl, ?_⟩
        rw [Tmp.flush_got, this.2]
        simp [Tmp.out]
      | .error .stop, this => exact this.elim
      | .error .ub, this => exact this.elim

end Verif.Print
