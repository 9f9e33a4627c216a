import Verif.Print.Model
import Mathlib.Tactic.SplitIfs
/-! # Lemmas on the print dispatcher -/
namespace Verif.Print

/-- The operation appended `bs` to the output and kept the invariant; it ended the program only if that is allowed
for output of the length there would be. -/
def Done {S : Type} (out : S → List Nat) (Inv : S → Prop) (may : Nat → Prop) (s : S) (bs : List Nat) : R S → Prop
  | .ok s' => Inv s' ∧ out s' = out s ++ bs
  | .error .stop => may (out s ++ bs).length
  | .error .ub => False

/-- What a stream with a buffer has to provide. -/
structure Lawful {S : Type} (st : Stream S) (out : S → List Nat) (Inv : S → Prop) (may : Nat → Prop) : Prop where
  push : ∀ s bs, Inv s → bs.length ≤ st.room s → Inv (st.push s bs) ∧ out (st.push s bs) = out s ++ bs
  write : ∀ s bs, Inv s → Done out Inv may s bs (st.write s bs)
  overflow : ∀ s c, Inv s → st.room s = 0 → Done out Inv may s [c] (st.overflow s c)
  const : ∀ n f, st.const = some (n, f) → ∀ s, Inv s →
    match f s with
    | .ok s' => Inv s' ∧ out s' = out s ∧ n ≤ st.room s'
    | .error .stop => ∀ n, may n
    | .error .ub => False
  contiguous : st.contiguous = true → ∀ n, may n
  mono : ∀ m n, m ≤ n → may m → may n

section
variable {S : Type} {st : Stream S} {out : S → List Nat} {Inv : S → Prop} {may : Nat → Prop}

theorem Done.bind (L : Lawful st out Inv may) {s : S} {b1 b2 : List Nat} {r : R S} {f : S → R S} (h : Done out Inv may s b1 r)
    (h2 : ∀ s', Inv s' → out s' = out s ++ b1 → Done out Inv may s' b2 (f s')) : Done out Inv may s (b1 ++ b2) (r >>= f) := by
  match r, h with
  | .ok s', h =>
    have := h2 s' h.1 h.2
    show Done out Inv may s (b1 ++ b2) (f s')
    match hr : f s', this with
    | .ok s'', this => exact ⟨this.1, by rw [this.2, h.2, List.append_assoc]⟩
    | .error .stop, this => exact (by
      have e : out s' ++ b2 = out s ++ (b1 ++ b2) := by rw [h.2, List.append_assoc]
      show may (out s ++ (b1 ++ b2)).length
      rw [← e]; exact this)
  | .error .stop, h => exact L.mono _ _ (by simp) h

theorem Done.ok {s s' : S} {bs : List Nat} (h : Inv s' ∧ out s' = out s ++ bs) : Done out Inv may s bs (.ok s') := h

theorem Done.nil {s : S} (h : Inv s) : Done out Inv may s [] (.ok s) := ⟨h, by simp⟩

/-- The line feed of a `println`. -/
def lf (line : Bool) : List Nat := if line then [10] else []

theorem lf_length (line : Bool) : (lf line).length = line.toNat := by cases line <;> rfl

theorem lf_def (line : Bool) : (if line = true then [10] else []) = lf line := rfl

theorem intoArray_ok {size : Nat} {line : Bool} {i : Item} (h : i.text.length + i.junk.length + line.toNat ≤ size) :
    intoArray size line i = .ok (i.text ++ lf line) := by
  have := lf_length line
  simp only [intoArray, lf_def, List.length_append]
  rw [if_pos (by omega)]

theorem place_ok (L : Lawful st out Inv may) {s : S} (hs : Inv s) {line : Bool} {i : Item}
    (h : i.text.length + i.junk.length + line.toNat ≤ st.room s) :
    Done out Inv may s (i.text ++ lf line) (place st s line i) := by
  have := lf_length line
  simp only [place, lf_def, List.length_append]
  rw [if_pos (by omega)]
  exact L.push _ _ hs (by rw [List.length_append]; omega)

theorem put_ok (L : Lawful st out Inv may) {s : S} (hs : Inv s) (c : Nat) : Done out Inv may s [c] (put st s c) := by
  unfold put
  split_ifs with h
  · exact L.overflow _ _ hs h
  · exact L.push _ _ hs (by simp; omega)

theorem runPrims_ok (L : Lawful st out Inv may) (l : List Prim) : ∀ {s : S}, Inv s →
    Done out Inv may s (l.map Prim.text).flatten (runPrims st s l) := by
  induction l with
  | nil => intro s hs; exact Done.nil hs
  | cons p t ih =>
    intro s hs
    cases p with
    | write bs => exact (L.write s bs hs).bind L fun s' h' _ => ih h'
    | put c => exact (put_ok L hs c).bind L fun s' h' _ => ih h'

theorem controlScatter_ok (L : Lawful st out Inv may) {s : S} (hs : Inv s) (line : Bool) (i : Item) :
    Done out Inv may s (i.text ++ lf line) (controlScatter st line s i) := by
  unfold controlScatter
  cases line
  · simpa [lf] using L.write s i.text hs
  · simp only [if_true, lf]
    split_ifs with h1 h2 h3
    · exact L.contiguous h1 _
    · exact L.push _ _ hs (by rw [List.length_append]; simp; omega)
    · exact L.push _ _ hs (by rw [List.length_append]; simp; omega)
    · exact (L.write s i.text hs).bind L fun s' h' _ => put_ok L h' 10

theorem prepare_ok (L : Lawful st out Inv may) {n : Nat} {f : S → R S} (hc : st.const = some (n, f)) {s : S} (hs : Inv s)
    {g : S → R S} {bs : List Nat} (hg : ∀ s', Inv s' → out s' = out s → n ≤ st.room s' → Done out Inv may s' bs (g s')) :
    Done out Inv may s bs (f s >>= g) := by
  have := L.const n f hc s hs
  match hr : f s, this with
  | .ok s', this =>
    have h := hg s' this.1 this.2.1 this.2.2
    show Done out Inv may s bs (g s')
    match g s', h with
    | .ok s'', h => exact ⟨h.1, by rw [h.2, this.2.1]⟩
    | .error .stop, h => exact (by
      show may (out s ++ bs).length
      rw [← this.2.1]; exact h)
  | .error .stop, this => exact this _

theorem controlReserve_ok (L : Lawful st out Inv may) {s : S} (hs : Inv s) (line : Bool) {i : Item} {n : Nat}
    (h : i.text.length + i.junk.length ≤ n) : Done out Inv may s (i.text ++ lf line) (controlReserve st line s n i) := by
  unfold controlReserve
  simp only []
  by_cases h1 : st.contiguous = true
  · rw [if_pos h1]
    split_ifs with h2
    · exact L.contiguous h1 _
    · exact place_ok L hs (by omega)
  · rw [if_neg h1]
    split
    · rename_i m f hc
      have hc' := Option.filter_eq_some_iff.1 hc
      have hlt : n + line.toNat < m := of_decide_eq_true hc'.2
      split_ifs with h3
      · exact place_ok L hs (by omega)
      · exact prepare_ok L hc'.1 hs fun s' h' _ hr => place_ok L h' (by omega)
    · split_ifs with h3
      · exact place_ok L hs (by omega)
      · rw [intoArray_ok (by omega)]
        exact L.write s _ hs

theorem controlDynamic_ok (L : Lawful st out Inv may) {s : S} (hs : Inv s) (line : Bool) {i : Item} {n : Nat}
    (h : i.text.length + i.junk.length ≤ n) (hn : n < 2 ^ 63 - 2) (hc : st.contiguous = false) :
    Done out Inv may s (i.text ++ lf line) (controlDynamic st line s n i) := by
  unfold controlDynamic
  rw [if_neg (by omega)]
  simp only [hc, Bool.false_eq_true, if_false]
  split_ifs with h3
  · exact place_ok L hs (by omega)
  · rw [intoArray_ok (by omega)]
    exact L.write s _ hs

/-- The argument can be printed on the stream: one whose size depends on its value cannot on a `contiguous` one. -/
def Fits (st : Stream S) (i : Item) : Prop := st.contiguous = true → i.scatter = true ∨ i.reserve ≠ none ∨ i.dynamic = none

theorem control_ok (L : Lawful st out Inv may) {s : S} (hs : Inv s) (line : Bool) {i : Item} (hi : i.Honest) (hf : Fits st i) :
    Done out Inv may s (i.text ++ lf line) (control st line s i) := by
  unfold control
  by_cases h1 : i.scatter = true
  · rw [if_pos h1]; exact controlScatter_ok L hs line i
  · rw [if_neg h1]
    split
    · rename_i n hn
      exact controlReserve_ok L hs line (hi.reserve_ok n hn)
    · rename_i hn
      split
      · rename_i m hm
        refine controlDynamic_ok L hs line (hi.dynamic_ok m hm) (hi.dynamic_small m hm) ?_
        by_contra hc
        rcases hf (by simpa using hc) with h | h | h
        · exact h1 h
        · exact h hn
        · rw [hm] at h; cases h
      · rename_i hm
        split
        · rename_i l hl
          refine (hi.custom_ok l hl) ▸ (runPrims_ok L l hs).bind L fun s' h' _ => ?_
          cases line
          · exact Done.nil h'
          · exact put_ok L h' 10
        · rename_i hl
          rcases hi.some_way with h | h | h | h
          · exact h1 h
          · exact h hn
          · exact h hm
          · exact h hl

theorem totalPara_le (l : List Item) : (totalPara l).1 ≤ l.length := by
  induction l with
  | nil => simp [totalPara]
  | cons i rest ih =>
    unfold totalPara
    cases i.reserve with
    | none => simp
    | some n =>
      simp only []
      split_ifs with h1 h2 h3
      · simp
      · simp
      · simp only [List.length_cons]; omega
      · simp only [List.length_cons]; omega

theorem totalPara_size (l : List Item) (hl : l.length < 2 ^ 53) :
    (totalPara l).2 ≤ 512 * l.length ∧
    (totalPara l).2 = ((l.take (totalPara l).1).map fun i => i.reserve.getD 0).sum ∧
    ∀ i ∈ l.take (totalPara l).1, i.reserve ≠ none := by
  induction l with
  | nil => simp [totalPara]
  | cons i rest ih =>
    rw [List.length_cons] at hl
    unfold totalPara
    cases hr : i.reserve with
    | none => simp
    | some n =>
      simp only []
      have ih := ih (by omega)
      split_ifs with h1 h2 h3
      · simp
      · subst h2; simp [hr]; omega
      · have := ih.1
        omega
      · refine ⟨by simp only [List.length_cons]; omega, ?_, ?_⟩
        · simp only [List.take_succ_cons, List.map_cons, List.sum_cons, hr, Option.getD_some]
          rw [← ih.2.1]; omega
        · simp only [List.take_succ_cons, List.mem_cons, forall_eq_or_imp]
          exact ⟨by simp [hr], ih.2.2⟩

theorem storeAt_ok {mem : List Nat} {off : Nat} {bs : List Nat} (h : off + bs.length ≤ mem.length) :
    ∃ m, storeAt mem off bs = .ok m ∧ m.length = mem.length ∧ m.take off = mem.take off ∧
      m.take (off + bs.length) = mem.take off ++ bs := by
  refine ⟨_, if_pos h, ?_, ?_, ?_⟩
  · simp; omega
  · rw [List.append_assoc, List.take_append_of_le_length (by simp; omega), List.take_take, Nat.min_self]
  · rw [List.take_append_of_le_length (by simp; omega)]
    apply List.take_of_length_le
    simp; omega

/-- A chain of arguments of announced sizes. -/
theorem chainMem_ok (junk : Item → Bool) (line : Bool) (sz : Item → Nat) (l : List Item)
    (hr : ∀ i ∈ l, (i.text ++ if junk i then i.junk else []).length ≤ sz i) : ∀ mem pos,
    pos + (l.map sz).sum + line.toNat ≤ mem.length →
    chainMem junk line mem pos l = .ok (mem.take pos ++ ((l.map Item.text).flatten ++ lf line)) ∧
      ((l.map Item.text).flatten ++ lf line).length ≤ (l.map sz).sum + line.toNat := by
  induction l with
  | nil =>
    intro mem pos h
    unfold chainMem
    cases line with
    | false => simp [lf]
    | true =>
      simp only [List.map_nil, List.sum_nil, Bool.toNat_true] at h
      obtain ⟨m, e, _, _, g⟩ := storeAt_ok (mem := mem) (off := pos) (bs := [10]) (by simpa using h)
      rw [if_pos rfl, e]
      refine ⟨?_, by simp [lf]⟩
      show Except.ok (m.take (pos + 1)) = _
      simp only [List.length_singleton] at g
      rw [g]; simp [lf]
  | cons i rest ih =>
    intro mem pos h
    have hs := hr i (by simp)
    simp only [List.map_cons, List.sum_cons] at h ⊢
    obtain ⟨m, e, g1, g2, g3⟩ := storeAt_ok (mem := mem) (off := pos) (bs := i.text ++ if junk i then i.junk else []) (by omega)
    have hlen : i.text.length ≤ (i.text ++ if junk i then i.junk else []).length := by simp
    have := ih (fun j hj => hr j (by simp [hj])) m (pos + i.text.length) (by omega)
    refine ⟨?_, by simp only [List.flatten_cons, List.length_append] at this ⊢; omega⟩
    have ht : m.take (pos + i.text.length) = mem.take pos ++ i.text := by
      have := congrArg (List.take (pos + i.text.length)) g3
      rw [List.take_take, Nat.min_eq_left (by omega), List.take_append, List.length_take, Nat.min_eq_left (by omega)] at this
      rw [this, List.take_of_length_le (by simp; omega), show pos + i.text.length - pos = i.text.length by omega]
      rw [List.take_append_of_le_length (Nat.le_refl _), List.take_length]
    unfold chainMem
    rw [e]
    show chainMem junk line m (pos + i.text.length) rest = _
    rw [this.1, ht]
    simp

theorem chainLine_ok (size : Nat) (line : Bool) (l : List Item) (hr : ∀ i ∈ l, i.Honest) (hn : ∀ i ∈ l, i.reserve ≠ none)
    (h : (l.map fun i => i.reserve.getD 0).sum + line.toNat ≤ size) :
    chainLine size line l = .ok ((l.map Item.text).flatten ++ lf line) ∧
    ((l.map Item.text).flatten ++ lf line).length ≤ (l.map fun i => i.reserve.getD 0).sum + line.toNat := by
  have := chainMem_ok (fun _ => true) line (fun i => i.reserve.getD 0) l (by
    intro i hi
    obtain ⟨n, hi'⟩ := Option.ne_none_iff_exists'.1 (hn i hi)
    have hs := (hr i hi).reserve_ok n hi'
    simpa [hi'] using hs) (List.replicate size 0) 0 (by simpa using h)
  simpa [chainLine] using this

theorem group_ok (L : Lawful st out Inv may) {s : S} (hs : Inv s) (line : Bool) (l : List Item) (hr : ∀ i ∈ l, i.Honest)
    (hn : ∀ i ∈ l, i.reserve ≠ none) {total : Nat} (ht : total = (l.map fun i => i.reserve.getD 0).sum) :
    Done out Inv may s ((l.map Item.text).flatten ++ lf line) (group st line s total l) := by
  subst ht
  unfold group
  simp only []
  split
  · rename_i m f hc
    have hc' := Option.filter_eq_some_iff.1 hc
    have hlt := of_decide_eq_true hc'.2
    have key : ∀ s', Inv s' → (l.map fun i => i.reserve.getD 0).sum + line.toNat ≤ st.room s' →
        Done out Inv may s' ((l.map Item.text).flatten ++ lf line)
          (chainLine (st.room s') line l >>= fun bs => .ok (st.push s' bs)) := by
      intro s' h' hroom
      have := chainLine_ok (st.room s') line l hr hn hroom
      rw [this.1]
      exact L.push _ _ h' (by omega)
    split_ifs with h3
    · exact key s hs (by omega)
    · exact prepare_ok L hc'.1 hs fun s' h' _ hroom => key s' h' (by simp only [] at hlt; omega)
  · have := chainLine_ok _ line l hr hn (Nat.le_refl _)
    rw [this.1]
    exact L.write s _ hs

theorem done_cast {s : S} {b1 b2 : List Nat} {r : R S} (h : Done out Inv may s b1 r) (e : b1 = b2) : Done out Inv may s b2 r := e ▸ h

theorem multiTotal_eq {n : Nat} {rest : List Item} (h : (multiTotal n rest).1 ≠ 0) :
    multiTotal n rest = ((totalPara rest).1, n + (totalPara rest).2) := by
  revert h
  unfold multiTotal
  by_cases h1 : 512 ≤ n ∨ rest = []
  · rw [if_pos h1]; intro h; exact absurd rfl h
  · rw [if_neg h1]
    simp only []
    by_cases h2 : 512 - n ≤ (totalPara rest).2
    · rw [if_pos h2]; intro h; exact absurd rfl h
    · rw [if_neg h2]; intro _; rfl

theorem multi_ok (L : Lawful st out Inv may) (line : Bool) (l : List Item) : ∀ (skip : Nat) {s : S}, Inv s →
    (∀ i ∈ l, i.Honest) → (∀ i ∈ l, Fits st i) → l.length < 2 ^ 53 → skip < l.length →
    Done out Inv may s (((l.drop skip).map Item.text).flatten ++ lf line) (multi st line skip s l) := by
  induction l with
  | nil => intro skip s hs hr hf hl hk; simp at hk
  | cons i rest ih =>
    intro skip s hs hr hf hl hk
    rw [List.length_cons] at hl hk
    have hr' : ∀ j ∈ rest, j.Honest := fun j hj => hr j (by simp [hj])
    have hf' : ∀ j ∈ rest, Fits st j := fun j hj => hf j (by simp [hj])
    cases skip with
    | succ k =>
      simp only [List.drop_succ_cons]
      exact ih k hs hr' hf' (by omega) (by omega)
    | zero =>
      have single : Done out Inv may s ((((i :: rest).drop 0).map Item.text).flatten ++ lf line)
          (if rest = [] then control st line s i else control st false s i >>= fun s => multi st line 0 s rest) := by
        split_ifs with h
        · subst h
          exact done_cast (control_ok L hs line (hr i (by simp)) (hf i (by simp))) (by simp)
        · have h0 : 0 < rest.length := List.length_pos_iff.2 h
          exact done_cast ((control_ok L hs false (hr i (by simp)) (hf i (by simp))).bind L fun s' h' _ =>
            ih 0 h' hr' hf' (by omega) h0) (by simp [lf])
      unfold multi
      cases hi : i.reserve with
      | none => exact single
      | some n =>
        simp only []
        split_ifs with h1 h2 h2
        · -- a group
          have hT := totalPara_size rest (by omega)
          have hle := totalPara_le rest
          have hm := multiTotal_eq h1
          rw [hm] at h1 h2 ⊢
          simp only [ne_eq] at h1 h2 ⊢
          have hkl : (totalPara rest).1 < rest.length := by omega
          rw [decide_eq_false (by omega : ¬ rest.length = (totalPara rest).1), Bool.and_false]
          refine done_cast ((group_ok L hs false (i :: rest.take (totalPara rest).1) ?_ ?_ ?_).bind L fun s' h' _ =>
            ih (totalPara rest).1 h' hr' hf' (by omega) hkl) ?_
          · intro j hj
            rcases List.mem_cons.1 hj with h | h
            · exact h ▸ hr i (by simp)
            · exact hr' j (List.mem_of_mem_take h)
          · intro j hj
            rcases List.mem_cons.1 hj with h | h
            · subst h; simp [hi]
            · exact hT.2.2 j h
          · simp only [List.map_cons, List.sum_cons, hi, Option.getD_some]
            rw [hT.2.1]
          · have e : (rest.map Item.text).flatten = ((rest.take (totalPara rest).1).map Item.text).flatten ++
                ((rest.drop (totalPara rest).1).map Item.text).flatten := by
              rw [← List.flatten_append, ← List.map_append, List.take_append_drop]
            simp only [List.drop_zero, List.map_cons, List.flatten_cons, e, List.append_assoc]
            simp [lf]
        · -- the whole rest is one group
          have hT := totalPara_size rest (by omega)
          have hm := multiTotal_eq h1
          rw [hm] at h1 h2 ⊢
          simp only [ne_eq, not_not] at h1 h2 ⊢
          rw [decide_eq_true h2.symm, Bool.and_true]
          have e : rest.take (totalPara rest).1 = rest := by rw [h2, List.take_length]
          have g := group_ok L (may := may) hs line (i :: rest.take (totalPara rest).1) (total := n + (totalPara rest).2) (by
              intro j hj
              rcases List.mem_cons.1 hj with h | h
              · exact h ▸ hr i (by simp)
              · exact hr' j (List.mem_of_mem_take h)) (by
              intro j hj
              rcases List.mem_cons.1 hj with h | h
              · subst h; simp [hi]
              · exact hT.2.2 j h) (by
              simp only [List.map_cons, List.sum_cons, hi, Option.getD_some]
              rw [hT.2.1])
          have := g.bind L (b2 := []) (f := fun s => .ok s) fun s' h' _ => Done.nil h'
          refine done_cast this ?_
          rw [e]; simp
        · rw [if_pos h2] at single; exact single
        · rw [if_neg h2] at single; exact single

theorem oneByOne_ok (L : Lawful st out Inv may) (line : Bool) (l : List Item) : ∀ {s : S}, Inv s → l ≠ [] →
    (∀ i ∈ l, i.Honest) → (∀ i ∈ l, Fits st i) →
    Done out Inv may s ((l.map Item.text).flatten ++ lf line) (oneByOne st line s l) := by
  induction l with
  | nil => intro s _ h; exact absurd rfl h
  | cons i rest ih =>
    intro s hs _ hr hf
    cases rest with
    | nil => exact done_cast (control_ok L hs line (hr i (by simp)) (hf i (by simp))) (by simp)
    | cons j rest =>
      have := (control_ok L hs false (hr i (by simp)) (hf i (by simp))).bind L fun s' h' _ =>
        ih h' (by simp) (fun k hk => hr k (by simp [List.mem_cons.1 hk])) (fun k hk => hf k (by simp [List.mem_cons.1 hk]))
      exact done_cast this (by simp [lf])

theorem printBuffered_ok (L : Lawful st out Inv may) (opt line : Bool) (l : List Item) {s : S} (hs : Inv s)
    (hr : ∀ i ∈ l, i.Honest) (hf : ∀ i ∈ l, Fits st i) (hl : l.length < 2 ^ 53) :
    Done out Inv may s (expected line l) (printBuffered opt st line s l) := by
  unfold printBuffered expected
  rw [lf_def]
  by_cases h1 : l = []
  · subst h1
    cases line
    · exact Done.nil hs
    · exact put_ok L hs 10
  · rw [if_neg h1]
    cases opt
    · exact oneByOne_ok L line l hs h1 hr hf
    · exact multi_ok L line l 0 hs hr hf hl (List.length_pos_iff.2 h1)

end
end Verif.Print
