import Verif.Range.Spec
import Verif.Range.Model
import Verif.Print.Props
/-! # Lemmas on range views -/
namespace Verif.Range
open Verif.Print

theorem joined_cons (sep t : List Nat) (rest : List (List Nat)) :
    joined sep (t :: rest) = t ++ (rest.map (fun u => sep ++ u)).flatten := by
  induction rest generalizing t with
  | nil => simp [joined]
  | cons u r ih => simp [joined, ih]

/-- Storing over a part that was stored before. -/
theorem storeAt_over {mem a b j c : List Nat} {pos : Nat} (h1 : pos + (a ++ j).length ≤ mem.length)
    (h2 : pos + a.length + c.length ≤ mem.length) :
    storeAt mem pos (a ++ j) = .ok b → storeAt b (pos + a.length) c = storeAt mem pos (a ++ c ++ j.drop c.length) := by
  intro h
  rw [storeAt, if_pos h1] at h
  cases h
  have hlen : (mem.take pos ++ (a ++ j) ++ mem.drop (pos + (a ++ j).length)).length = mem.length := by
    simp only [List.length_append, List.length_take, List.length_drop] at *
    omega
  rw [storeAt, storeAt, if_pos (by rw [hlen]; exact h2), if_pos (by simp only [List.length_append, List.length_drop] at *; omega)]
  simp only [List.length_append] at h1
  congr 1
  apply List.ext_getElem?
  intro k
  simp only [List.getElem?_append, List.length_append, List.length_take, List.getElem?_take, List.getElem?_drop, List.length_drop,
    Nat.min_eq_left (show pos ≤ mem.length by omega), Nat.min_eq_left (show pos + a.length ≤ pos + (a.length + j.length) + (mem.length - (pos + (a.length + j.length))) by omega)]
  split_ifs <;> first | rfl | omega | (congr 1; omega)

theorem storeAt_some {mem bs : List Nat} {pos : Nat} (h : pos + bs.length ≤ mem.length) : ∃ b, storeAt mem pos bs = .ok b :=
  ⟨_, if_pos h⟩

/-- What the loop leaves: text, and a rest that depends only on what was printed. -/
theorem defineRest_ok (sep : List Nat) (sz : Item → Nat) (rest : List Item) (hr : ∀ i ∈ rest, i.text.length + i.junk.length ≤ sz i) :
    ∀ (a j : List Nat) (A : Nat), a.length + j.length ≤ A → ∃ j' : List Nat,
      (a ++ (rest.map fun i => sep ++ i.text).flatten).length + j'.length ≤ A + (rest.map fun i => sep.length + sz i).sum ∧
      ∀ mem pos b, pos + A + (rest.map fun i => sep.length + sz i).sum ≤ mem.length → storeAt mem pos (a ++ j) = .ok b →
        ∃ m, storeAt mem pos (a ++ (rest.map fun i => sep ++ i.text).flatten ++ j') = .ok m ∧
          defineRest sep b (pos + a.length) rest = .ok (m, pos + (a ++ (rest.map fun i => sep ++ i.text).flatten).length) := by
  induction rest with
  | nil =>
    intro a j A h
    refine ⟨j, by simpa using h, ?_⟩
    intro mem pos b _ hb
    exact ⟨b, by simpa using hb, by simp [defineRest]⟩
  | cons i rest ih =>
    intro a j A h
    have hi := hr i (by simp)
    set j1 := j.drop sep.length with hj1
    have l1 : j1.length = j.length - sep.length := by simp [hj1]
    set j2 := i.junk ++ j1.drop (i.text ++ i.junk).length with hj2
    have l2 : j2.length = i.junk.length + (j1.length - (i.text.length + i.junk.length)) := by simp [hj2]
    obtain ⟨j', b1, b2⟩ := ih (fun k hk => hr k (by simp [hk])) (a ++ sep ++ i.text) j2 (A + (sep.length + sz i)) (by
      simp only [List.length_append]; omega)
    refine ⟨j', ?_, ?_⟩
    · simp only [List.map_cons, List.flatten_cons, List.length_append, List.sum_cons] at b1 ⊢
      omega
    · intro mem pos b hm hb
      simp only [List.map_cons, List.sum_cons] at hm
      have e1 := storeAt_over (mem := mem) (a := a) (j := j) (c := sep) (pos := pos) (b := b)
        (by simp only [List.length_append]; omega) (by omega) hb
      obtain ⟨c, hc⟩ := storeAt_some (mem := mem) (pos := pos) (bs := a ++ sep ++ j.drop sep.length) (by
        simp only [List.length_append, List.length_drop]; omega)
      have e2 := storeAt_over (mem := mem) (a := a ++ sep) (j := j1) (c := i.text ++ i.junk) (pos := pos) (b := c)
        (by simp only [List.length_append]; omega) (by simp only [List.length_append]; omega) hc
      have e3 : a ++ sep ++ (i.text ++ i.junk) ++ j1.drop (i.text ++ i.junk).length = a ++ sep ++ i.text ++ j2 := by
        simp [hj2]
      rw [e3] at e2
      obtain ⟨d, hd⟩ := storeAt_some (mem := mem) (pos := pos) (bs := a ++ sep ++ i.text ++ j2) (by
        simp only [List.length_append]; omega)
      obtain ⟨m, m1, m2⟩ := b2 mem pos d (by omega) hd
      refine ⟨m, ?_, ?_⟩
      · rw [← m1]; simp
      · unfold defineRest
        rw [e1, hc]
        show (storeAt c (pos + a.length + sep.length) (i.text ++ i.junk) >>= _) = _
        rw [show pos + a.length + sep.length = pos + (a ++ sep).length by simp; omega, e2, hd]
        show defineRest sep d (pos + (a ++ sep).length + i.text.length) rest = _
        rw [show pos + (a ++ sep).length + i.text.length = pos + (a ++ sep ++ i.text).length by simp; omega, m2]
        simp

/-- The whole view. -/
theorem define_ok (v : Sized) (sz : Item → Nat) (hr : ∀ i ∈ v.elems, i.text.length + i.junk.length ≤ sz i) : ∃ j : List Nat,
    (joined v.sep (v.elems.map Item.text)).length + j.length ≤ (v.elems.map sz).sum + v.sep.length * (v.elems.length - 1) ∧
    ∀ mem pos, pos + ((v.elems.map sz).sum + v.sep.length * (v.elems.length - 1)) ≤ mem.length →
      ∃ m, storeAt mem pos (joined v.sep (v.elems.map Item.text) ++ j) = .ok m ∧
        v.define mem pos = .ok (m, pos + (joined v.sep (v.elems.map Item.text)).length) := by
  obtain ⟨er, sep, elems⟩ := v
  cases elems with
  | nil =>
    refine ⟨[], by simp [joined], fun mem pos h => ⟨mem, ?_, by simp [Sized.define, joined]⟩⟩
    simp only [List.map_nil, List.sum_nil] at h
    simp [joined, storeAt]
    omega
  | cons i rest =>
    have hi := hr i (by simp)
    have hs : ∀ l : List Item, (l.map fun i => sep.length + sz i).sum = (l.map sz).sum + sep.length * l.length := by
      intro l
      induction l with
      | nil => rfl
      | cons k l ih => simp only [List.map_cons, List.sum_cons, ih, List.length_cons, Nat.mul_succ]; omega
    obtain ⟨j', b1, b2⟩ := defineRest_ok sep sz rest (fun k hk => hr k (by simp [hk])) i.text i.junk (sz i) hi
    have e : joined sep (i.text :: rest.map Item.text) = i.text ++ (rest.map fun i => sep ++ i.text).flatten := by
      rw [joined_cons, List.map_map]; rfl
    rw [hs] at b1 b2
    simp only [e, List.map_cons, List.sum_cons, List.length_cons, Nat.add_sub_cancel]
    refine ⟨j', by omega, ?_⟩
    intro mem pos hm
    obtain ⟨b, hb⟩ := storeAt_some (mem := mem) (pos := pos) (bs := i.text ++ i.junk) (by simp only [List.length_append]; omega)
    obtain ⟨m, m1, m2⟩ := b2 mem pos b (by omega) hb
    refine ⟨m, m1, ?_⟩
    show (storeAt mem pos (i.text ++ i.junk) >>= fun mem => defineRest sep mem (pos + i.text.length) rest) = _
    rw [hb]
    exact m2

/-! ## The loop with a stream -/

variable {S : Type} {st : Stream S} {out : S → List Nat} {Inv : S → Prop} {may : Nat → Prop}

theorem sepItem_honest (sep : List Nat) : (sepItem sep).Honest := by
  constructor <;> simp [sepItem]

theorem printRest_ok (L : Lawful st out Inv may) (opt : Bool) (sep : List Nat) (rest : List Item) (hr : ∀ i ∈ rest, i.Honest)
    (hf : ∀ i ∈ rest, Fits st i) : ∀ s, Inv s →
    Done out Inv may s (rest.map fun i => sep ++ i.text).flatten (printRest (fun s l => Print.printBuffered opt st false s l) sep s rest) := by
  induction rest with
  | nil => intro s hs; exact Done.nil hs
  | cons i rest ih =>
    intro s hs
    have h1 := printBuffered_ok L opt false [sepItem sep, i] hs
      (by intro k hk; simp only [List.mem_cons, List.not_mem_nil, or_false] at hk
          rcases hk with rfl | rfl; exact sepItem_honest _; exact hr _ (by simp))
      (by intro k hk; simp only [List.mem_cons, List.not_mem_nil, or_false] at hk
          rcases hk with rfl | rfl; exact fun _ => .inl rfl; exact hf _ (by simp)) (by simp)
    have := h1.bind L (f := fun s => printRest (fun s l => Print.printBuffered opt st false s l) sep s rest) fun s' h' _ =>
      ih (fun k hk => hr k (by simp [hk])) (fun k hk => hf k (by simp [hk])) s' h'
    refine done_cast this ?_
    simp [expected, sepItem]

theorem unsized_ok (L : Lawful st out Inv may) (opt line : Bool) (v : Unsized) (hr : ∀ i ∈ v.elems, i.Honest)
    (hf : ∀ i ∈ v.elems, Fits st i) (s : S) (hs : Inv s) :
    Done out Inv may s (joined v.sep (v.elems.map Item.text) ++ lf line) (v.printBuffered opt st line s) := by
  obtain ⟨sep, elems⟩ := v
  unfold Unsized.printBuffered
  refine Done.bind L ?_ fun s' h' _ => ?_
  · cases elems with
    | nil => exact Done.nil hs
    | cons i rest =>
      have h1 := printBuffered_ok L opt false [i] hs (by intro k hk; simp only [List.mem_singleton] at hk; subst hk; exact hr _ (by simp))
        (by intro k hk; simp only [List.mem_singleton] at hk; subst hk; exact hf _ (by simp)) (by simp)
      have := h1.bind L (f := fun s => printRest (fun s l => Print.printBuffered opt st false s l) sep s rest) fun s' h' _ =>
        printRest_ok L opt sep rest (fun k hk => hr k (by simp [hk])) (fun k hk => hf k (by simp [hk])) s' h'
      refine done_cast this ?_
      rw [List.map_cons, joined_cons, List.map_map]
      simp [expected]; rfl
  · cases line with
    | false => exact Done.nil h'
    | true => exact put_ok L h' 10

end Verif.Range
