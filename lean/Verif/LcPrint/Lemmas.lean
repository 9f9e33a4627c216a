import Verif.LcPrint.Model
import Verif.Print.Lemmas4
import Verif.Print.Props
/-! # Lemmas on printing with a locale -/
namespace Verif.LcPrint
open Verif.Print

section
variable {S : Type} {st : Stream S} {out : S → List Nat} {Inv : S → Prop} {may : Nat → Prop}

/-- The argument can be printed on the stream. -/
def LcFits (st : Stream S) (a : LcArg) : Prop := a.localised = false → Fits st a.plain

theorem text_local {a : LcArg} (h : a.localised = true) : a.text = a.lcText := by simp [LcArg.text, h]

theorem text_plain {a : LcArg} (h : a.localised = false) : a.text = a.plain.text := by simp [LcArg.text, h]

theorem local_of_scatter {a : LcArg} (h : a.lcScatter = true) : a.localised = true := by simp [LcArg.localised, h]

theorem local_of_dynamic {a : LcArg} {n : Nat} (h : a.lcDynamic = some n) : a.localised = true := by simp [LcArg.localised, h]

theorem local_of_custom {a : LcArg} {l : List Prim} (h : a.lcCustom = some l) : a.localised = true := by simp [LcArg.localised, h]

theorem lcControl_ok (L : Lawful st out Inv may) {s : S} (hs : Inv s) (line : Bool) {a : LcArg} (ha : a.Honest)
    (hf : LcFits st a) : Done out Inv may s (a.text ++ lf line) (lcControl st line s a) := by
  unfold lcControl
  by_cases h1 : a.lcScatter = true
  · rw [if_pos h1, text_local (local_of_scatter h1)]
    exact controlScatter_ok L hs line a.asScatter
  · rw [if_neg h1]
    cases h2 : a.lcDynamic with
    | some n =>
      obtain ⟨g1, g2⟩ := ha.dynamic_ok n h2
      rw [text_local (local_of_dynamic h2)]
      simp only []
      split_ifs with h3 h4
      · refine place_ok (i := a.asDynamic n) L hs ?_
        show a.lcText.length + a.lcJunk.length + line.toNat ≤ st.room s
        omega
      · omega
      · rw [intoArray_ok (i := a.asDynamic n) (by show a.lcText.length + a.lcJunk.length + line.toNat ≤ n + line.toNat; omega)]
        exact L.write s _ hs
    | none =>
      cases h3 : a.lcCustom with
      | some l =>
        rw [text_local (local_of_custom h3)]
        refine (ha.custom_ok l h3) ▸ (runPrims_ok L l hs).bind L fun s' h' _ => ?_
        cases line
        · exact Done.nil h'
        · exact put_ok L h' 10
      | none =>
        have hl : a.localised = false := by simp [LcArg.localised, h1, h2, h3]
        rw [text_plain hl]
        exact control_ok L hs line (ha.plain_ok hl) (hf hl)

theorem lcFold_ok (L : Lawful st out Inv may) (l : List LcArg) : ∀ {s : S}, Inv s → (∀ a ∈ l, a.Honest) →
    (∀ a ∈ l, LcFits st a) → Done out Inv may s (l.map LcArg.text).flatten (lcFold st s l) := by
  induction l with
  | nil => intro s hs _ _; exact Done.nil hs
  | cons a rest ih =>
    intro s hs hr hf
    have := (lcControl_ok L hs false (hr a (by simp)) (hf a (by simp))).bind L fun s' h' _ =>
      ih h' (fun b hb => hr b (by simp [hb])) (fun b hb => hf b (by simp [hb]))
    exact done_cast this (by simp [lf])

theorem plain_of_not_any {l : List LcArg} (h : ¬ l.any LcArg.localised = true) {a : LcArg} (ha : a ∈ l) : a.localised = false := by
  cases hx : a.localised with
  | false => rfl
  | true => exact absurd (List.any_eq_true.2 ⟨a, ha, hx⟩) h

theorem plain_texts {l : List LcArg} (h : ∀ a ∈ l, a.localised = false) :
    (l.map LcArg.plain).map Item.text = l.map LcArg.text := by
  rw [List.map_map]
  exact List.map_congr_left fun a ha => (text_plain (h a ha)).symm

theorem plain_expected {l : List LcArg} (line : Bool) (h : ∀ a ∈ l, a.localised = false) :
    expected line (l.map LcArg.plain) = lcExpected line l := by
  simp only [expected, lcExpected, plain_texts h]

theorem plain_honest {l : List LcArg} (hr : ∀ a ∈ l, a.Honest) (h : ∀ a ∈ l, a.localised = false) :
    ∀ i ∈ l.map LcArg.plain, i.Honest := by
  intro i hi
  obtain ⟨a, ha, rfl⟩ := List.mem_map.1 hi
  exact (hr a ha).plain_ok (h a ha)

theorem lcControls_ok (L : Lawful st out Inv may) (opt line : Bool) (l : List LcArg) : ∀ {s : S}, Inv s → l ≠ [] →
    (∀ a ∈ l, a.Honest) → (∀ a ∈ l, LcFits st a) → l.length < 2 ^ 53 →
    Done out Inv may s (lcExpected line l) (lcControls opt st line s l) := by
  induction l with
  | nil => intro s _ h; exact absurd rfl h
  | cons a rest ih =>
    intro s hs _ hr hf hl
    cases rest with
    | nil => exact done_cast (lcControl_ok L hs line (hr a (by simp)) (hf a (by simp))) (by simp [lcExpected, lf])
    | cons b rest =>
      have hr' : ∀ c ∈ b :: rest, c.Honest := fun c hc => hr c (List.mem_cons_of_mem _ hc)
      have hf' : ∀ c ∈ b :: rest, LcFits st c := fun c hc => hf c (List.mem_cons_of_mem _ hc)
      have hl' : (b :: rest).length < 2 ^ 53 := by simp only [List.length_cons] at hl ⊢; omega
      have key : ∀ s', Inv s' → Done out Inv may s' (lcExpected line (b :: rest))
          (if (b :: rest).any LcArg.localised then
            if line then lcControls opt st line s' (b :: rest) else lcFold st s' (b :: rest)
          else printBuffered opt st line s' ((b :: rest).map LcArg.plain)) := by
        intro s' h'
        split_ifs with h1 h2
        · exact ih h' (by simp) hr' hf' hl'
        · refine done_cast (lcFold_ok L _ h' hr' hf') ?_
          simp [lcExpected, h2]
        · have hp : ∀ c ∈ b :: rest, c.localised = false := fun c hc => plain_of_not_any h1 hc
          rw [← plain_expected line hp]
          refine printBuffered_ok L opt line _ h' (plain_honest hr' hp) ?_ (by simpa using hl')
          intro i hi
          obtain ⟨c, hc, rfl⟩ := List.mem_map.1 hi
          exact hf' c hc (hp c hc)
      have := (lcControl_ok L hs false (hr a (by simp)) (hf a (by simp))).bind L fun s' h' _ => key s' h'
      exact done_cast this (by simp [lcExpected, lf])

theorem lcPrintBuffered_ok (L : Lawful st out Inv may) (opt line : Bool) (l : List LcArg) {s : S} (hs : Inv s)
    (hr : ∀ a ∈ l, a.Honest) (hf : ∀ a ∈ l, LcFits st a) (hl : l.length < 2 ^ 53) :
    Done out Inv may s (lcExpected line l) (lcPrintBuffered opt st line s l) := by
  unfold lcPrintBuffered
  by_cases h1 : l = []
  · subst h1
    cases line
    · exact Done.nil hs
    · exact put_ok L hs 10
  · rw [if_neg h1]
    exact lcControls_ok L opt line l hs h1 hr hf hl

end

/-! ## Pieces -/

/-- What a piece is made of. -/
def LcArg.piece (a : LcArg) : Item :=
  if a.lcScatter then a.asScatter
  else
    match a.lcDynamic with
    | some n => a.asDynamic n
    | none => a.plain

theorem lcScatterOne_eq (ar : Arrays) (a : LcArg) : lcScatterOne ar a = scatterOne false ar a.piece := by
  unfold lcScatterOne LcArg.piece
  by_cases h1 : a.lcScatter = true
  · simp [h1, scatterOne, LcArg.asScatter]
  · simp only [if_neg h1]
    cases h2 : a.lcDynamic with
    | some n => simp [scatterOne, LcArg.asDynamic]
    | none => simp

theorem piece_plain {l : List LcArg} (h : l.all (fun b => !b.lcDynamic.isSome && !b.lcScatter) = true) :
    l.map LcArg.plain = l.map LcArg.piece := by
  refine List.map_congr_left fun a ha => ?_
  have := List.all_eq_true.1 h a ha
  simp only [Bool.and_eq_true, Bool.not_eq_true', Option.isSome_eq_false_iff, Option.isNone_iff_eq_none] at this
  simp [LcArg.piece, this.1, this.2]

theorem lcScatterAll_eq (l : List LcArg) : ∀ ar, lcScatterAll ar l = scatterAll false ar (l.map LcArg.piece) := by
  induction l with
  | nil => intro ar; rfl
  | cons a rest ih =>
    intro ar
    simp only [lcScatterAll, scatterAll, List.map_cons, lcScatterOne_eq]
    match scatterOne false ar a.piece with
    | .error e => rfl
    | .ok (ar', p) =>
      simp only []
      split_ifs with h
      · rw [piece_plain h]
        cases scatterAll false ar' (List.map LcArg.piece rest) <;> rfl
      · rw [ih]
        cases scatterAll false ar' (List.map LcArg.piece rest) <;> rfl

theorem piece_honest {a : LcArg} (ha : a.Honest) (hc : a.Coherent) (hp : a.piecewise = true) :
    a.piece.Honest ∧ a.piece.plain = true ∧ a.piece.text = a.text := by
  unfold LcArg.piece
  by_cases h1 : a.lcScatter = true
  · rw [if_pos h1, text_local (local_of_scatter h1)]
    exact ⟨⟨.inl rfl, by simp [LcArg.asScatter], by simp [LcArg.asScatter], by simp [LcArg.asScatter], by simp [LcArg.asScatter],
      by simp [LcArg.asScatter]⟩, rfl, rfl⟩
  · rw [if_neg h1]
    cases h2 : a.lcDynamic with
    | some n =>
      obtain ⟨g1, g2⟩ := ha.dynamic_ok n h2
      rw [text_local (local_of_dynamic h2)]
      refine ⟨⟨.inr (.inr (.inl (by simp [LcArg.asDynamic]))), by simp [LcArg.asDynamic], ?_, ?_, by simp [LcArg.asDynamic],
        by simp [LcArg.asDynamic]⟩, by simp [Item.plain, LcArg.asDynamic], rfl⟩
      · intro m hm
        cases hm
        exact g1
      · intro m hm
        cases hm
        exact g2
    | none =>
      have hpl : a.plain.plain = true := by simpa [LcArg.piecewise, h1, h2] using hp
      have hl : a.localised = false := by
        by_contra hx
        have hx : a.localised = true := by simpa using hx
        obtain ⟨p1, p2, p3⟩ := hc.1 hx (by simpa using h1) h2
        simp [Item.plain, p1, p2, p3] at hpl
      exact ⟨ha.plain_ok hl, hpl, (text_plain hl).symm⟩

theorem piece_reserve (a : LcArg) : a.piece.reserve.getD 0 ≤ a.plain.reserve.getD 0 := by
  unfold LcArg.piece
  split_ifs
  · simp [LcArg.asScatter]
  · cases a.lcDynamic <;> simp [LcArg.asDynamic]

theorem piece_reserveTotal (l : List LcArg) : reserveTotal (l.map LcArg.piece) ≤ reserveTotal (l.map LcArg.plain) := by
  induction l with
  | nil => simp
  | cons a t ih =>
    have := piece_reserve a
    simp only [reserveTotal, List.map_cons, List.sum_cons] at ih ⊢
    omega

theorem piece_dynamicTotal (l : List LcArg) : dynamicTotal (l.map LcArg.piece) ≤ lcDynamicTotal l := by
  induction l with
  | nil => simp [dynamicTotal, lcDynamicTotal]
  | cons a t ih =>
    simp only [dynamicTotal, lcDynamicTotal, List.map_cons, List.sum_cons] at ih ⊢
    refine Nat.add_le_add ?_ ih
    unfold LcArg.piece
    by_cases h1 : a.lcScatter = true
    · rw [if_pos h1]; simp [LcArg.asScatter]
    · rw [if_neg h1]
      cases h2 : a.lcDynamic with
      | some n => simp [LcArg.asDynamic]
      | none => simp

/-- The list of pieces carries the texts. -/
theorem lcScatterAll_ok {l : List LcArg} (hr : ∀ a ∈ l, a.Honest) (hc : ∀ a ∈ l, a.Coherent)
    (hp : l.all LcArg.piecewise = true) :
    ∃ ar ps, lcScatterAll ⟨List.replicate (reserveTotal (l.map LcArg.plain)) 0, List.replicate (lcDynamicTotal l) 0, 0, 0⟩ l = .ok (ar, ps) ∧
      (ps.map (Piece.read ar)).flatten = (l.map LcArg.text).flatten := by
  have h1 := piece_reserveTotal l
  have h2 := piece_dynamicTotal l
  rw [lcScatterAll_eq]
  obtain ⟨ar, ps, e, _, _, m⟩ := scatterAll_ok (rf := false) (l.map LcArg.piece) (by
    intro i hi
    obtain ⟨a, ha, rfl⟩ := List.mem_map.1 hi
    have := piece_honest (hr a ha) (hc a ha) (List.all_eq_true.1 hp a ha)
    exact ⟨this.1, this.2.1⟩)
    ⟨List.replicate (reserveTotal (l.map LcArg.plain)) 0, List.replicate (lcDynamicTotal l) 0, 0, 0⟩ (by simpa using h1) (by simpa using h2)
  refine ⟨ar, ps, e, m.trans ?_⟩
  rw [List.map_map]
  congr 1
  exact List.map_congr_left fun a ha => (piece_honest (hr a ha) (hc a ha) (List.all_eq_true.1 hp a ha)).2.2

theorem lcRanges_ok {l : List LcArg} (hc : ∀ a ∈ l, a.Coherent) (hs : (l.all fun a => a.plain.scatter || a.lcScatter) = true) :
    lcRanges l = l.map LcArg.text := by
  refine List.map_congr_left fun a ha => ?_
  by_cases h1 : a.lcScatter = true
  · rw [if_pos h1, text_local (local_of_scatter h1)]
  · rw [if_neg h1]
    have h2 : a.plain.scatter = true := by simpa [h1] using List.all_eq_true.1 hs a ha
    have hd : a.lcDynamic = none := by
      by_contra hx
      have := (hc a ha).2 hx (by simpa using h1)
      rw [h2] at this
      cases this
    refine (text_plain ?_).symm
    by_contra hx
    have := ((hc a ha).1 (by simpa using hx) (by simpa using h1) hd).1
    rw [h2] at this
    cases this

end Verif.LcPrint
