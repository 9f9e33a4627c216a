import Verif.Range.Lemmas
import Mathlib.Tactic.NormNum
/-!
# C70: printing a range writes its elements with the separator between them
-/
namespace Verif.Range
open Verif.Print

/-- The view is built from elements that keep their promises: of one type, so that either all announce the size of the type or
each announces a size of its own. -/
structure Sized.Good (v : Sized) : Prop where
  honest : ∀ i ∈ v.elems, i.Honest
  typed : ∀ i ∈ v.elems, i.reserve = v.elemReserve
  dyn : v.elemReserve = none → ∀ i ∈ v.elems, i.dynamic ≠ none

/-- The argument of `print` that a view is: `print_reserve_size` is what the view announces, and on every array with that much
room behind `pos`, `print_reserve_define` stores the text and the rest of the item there, nothing else, and returns the
position behind the text. -/
structure Is (v : Sized) (i : Item) : Prop where
  way : i.scatter = false ∧ i.reserve = none ∧ i.dynamic = some v.size ∧ i.custom = none
  stores : ∀ mem pos, pos + v.size ≤ mem.length →
    v.define mem pos = .ok (mem.take pos ++ (i.text ++ i.junk) ++ mem.drop (pos + (i.text ++ i.junk).length), pos + i.text.length)

theorem is_of_define {v : Sized} {sz : Item → Nat} (hr : ∀ i ∈ v.elems, i.text.length + i.junk.length ≤ sz i)
    (h : (v.elems.map sz).sum + v.sep.length * (v.elems.length - 1) ≤ v.size) (hs : v.size < 2 ^ 63 - 2) :
    ∃ i : Item, Is v i ∧ i.Honest ∧ i.text = joined v.sep (v.elems.map Item.text) := by
  obtain ⟨j, b, d⟩ := define_ok v sz hr
  refine ⟨{ text := joined v.sep (v.elems.map Item.text), junk := j, dynamic := some v.size }, ⟨⟨rfl, rfl, rfl, rfl⟩, ?_⟩, ?_, rfl⟩
  · intro mem pos hm
    obtain ⟨m, m1, m2⟩ := d mem pos (by omega)
    rw [storeAt, if_pos (by simp only [List.length_append]; omega)] at m1
    cases m1
    exact m2
  · constructor <;> simp
    · omega
    · exact hs

/-- **C70, sized views.** A view of a range of known length, made by `rgvw`, announces enough room for all elements and
separators, stores exactly the joined text (never beyond the announced room) and returns its end; so it is an argument that
`print`, `println` and `concat` can handle like any other (C63, C38), standing for the joined text. The total announced size
has to fit the library's limit for one argument. -/
theorem c70_sized {v : Sized} (hg : v.Good) {n : Nat} (hn : v.elemReserve = some n)
    (hb : (n + v.sep.length) * v.elems.length < 2 ^ 63 - 2) :
    ∃ i : Item, Is v i ∧ i.Honest ∧ i.text = joined v.sep (v.elems.map Item.text) := by
  have hsz : v.size = (n + v.sep.length) * v.elems.length := by
    unfold Sized.size
    rw [hn]
    by_cases h0 : v.elems.length = 0
    · simp [h0]
    · rw [if_neg h0]
      have : n + v.sep.length ≤ (n + v.sep.length) * v.elems.length := Nat.le_mul_of_pos_right _ (by omega)
      show (n + v.sep.length) % 2 ^ 64 * v.elems.length % 2 ^ 64 = _
      rw [Nat.mod_eq_of_lt (show n + v.sep.length < 2 ^ 64 by omega), Nat.mod_eq_of_lt (by omega)]
  refine is_of_define (sz := fun _ => n) (fun i hi => ?_) ?_ (by omega)
  · exact (hg.honest i hi).reserve_ok n ((hg.typed i hi).trans hn)
  · have hsum : (v.elems.map fun _ => n).sum = n * v.elems.length := by
      induction v.elems with
      | nil => rfl
      | cons a l ih => rw [List.map_cons, List.sum_cons, ih, List.length_cons, Nat.mul_succ]; omega
    rw [hsz, hsum, Nat.add_mul]
    have := Nat.mul_le_mul_left v.sep.length (Nat.sub_le v.elems.length 1)
    omega

/-- **C70, sized views of elements whose values announce their sizes** (these are not made by `rgvw`, only directly). The same
holds if the separator is not empty. -/
theorem c70_sized_values_partial {v : Sized} (hg : v.Good) (hn : v.elemReserve = none) (hsep : v.sep ≠ [])
    (hb : v.sep.length * v.elems.length + (v.elems.map dynOf).sum < 2 ^ 63 - 2) :
    ∃ i : Item, Is v i ∧ i.Honest ∧ i.text = joined v.sep (v.elems.map Item.text) := by
  have hl : 0 < v.sep.length := List.length_pos_iff.2 hsep
  have hd : ∀ i ∈ v.elems, i.text.length + i.junk.length ≤ dynOf i := by
    intro i hi
    obtain ⟨k, hk⟩ := Option.ne_none_iff_exists'.1 (hg.dyn hn i hi)
    have := (hg.honest i hi).dynamic_ok k hk
    simpa [dynOf, hk] using this
  by_cases h0 : v.elems.length = 0
  · have he : v.elems = [] := List.length_eq_zero_iff.1 h0
    refine is_of_define (sz := dynOf) hd ?_ ?_ <;> simp [Sized.size, he]
  · have hm : 1 ≤ v.sep.length * v.elems.length := Nat.mul_pos hl (by omega)
    have hsz : v.size = v.sep.length * v.elems.length - 1 + (v.elems.map dynOf).sum := by
      unfold Sized.size
      rw [hn, if_neg h0]
      show (v.sep.length * v.elems.length + (2 ^ 64 - 1) + (v.elems.map dynOf).sum) % 2 ^ 64 = _
      rw [show v.sep.length * v.elems.length + (2 ^ 64 - 1) + (v.elems.map dynOf).sum =
        v.sep.length * v.elems.length - 1 + (v.elems.map dynOf).sum + 2 ^ 64 by omega, Nat.add_mod_right, Nat.mod_eq_of_lt (by omega)]
    refine is_of_define (sz := dynOf) hd ?_ (by omega)
    rw [hsz, Nat.mul_sub, Nat.mul_one]
    omega

/-- **C70, violated for an empty separator.** Two elements that each announce two characters need four; the view announces
three, and storing them in an array of that size goes beyond it. Without characters at all the announced size wraps around. -/
theorem c70_sized_values_violated :
    let i : Item := { text := [97, 98], dynamic := some 2 }
    (⟨none, [], [i, i]⟩ : Sized).Good ∧ (⟨none, [], [i, i]⟩ : Sized).size = 3 ∧
    (⟨none, [], [i, i]⟩ : Sized).define (List.replicate 3 0) 0 = .error .ub ∧
    (⟨none, [], [{ text := [], dynamic := some 0 }]⟩ : Sized).size = 2 ^ 64 - 1 := by
  refine ⟨⟨?_, ?_, ?_⟩, by decide +kernel, by decide +kernel, by decide +kernel⟩
  · intro i hi
    simp only [List.mem_cons, List.not_mem_nil, or_false, or_self] at hi
    subst hi
    constructor <;> simp
  · simp
  · simp

theorem wrap_aux (k : Nat) (h0 : k ≠ 0) (hk : 32 * k % 2 ^ 64 = 0) :
    ∃ v : Sized, v.Good ∧ v.elemReserve = some 20 ∧ v.elems.length = k ∧ v.size = 0 ∧ v.define [] 0 = .error .ub := by
  obtain ⟨m, rfl⟩ := Nat.exists_eq_succ_of_ne_zero h0
  refine ⟨⟨some 20, List.replicate 12 44, List.replicate (m + 1) { text := [48], reserve := some 20 }⟩, ⟨?_, ?_, by simp⟩, rfl,
    by simp, ?_, ?_⟩
  · intro i hi
    rw [List.eq_of_mem_replicate hi]
    constructor <;> simp
  · intro i hi
    rw [List.eq_of_mem_replicate hi]
  · simp only [Sized.size, List.length_replicate, Nat.succ_ne_zero, if_false]
    exact hk
  · rw [List.replicate_succ]
    rfl

/-- **C70, violated for very long ranges.** The announced size is computed modulo `2 ^ 64`: there is a view of `2 ^ 59` elements that
keep their promises (64-bit integers such as those of `std::views::iota`, and a separator of 12 characters) that announces
that no room is needed; the first element is stored outside. -/
theorem c70_wrap_violated :
    ∃ v : Sized, v.Good ∧ v.elemReserve = some 20 ∧ v.elems.length = 2 ^ 59 ∧ v.size = 0 ∧ v.define [] 0 = .error .ub :=
  wrap_aux _ (by norm_num) (by norm_num)

/-- Three integers and ", ". -/
def numbers : Sized := ⟨some 20, [44, 32],
  [{ text := [49], junk := [0, 0, 0], reserve := some 20 }, { text := [50, 51], junk := [7], reserve := some 20 },
   { text := [52], reserve := some 20 }]⟩

theorem numbers_good : numbers.Good where
  honest := by
    intro i hi
    simp only [numbers, List.mem_cons, List.not_mem_nil, or_false] at hi
    rcases hi with rfl | rfl | rfl <;> constructor <;> simp
  typed := by decide
  dyn := by simp [numbers]

example : ∃ i : Item, Is numbers i ∧ i.Honest ∧ i.text = [49, 44, 32, 50, 51, 44, 32, 52] := c70_sized numbers_good rfl (by decide)

example : numbers.define (List.replicate 70 0) 2 = .ok ([0, 0, 49, 44, 32, 50, 51, 44, 32, 52] ++ List.replicate 60 0, 10) := by decide +kernel

/-! ## Ranges of unknown length and elements without a size -/

/-- **C70, other views, buffered file.** `print` and `println` of a `range_view_t` append the joined text (and the line feed)
to a buffered file. -/
theorem c70_range_file {cfg : IoBuf.Cfg} (hb : 1 ≤ cfg.bfs) (opt line : Bool) (v : Unsized) (hr : ∀ i ∈ v.elems, i.Honest)
    (s : IoBuf.St) (hs : IoBuf.Inv cfg s) (hd : ∀ a ∈ s.dev.script, a = IoBuf.Answer.full) :
    ∃ s', v.printBuffered opt (fileStream cfg) line s = .ok s' ∧ IoBuf.Inv cfg s' ∧
      s'.dev.got ++ s'.held = s.dev.got ++ s.held ++ (joined v.sep (v.elems.map Item.text) ++ if line then [10] else []) := by
  have := unsized_ok (file_lawful hb) opt line v hr (fun i _ => by simp [Fits, fileStream]) s ⟨hs, hd⟩
  match hm : v.printBuffered opt (fileStream cfg) line s, this with
  | .ok s', this => exact ⟨s', rfl, this.1.1, this.2⟩
  | .error .stop, this => exact this.elim
  | .error .ub, this => exact this.elim

/-- **C70, other views, fixed space.** Printing to a view of a fixed space appends the joined text or ends the program. -/
theorem c70_range_view_partial (cap : Nat) (opt line : Bool) (v : Unsized) (hr : ∀ i ∈ v.elems, i.Honest)
    (hf : ∀ i ∈ v.elems, i.scatter = true ∨ i.reserve ≠ none ∨ i.dynamic = none) (l : List Nat) (h : l.length ≤ cap) :
    v.printBuffered opt (viewStream cap) line l = .ok (l ++ (joined v.sep (v.elems.map Item.text) ++ if line then [10] else [])) ∨
    v.printBuffered opt (viewStream cap) line l = .error .stop := by
  have := unsized_ok (view_lawful cap) opt line v hr (fun i hi _ => hf i hi) l h
  match hm : v.printBuffered opt (viewStream cap) line l, this with
  | .ok s', this => exact .inl (congrArg Except.ok this.2)
  | .error .stop, this => exact .inr rfl
  | .error .ub, this => exact this.elim

/-- **C70, other views, string.** Printing to a string appends the joined text. -/
theorem c70_range_string {c : StrCfg} (hc : c.Good) (ha : c.aux = true) (opt line : Bool) (v : Unsized)
    (hr : ∀ i ∈ v.elems, i.Honest) (s : Str) (hs : s.content.length ≤ s.cap) :
    ∃ s', v.printBuffered opt (strStream c) line s = .ok s' ∧ s'.content.length ≤ s'.cap ∧
      s'.content = s.content ++ (joined v.sep (v.elems.map Item.text) ++ if line then [10] else []) := by
  have := unsized_ok (str_lawful hc) opt line v hr (fun i _ => by simp [Fits, strStream]) s ⟨hs, by simp [ha]⟩
  match hm : v.printBuffered opt (strStream c) line s, this with
  | .ok s', this => exact ⟨s', rfl, this.1.1, this.2⟩
  | .error .stop, this => rw [Done, StrMay, ha] at this; exact absurd this.1 (by simp)
  | .error .ub, this => exact this.elim

theorem printRest_device (cfg : DevCfg) (sep : List Nat) (rest : List Item) (hr : ∀ i ∈ rest, i.Honest) : ∀ d : Dev,
    ∃ d', printRest (fun d l => Print.printDevice cfg false d l) sep d rest = .ok d' ∧
      d'.got = d.got ++ (rest.map fun i => sep ++ i.text).flatten := by
  induction rest with
  | nil => exact fun d => ⟨d, rfl, by simp⟩
  | cons i rest ih =>
    intro d
    have hi := hr i (by simp)
    obtain ⟨d1, e1, g1⟩ := c63_device cfg false d [sepItem sep, i]
      (by intro k hk; simp only [List.mem_cons, List.not_mem_nil, or_false] at hk
          rcases hk with rfl | rfl; exact sepItem_honest _; exact hi) (by simp)
      (by
        have h1 := hi.reserve_small
        have h2 := hi.dynamic_small
        constructor
        · cases hk : i.reserve with
          | none => simp [reserveTotal, sepItem, hk]
          | some n => have := h1 n hk; simp [reserveTotal, sepItem, hk]; omega
        · cases hk : i.reserve with
          | some n => simp [dynamicTotal, sepItem, hk]
          | none =>
            cases hd : i.dynamic with
            | none => simp [dynamicTotal, sepItem, hk, hd]
            | some n => have := h2 n hd; simp [dynamicTotal, sepItem, hk, hd]; omega)
      (by intro k hk; simp at hk)
    obtain ⟨d2, e2, g2⟩ := ih (fun k hk => hr k (by simp [hk])) d1
    refine ⟨d2, ?_, ?_⟩
    · show (Print.printDevice cfg false d [sepItem sep, i] >>= _) = _
      rw [e1]; exact e2
    · rw [g2, g1]; simp [expected, sepItem]

/-- **C70, other views, device without a buffer.** The joined text (and the line feed) reaches the device; a first element that
only has a `print_define` must not use `put`, which a device does not have. -/
theorem c70_range_device (cfg : DevCfg) (opt line : Bool) (d : Dev) (v : Unsized) (hr : ∀ i ∈ v.elems, i.Honest)
    (hc : line = false → ∀ i, v.elems.head? = some i → Compiles cfg false [i]) :
    ∃ d', v.printDevice cfg opt line d = .ok d' ∧
      d'.got = d.got ++ (joined v.sep (v.elems.map Item.text) ++ if line then [10] else []) := by
  unfold Unsized.printDevice
  cases line with
  | true =>
    have := unsized_ok Tmp.lawful opt true v hr (fun i _ => tmpFits i) ⟨[], d⟩ (by simp)
    rw [if_pos rfl]
    match hm : v.printBuffered opt tmpStream true ⟨[], d⟩, this with
    | .ok t, this =>
      refine ⟨t.flush.dev, rfl, ?_⟩
      rw [Tmp.flush_got, this.2]
      simp [Tmp.out, lf]
    | .error .stop, this => exact this.elim
    | .error .ub, this => exact this.elim
  | false =>
    obtain ⟨sep, elems⟩ := v
    rw [if_neg (by simp)]
    cases elems with
    | nil => exact ⟨d, rfl, by simp [joined]⟩
    | cons i rest =>
      have hi := hr i (by simp)
      obtain ⟨d1, e1, g1⟩ := c63_device cfg false d [i] (by intro k hk; simp only [List.mem_singleton] at hk; subst hk; exact hi) (by simp)
        (by
          constructor
          · cases hk : i.reserve with
            | none => simp [reserveTotal, hk]
            | some n => have := hi.reserve_small n hk; simp [reserveTotal, hk]; omega
          · cases hk : i.reserve with
            | some n => simp [dynamicTotal, hk]
            | none =>
              cases hd : i.dynamic with
              | none => simp [dynamicTotal, hk, hd]
              | some n => have := hi.dynamic_small n hd; simp [dynamicTotal, hk, hd]; omega)
        (hc rfl i rfl)
      obtain ⟨d2, e2, g2⟩ := printRest_device cfg sep rest (fun k hk => hr k (by simp [hk])) d1
      refine ⟨d2, ?_, ?_⟩
      · show (Print.printDevice cfg false d [i] >>= _) = _
        rw [e1]; exact e2
      · rw [g2, g1, List.map_cons, joined_cons, List.map_map]
        simp [expected]; rfl

/-- `print` of what `rgvw` returned, to a buffered file. -/
def View.Prints (w : View) (opt : Bool) (cfg : IoBuf.Cfg) (line : Bool) (s s' : IoBuf.St) : Prop :=
  match w with
  | .sized v => ∃ i, Is v i ∧ printBuffered opt (fileStream cfg) line s [i] = .ok s'
  | .unsized v => v.printBuffered opt (fileStream cfg) line s = .ok s'

/-- **C70.** For every range, whether its length is known and whatever its elements are, `print(out, rgvw(range, sep))` to a
buffered file appends the texts of the elements with `sep` between neighbours. -/
theorem c70_rgvw {cfg : IoBuf.Cfg} (hb : 1 ≤ cfg.bfs) (opt line contiguous sizedRange : Bool) (er : Option Nat) (sep : List Nat)
    (elems : List Item) (hr : ∀ i ∈ elems, i.Honest ∧ i.reserve = er) (hs : (er.getD 0 + sep.length) * elems.length < 2 ^ 63 - 2)
    (s : IoBuf.St) (hi : IoBuf.Inv cfg s) (hd : ∀ a ∈ s.dev.script, a = IoBuf.Answer.full) :
    ∃ s', (rgvw contiguous sizedRange er sep elems).Prints opt cfg line s s' ∧ IoBuf.Inv cfg s' ∧
      s'.dev.got ++ s'.held = s.dev.got ++ s.held ++ (joined sep (elems.map Item.text) ++ if line then [10] else []) := by
  have hu := c70_range_file hb opt line ⟨sep, elems⟩ (fun i h => (hr i h).1) s hi hd
  cases er with
  | none => exact hu
  | some n =>
    unfold rgvw
    simp only []
    by_cases hk : (contiguous || sizedRange) = true
    · rw [if_pos hk]
      obtain ⟨i, h1, h2, h3⟩ := c70_sized (v := ⟨some n, sep, elems⟩) ⟨fun i h => (hr i h).1, fun i h => (hr i h).2, by simp⟩ rfl hs
      obtain ⟨s', e, g1, g2⟩ := c63_file hb opt line [i] (by intro k hk; simp only [List.mem_singleton] at hk; subst hk; exact h2)
        (by simp) s hi hd
      refine ⟨s', ⟨i, h1, e⟩, g1, ?_⟩
      rw [g2]
      simp only at h3
      simp [expected, h3]
    · rw [if_neg hk]
      exact hu

example : ∃ s', (rgvw true true (some 20) [44, 32] numbers.elems).Prints true ⟨8, true⟩ true ⟨none, ⟨[], []⟩⟩ s' ∧
    IoBuf.Inv ⟨8, true⟩ s' ∧ s'.dev.got ++ s'.held = [49, 44, 32, 50, 51, 44, 32, 52, 10] :=
  c70_rgvw (by decide) true true true true _ _ _ (fun i h => ⟨numbers_good.honest i h, numbers_good.typed i h⟩) (by decide) _
    (by simp [IoBuf.Inv]) (by simp)

/-- Texts of unknown size: an argument with only a `print_define` first. -/
example : ∃ d', (⟨[44], [sample[0], sample[4], sample[3]]⟩ : Unsized).printDevice ⟨true, true⟩ true false ⟨[[1]]⟩ = .ok d' ∧
    d'.got = [1, 97, 98, 44, 40, 41, 44, 120, 121] := by
  obtain ⟨d', e, g⟩ := c70_range_device ⟨true, true⟩ true false ⟨[[1]]⟩ ⟨[44], [sample[0], sample[4], sample[3]]⟩
    (by intro i hi; simp only [List.mem_cons, List.not_mem_nil, or_false] at hi
        rcases hi with rfl | rfl | rfl <;> exact sample_honest _ (by simp [sample]))
    (by intro _ i hi; cases hi; simp [Compiles, Item.onlyCustom, sample])
  exact ⟨d', e, by rw [g]; decide⟩

end Verif.Range
