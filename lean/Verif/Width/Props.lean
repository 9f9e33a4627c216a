import Verif.Copy.Props
import Verif.Width.Model
import Verif.IntPrint.Props
/-! Theorems about width formatting (C37) and `cond` (C61). -/
namespace Verif.Width
open Verif Verif.Copy

/-- `t` prints `txt` at `p` in the memory `m` within its announced size. -/
def Prints (t : Item) (txt : List Nat) (m : Mem) (p : Nat) : Prop :=
  match t with
  | .reserve size define => txt.length ≤ size ∧ ∃ m', define m p = some (m', p + txt.length) ∧
      load m' p txt.length = txt ∧ ∀ a, a < p ∨ p + size ≤ a → m' a = m a
  | .scatter base len => txt.length = len ∧ load m base len = txt ∧ (base + len ≤ p ∨ p + len ≤ base)

/-- What a field of `out` at `p` is: the characters are there and nothing changed outside of `size` characters. -/
def Holds (m m' : Mem) (p size : Nat) (out : List Nat) : Prop :=
  load m' p out.length = out ∧ out.length ≤ size ∧ ∀ a, a < p ∨ p + size ≤ a → m' a = m a

theorem myCopy_run (m : Mem) (s n d : Nat) : (myCopy false m s (s + n) d).1 = store m d (load m s n) := by
  have e : s + n - s = n := by omega
  simp only [myCopy, myCopyN, e, Bool.false_eq_true, if_false, memmove]
  by_cases hn : n = 0 <;> simp [hn, load]

/-- The copies of the width functions, at run time or without overlap. -/
theorem myCopy_store (constant : Bool) (m : Mem) (s n d : Nat) (h : constant = true → s + n ≤ d ∨ d ≤ s) :
    (myCopy constant m s (s + n) d).1 = store m d (load m s n) := by
  cases constant
  · exact myCopy_run m s n d
  · have e : s + n - s = n := by omega
    simp only [myCopy, myCopyN, e, if_true]
    rw [copyNLoop_eq n m s d (by have := h rfl; omega)]

/-- Overwriting a run by a longer one. -/
theorem store_cover (m : Mem) (p : Nat) (l l' : List Nat) (h : l.length ≤ l'.length) :
    store (store m p l) p l' = store m p l' := by
  funext a
  simp only [store_apply]
  by_cases hp : p ≤ a
  · simp only [hp, if_true]
    by_cases h1 : a - p < l'.length
    · simp [h1]
    · have : l[a - p]? = none := List.getElem?_eq_none (by omega)
      simp [this]
  · simp [hp]

/-- Whether the copies of `handle_common_ch` are right at compile time. -/
def ConstantOk (pl : Placement) (shift w n : Nat) : Prop :=
  match pl with
  | .middle => w ≤ n + 1 ∨ n ≤ (w - n) / 2
  | .right => w ≤ n ∨ n ≤ w - n
  | .internal => w ≤ n ∨ n - shift ≤ w - n
  | _ => True

theorem handleCommon_eq (constant byteSized : Bool) (pl : Placement) (hpl : pl = .left ∨ pl = .middle ∨ pl = .right)
    (m : Mem) (first n wd ch : Nat) (hc : constant = true → ConstantOk pl 0 wd n) :
    handleCommon constant byteSized pl m first (first + n) wd ch =
      (store m first (pad pl 0 wd ch (load m first n)), first + (pad pl 0 wd ch (load m first n)).length) := by
  have e : first + n - first = n := by omega
  have hid : store m first (load m first n) = m := by
    funext a
    by_cases ha : a < first ∨ first + n ≤ a
    · exact store_outside m first _ a (by rw [load_length]; exact ha)
    · have := (store_delivers m first first n).1 (a - first) (by omega)
      rwa [show first + (a - first) = a by omega] at this
  have hl := load_length m first n
  rw [pad_length _ _ _ _ _ (by omega), hl]
  have hne : pl ≠ .none := by rcases hpl with h | h | h <;> rw [h] <;> simp
  simp only [if_neg hne]
  unfold handleCommon
  simp only [e, c48_fill]
  by_cases hw : wd ≤ n
  · rw [if_pos hw, Nat.max_eq_right hw]
    have hk : wd - n = 0 := by omega
    rcases hpl with h | h | h <;> subst h <;> simp [pad, hk, hid, hl]
  · rw [if_neg hw, Nat.max_eq_left (by omega)]
    have hk : n + (wd - n) = wd := by omega
    rcases hpl with h | h | h <;> subst h
    · simp only [if_true, Prod.mk.injEq, and_true]
      conv_lhs => rw [← hid]
      rw [store_store_at _ _ _ _ _ (by rw [hl])]
      simp [pad, hl]
    · simp only [reduceCtorEq, if_false, if_true, Prod.mk.injEq, and_true]
      rw [myCopy_store constant m first n _ (by intro h; have := hc h; simp only [ConstantOk] at this; omega)]
      rw [store_store_before m first (first + (wd - n) / 2) (List.replicate ((wd - n) / 2) ch) (load m first n) (by simp)]
      rw [store_store_at m first _ _ (List.replicate (wd - n - (wd - n) / 2) ch)
        (by rw [List.length_append, hl, List.length_replicate]; omega)]
      simp [pad, hl]
    · simp only [reduceCtorEq, if_false, Prod.mk.injEq, and_true]
      rw [myCopy_store constant m first n _ (by intro h; have := hc h; simp only [ConstantOk] at this; omega)]
      rw [store_store_before _ _ _ _ _ (by simp)]
      simp [pad, hl]

theorem handleRt_eq (constant byteSized : Bool) (pl : Placement) (hpl : pl ≠ .internal)
    (m : Mem) (first n wd ch : Nat) (hc : constant = true → ConstantOk pl 0 wd n) :
    handleRt constant byteSized pl m first (first + n) wd ch =
      (store m first (pad pl 0 wd ch (load m first n)), first + (pad pl 0 wd ch (load m first n)).length) := by
  have hid : store m first (load m first n) = m := by
    funext a
    by_cases ha : a < first ∨ first + n ≤ a
    · exact store_outside m first _ a (by rw [load_length]; exact ha)
    · have := (store_delivers m first first n).1 (a - first) (by omega)
      rwa [show first + (a - first) = a by omega] at this
  cases pl with
  | none => simp [handleRt, pad, hid, load_length]
  | left => rw [← handleCommon_eq constant byteSized .left (by simp) m first n wd ch hc]; simp [handleRt, handleCommon]
  | middle => rw [← handleCommon_eq constant byteSized .middle (by simp) m first n wd ch hc]; simp [handleRt, handleCommon]
  | right => rw [← handleCommon_eq constant byteSized .right (by simp) m first n wd ch hc]; simp [handleRt, handleCommon]
  | internal => exact absurd rfl hpl

theorem handleInternal_eq (constant byteSized : Bool) (m : Mem) (first n wd ch s : Nat) (hs : s ≤ n)
    (hc : constant = true → ConstantOk .internal s wd n) :
    handleInternal constant byteSized m first (first + n) wd ch s =
      (store m first (pad .internal s wd ch (load m first n)), first + (pad .internal s wd ch (load m first n)).length) := by
  have e : first + n - first = n := by omega
  have hl := load_length m first n
  have htake : (load m first n).take s = load m first s := by
    apply List.ext_getElem
    · simp [load]; omega
    · intro i h1 h2; simp [load]
  have hdrop : (load m first n).drop s = load m (first + s) (n - s) := by
    apply List.ext_getElem
    · simp [load]
    · intro i h1 h2; simp [load]; congr 1; omega
  rw [pad_length _ _ _ _ _ (by omega), hl]
  simp only [reduceCtorEq, if_false]
  unfold handleInternal
  simp only [e, c48_fill]
  have hself : ∀ q k, store m q (load m q k) = m := by
    intro q k
    funext a
    by_cases ha : a < q ∨ q + k ≤ a
    · exact store_outside m q _ a (by rw [load_length]; exact ha)
    · have := (store_delivers m q q k).1 (a - q) (by omega)
      rwa [show q + (a - q) = a by omega] at this
  by_cases hw : wd ≤ n
  · rw [if_pos (Or.inl hw), Nat.max_eq_right hw]
    have hk : wd - n = 0 := by omega
    simp [pad, hl, hk, hself]
  · rw [if_neg (by omega), Nat.max_eq_left (by omega)]
    have e2 : first + n = first + s + (n - s) := by omega
    have e3 : first + s + (n - s) - (first + s) = n - s := by omega
    have e4 : wd - s - (n - s) = wd - n := by omega
    rw [e2, e3, e4]
    refine Prod.ext ?_ (by simp only []; omega)
    simp only []
    rw [myCopy_store constant m (first + s) (n - s) _ (by intro h; have := hc h; simp only [ConstantOk] at this; omega)]
    rw [store_store_before m (first + s) (first + s + (wd - n)) (List.replicate (wd - n) ch) _ (by simp)]
    conv_lhs => rw [← hself first s]
    rw [store_store_at _ _ _ _ _ (by rw [load_length])]
    have : load (store m first (load m first s)) (first + s) (n - s) = load m (first + s) (n - s) := by rw [hself]
    rw [this]
    simp [pad, hl, htake, hdrop]

theorem load_eq (m : Mem) (p n : Nat) (l : List Nat) (hl : l.length = n) (h : ∀ i, (hi : i < n) → m (p + i) = l[i]) :
    load m p n = l := by
  apply List.ext_getElem
  · rw [load_length, hl]
  · intro i h1 h2
    simp only [load, List.getElem_map, List.getElem_range]
    exact h i (by omega)

theorem writeItem_spec (constant : Bool) (t : Item) (txt : List Nat) (m : Mem) (p : Nat) (h : Prints t txt m p) :
    ∃ m', writeItem constant t m p = some (m', p + txt.length) ∧ Holds m m' p (itemSize t) txt := by
  cases t with
  | reserve size define =>
    obtain ⟨hs, m', hd, hl, ho⟩ := h
    exact ⟨m', hd, hl, hs, ho⟩
  | scatter base len =>
    obtain ⟨hs, hl, hd⟩ := h
    obtain ⟨m', hm, hdel⟩ := (c48_non_overlapped_n constant m base len p).1 (by omega)
    refine ⟨m', by rw [hs]; exact hm, ?_, by rw [hs]; exact Nat.le_refl _, hdel.2⟩
    apply load_eq m' p txt.length txt rfl
    intro i hi
    rw [hdel.1 i (by omega)]
    subst hl
    simp [load]

theorem holds_store (m m1 : Mem) (p size w : Nat) (txt out : List Nat) (h : Holds m m1 p size txt)
    (hl : out.length ≤ max w txt.length) : Holds m (store m1 p out) p (if w < size then size else w) out := by
  refine ⟨load_store _ _ _, ?_, ?_⟩
  · have := h.2.1; split <;> omega
  · intro a ha
    have h2 := h.2.1
    have : p + max w size ≤ p + if w < size then size else w := by split <;> omega
    have hm : size ≤ (if w < size then size else w) ∧ w ≤ (if w < size then size else w) := by constructor <;> split <;> omega
    rw [store_outside m1 p out a (by omega), h.2.2 a (by omega)]

/-- **C37** (partial: at compile time only where no copy overlaps itself, see `c37_constant_violated`; the fill character
of `left` is `c37_fill_partial`): whatever is printed in a field with the placement in its type, the result is exactly the
text in its field, the returned position is behind it, and nothing outside the announced size is written. -/
theorem c37_width_partial (constant byteSized : Bool) (pl : Placement) (hpl : pl ≠ .none) (t : Item) (shift : Option Nat)
    (txt : List Nat) (hs : shift.getD 0 ≤ txt.length) (w ch : Nat)
    (hc : constant = true → ConstantOk pl (shift.getD 0) w txt.length)
    (m : Mem) (p : Nat) (h : Prints t txt m p) :
    ∃ m' out, InField pl (shift.getD 0) w ch txt out ∧
      defineWidth constant byteSized pl t shift m p w ch = some (m', p + out.length) ∧
      Holds m m' p (sizeWidth t w) out := by
  obtain ⟨m1, hm1, hh⟩ := writeItem_spec constant t txt m p h
  have hsz : sizeWidth t w = if w < itemSize t then itemSize t else w := by cases t <;> rfl
  refine ⟨store m1 p (pad pl (shift.getD 0) w ch txt), pad pl (shift.getD 0) w ch txt,
    (inField_iff _ _ _ _ _ _ hs).2 rfl, ?_, ?_⟩
  · unfold defineWidth
    rw [hm1]
    simp only [Option.map_some, Option.some.injEq]
    have hl := hh.1
    by_cases hi : pl = .internal
    · subst hi
      simp only [if_true]
      cases shift with
      | none =>
        rw [handleCommon_eq constant byteSized .right (by simp) m1 p txt.length w ch
          (by intro hx; have := hc hx; simp [ConstantOk] at this ⊢; omega), hl]
        simp [pad]
      | some s =>
        simp only [Option.getD_some] at hs hc ⊢
        rw [handleInternal_eq constant byteSized m1 p txt.length w ch s hs hc, hl]
    · rw [if_neg hi, handleCommon_eq constant byteSized pl (by cases pl <;> simp_all) m1 p txt.length w ch
        (by intro hx; have := hc hx; cases pl <;> simp_all [ConstantOk]), hl]
      cases pl <;> simp_all [pad]
  · rw [hsz]
    apply holds_store m m1 p _ w txt _ hh
    rw [pad_length _ _ _ _ _ hs]; split <;> omega

/-- **C37** (partial like `c37_width_partial`): the same for a placement given as an argument. -/
theorem c37_width_runtime_partial (constant byteSized : Bool) (pl : Placement) (t : Item) (shift : Option Nat)
    (txt : List Nat) (hs : shift.getD 0 ≤ txt.length) (w ch : Nat)
    (hc : constant = true → ConstantOk pl (shift.getD 0) w txt.length)
    (m : Mem) (p : Nat) (h : Prints t txt m p) :
    ∃ m' out, InField pl (shift.getD 0) w ch txt out ∧
      defineWidthRt constant byteSized pl t shift m p w ch = some (m', p + out.length) ∧
      Holds m m' p (sizeWidth t w) out := by
  obtain ⟨m1, hm1, hh⟩ := writeItem_spec constant t txt m p h
  have hsz : sizeWidth t w = if w < itemSize t then itemSize t else w := by cases t <;> rfl
  refine ⟨store m1 p (pad pl (shift.getD 0) w ch txt), pad pl (shift.getD 0) w ch txt,
    (inField_iff _ _ _ _ _ _ hs).2 rfl, ?_, ?_⟩
  · unfold defineWidthRt
    rw [hm1]
    simp only [Option.map_some, Option.some.injEq]
    have hl := hh.1
    by_cases hi : pl = .internal
    · subst hi
      simp only [if_true]
      cases shift with
      | none =>
        rw [handleRt_eq constant byteSized .right (by simp) m1 p txt.length w ch
          (by intro hx; have := hc hx; simp [ConstantOk] at this ⊢; omega), hl]
        simp [pad]
      | some s =>
        simp only [Option.getD_some] at hs hc ⊢
        rw [handleInternal_eq constant byteSized m1 p txt.length w ch s hs hc, hl]
    · rw [if_neg hi, handleRt_eq constant byteSized pl hi m1 p txt.length w ch
        (by intro hx; have := hc hx; cases pl <;> simp_all [ConstantOk]), hl]
      cases pl <;> simp_all [pad]
  · rw [hsz]
    apply holds_store m m1 p _ w txt _ hh
    rw [pad_length _ _ _ _ _ hs]; split <;> omega

/-- The text `abc` of the examples, a string elsewhere in memory. -/
def abc : Mem := fun a => if a = 100 then 97 else if a = 101 then 98 else if a = 102 then 99 else 0

example : Prints (.scatter 100 3) [97, 98, 99] abc 10 := by unfold Prints; decide +kernel
example : (defineWidth false true .middle (.scatter 100 3) none abc 10 8 42).map (fun r => (load r.1 9 10, r.2)) =
    some ([0, 42, 42, 97, 98, 99, 42, 42, 42, 0], 18) := by decide +kernel
example : ConstantOk .right 0 6 3 := by simp [ConstantOk]

/-- C37 violated: at compile time `right(abc,5,'*')` gives `**aba` - the copy to the back runs over its own source. -/
theorem c37_constant_violated :
    ∃ m', defineWidth true true .right (.scatter 100 3) none abc 10 5 42 = some (m', 15) ∧
      load m' 10 5 = [42, 42, 97, 98, 97] ∧ ¬ InField .right 0 5 42 [97, 98, 99] (load m' 10 5) := by
  refine ⟨_, rfl, by decide +kernel, ?_⟩
  rw [inField_iff _ _ _ _ _ _ (by decide)]
  decide +kernel

/-- **C37** (partial: not for `left` of an argument kept by reference): the fill character is the one given. -/
theorem c37_fill_partial (pl : Placement) (byReference : Bool) (ch : Nat) (h : ¬ (pl = .left ∧ byReference = true)) :
    frontFill pl byReference ch = ch := by simp [frontFill, h]

/-- C37 violated: `left(t,n,ch)` of an argument kept by reference fills with NUL whatever the character is. -/
theorem c37_fill_violated (ch : Nat) (hch : ch ≠ 0) :
    ∃ m' out, defineWidth false true .left (.scatter 100 3) none abc 10 5 (frontFill .left true ch) = some (m', 10 + out.length) ∧
      load m' 10 5 = out ∧ ¬ InField .left 0 5 ch [97, 98, 99] out := by
  have hf : frontFill .left true ch = 0 := by simp [frontFill]
  rw [hf]
  refine ⟨_, [97, 98, 99, 0, 0], rfl, by decide +kernel, ?_⟩
  rw [inField_iff _ _ _ _ _ _ (by decide)]
  intro h
  have := congrArg (fun l => l[3]?) h
  simp [pad] at this
  exact hch this.symm

/-! ## Integers in a field -/

/-- **C37** for integers: with `internal` the fill goes between the sign and the rest (base prefix and digits), with every
other placement it stays outside; the text is the one of C01-C03 (partial: the restrictions of C03 and C04 on bases). -/
theorem c37_integer_partial (bits : Nat) (hw : IntPrint.Width bits) (signed : Bool) (f : IntPrint.Fmt) (hfull : f.full = false)
    (hb2 : 2 ≤ f.base) (hb36 : f.base ≤ 36) (hsup : IntPrint.Supported bits f.base f.upper) (t : Int)
    (ht : IntPrint.InRange bits signed t)
    (hmin : signed = true → (∀ k, f.base ^ k ≠ 2 ^ (bits - 1)) ∨ t ≠ -(2 ^ (bits - 1) : Int))
    (byteSized : Bool) (pl : Placement) (w ch : Nat) (m : Mem) (p : Nat) :
    ∃ txt m' out, IntPrint.IsIntText f.base f.upper f.showbase f.upperShow f.showpos txt t ∧
      InField pl (IntPrint.signText f.showpos t).length w ch txt out ∧
      defineWidthRt false byteSized pl (intItem bits signed f t) (intShift signed f.showpos t) m p w ch =
        some (m', p + out.length) ∧
      Holds m m' p (sizeWidth (intItem bits signed f t) w) out := by
  have heq := IntPrint.printInt_eq bits hw signed f hfull hb2 hb36 hsup t ht m p
  obtain ⟨m0, e0, h0, _, hle, hout⟩ := IntPrint.c04_reserved_size_partial bits hw signed f hfull hb2 hb36 hsup t ht hmin m p
  obtain ⟨txt, htxt, hp⟩ := IntPrint.c03_base_partial bits hw signed f hfull hb2 hb36 hsup t ht m p
  rw [h0] at hp
  simp only [Option.some.injEq, Prod.mk.injEq] at hp
  obtain ⟨rfl, rfl⟩ := hp
  have hpr : Prints (intItem bits signed f t) txt m p :=
    ⟨by omega, _, h0, load_store _ _ _, hout⟩
  have hshift : (intShift signed f.showpos t).getD 0 = (IntPrint.signText f.showpos t).length := by
    unfold intShift IntPrint.signText
    cases hsg : f.showpos
    · cases signed
      · have : ¬ t < 0 := by simp only [IntPrint.InRange, Bool.false_eq_true, if_false] at ht; omega
        simp [this, IntPrint.ascii]
      · by_cases hneg : t < 0 <;> simp [hneg, IntPrint.ascii]
    · by_cases hneg : t < 0 <;> simp [hneg, IntPrint.ascii]
  have hsl : (intShift signed f.showpos t).getD 0 ≤ txt.length := by
    obtain ⟨body, _, rfl⟩ := htxt
    rw [hshift]; simp
  obtain ⟨m', out, h1, h2, h3⟩ := c37_width_runtime_partial false byteSized pl (intItem bits signed f t)
    (intShift signed f.showpos t) txt hsl w ch (by simp) m p hpr
  rw [hshift] at h1
  exact ⟨txt, m', out, htxt, h1, h2, h3⟩

/-- `internal(-42,8,'0')` is `-0000042`. -/
example : (defineWidthRt false true .internal (intItem 32 true {} (-42)) (intShift true false (-42)) (fun _ => 0) 10 8 48).map
    (fun r => (load r.1 10 8, r.2)) = some ([45, 48, 48, 48, 48, 48, 52, 50], 18) := by decide +kernel

/-! ## `cond` -/

/-- **C61**: `cond(pred,a,b)` prints exactly `a` or exactly `b` as `pred` says, whatever the types and their sizes, and the
announced size is enough for the chosen one. -/
theorem c61_cond (constant sameType static : Bool) (sz1 sz2 : Nat) (pred : Bool) (t1 t2 : Item) (m : Mem) (p : Nat)
    (txt : List Nat) (h : if pred then Prints t1 txt m p else Prints t2 txt m p) :
    ∃ m', condDefine constant (cond sameType sz1 sz2 pred t1 t2) m p = some (m', p + txt.length) ∧
      Holds m m' p (condSize static (cond sameType sz1 sz2 pred t1 t2)) txt := by
  have mono : ∀ m' s s', s ≤ s' → Holds m m' p s txt → Holds m m' p s' txt := by
    intro m' s s' hs ⟨h1, h2, h3⟩
    exact ⟨h1, by omega, fun a ha => h3 a (by omega)⟩
  have key : ∀ t, Prints t txt m p → ∃ m', writeItem constant t m p = some (m', p + txt.length) ∧ Holds m m' p (itemSize t) txt :=
    fun t ht => writeItem_spec constant t txt m p ht
  cases pred
  · obtain ⟨m', h1, h2⟩ := key t2 (by simpa using h)
    refine ⟨m', ?_, ?_⟩
    · unfold cond; split
      · simp [condDefine, h1]
      · split <;> simp [condDefine, h1]
    · apply mono m' (itemSize t2) _ _ h2
      unfold cond; split
      · simp [condSize]
      · split <;> simp only [condSize] <;> cases static <;> simp <;> split <;> omega
  · obtain ⟨m', h1, h2⟩ := key t1 (by simpa using h)
    refine ⟨m', ?_, ?_⟩
    · unfold cond; split
      · simp [condDefine, h1]
      · split <;> simp [condDefine, h1]
    · apply mono m' (itemSize t1) _ _ h2
      unfold cond; split
      · simp [condSize]
      · split <;> simp only [condSize] <;> cases static <;> simp <;> split <;> omega

/-- The smaller type first, so that the arguments are swapped. -/
example : (condDefine false (cond false 4 16 true (intItem 32 true {} 7) (.scatter 100 3)) abc 10).map
    (fun r => (load r.1 10 2, r.2)) = some ([55, 0], 11) := by decide +kernel

end Verif.Width
