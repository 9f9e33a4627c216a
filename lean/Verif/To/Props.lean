import Verif.To.Lemmas
import Mathlib.Tactic.FinCases
/-!
# C64: `to` scans what it prints
-/
namespace Verif.To
open Verif Verif.Print Verif.IntScan Verif.IntPrint

theorem toValue_many {cfg : Cfg} {opt : Bool} {items : List Item} (h2 : 2 ≤ items.length) (hr : ∀ i ∈ items, i.Honest)
    (hm : (∀ i ∈ items, i.plain = true) → Mixable items) (ho : ∀ i ∈ items, OneWrite i) :
    toValue opt (intTarget cfg) items =
      piecesLoop (fun st l => (ctxStep cfg st l).map fun s => (s.st, s.rest, s.code, s.value)) (ctxEof cfg) {} (items.map Item.text) := by
  have hp : (intTarget cfg).piecewise items = true := by
    simp only [Target.piecewise, intTarget]
    have : decide (items.length = 1) = false := by simp; omega
    rw [this]; rfl
  unfold toValue
  rw [hp]
  simp only [intTarget]
  by_cases h : items.all Item.plain = true
  · rw [if_pos h]
    exact ctxLoop_eq items (fetchArray_ok hr (hm (List.all_eq_true.1 h))) _ _
  · rw [if_neg h]
    exact ctxLoop_eq items (fetchDyn_ok hr ho) _ _

/-- **C64, several arguments** (partial; what is excluded misbehaves, see the `..._violated` theorems). `to<T>` of two or more
arguments for an integer type `T` returns the value the specification of scanning prescribes for the concatenation of
their texts, or throws its code. Excluded: an argument that only announces the size of its type beside one with a
value-dependent size (`Mixable`), a `print_define` of several calls beside (`OneWrite`), an empty argument when zeros are
skipped, arguments that begin right behind a lone zero or inside a number too long for the scanner, and the texts of
C06. -/
theorem c64_many_partial (cfg : Cfg) (hv : Valid cfg) (opt : Bool) (items : List Item) (h2 : 2 ≤ items.length)
    (hr : ∀ i ∈ items, i.Honest) (hm : (∀ i ∈ items, i.plain = true) → Mixable items) (ho : ∀ i ∈ items, OneWrite i)
    (hc : ∀ i ∈ items, Clean cfg i.text ∧ (cfg.noskipws = false → SpaceSafe cfg i.text))
    (he : ∀ i ∈ items, i.text = [] → cfg.skipzero = false)
    (hcut : ∀ a i b, items = a ++ i :: b → i.text ≠ [] →
      ¬ EndsAfterZero cfg (a.map Item.text).flatten ∧ ¬ EndsInLongRun cfg (a.map Item.text).flatten) :
    ∃ o r, ScanSpec cfg.bits cfg.signed cfg.noskipws cfg.skipzero cfg.base (expected false items) o ∧ Answer o r ∧
      toValue opt (intTarget cfg) items = .ok r := by
  obtain ⟨o, r, h3, h4, h5⟩ := pieces_ok hv (items.map Item.text) (st := {}) (pre := []) (.space [] ⟨by simp, by simp⟩)
    (by intro l hl; obtain ⟨i, hi, rfl⟩ := List.mem_map.1 hl; exact hc i hi)
    (by intro l hl; obtain ⟨i, hi, rfl⟩ := List.mem_map.1 hl; exact he i hi)
    (by
      intro a l b hab hl
      obtain ⟨a', t', h1, rfl, h3⟩ := List.map_eq_append_iff.1 hab
      obtain ⟨i, b', rfl, rfl, h5⟩ := List.map_eq_cons_iff.1 h3
      have := hcut a' i b' h1 hl
      intro hbad
      rcases hbad with h | h
      · exact this.1 (by simpa using h)
      · exact this.2 (by simpa using h))
  refine ⟨o, r, by simpa [expected] using h3, h4, ?_⟩
  rw [toValue_many h2 hr hm ho]
  exact h5

theorem printAll_one {i : Item} (hi : i.Honest) (hp : i.plain = true) : printAll [i] = .ok i.text := by
  by_cases hs : i.scatter = true
  · unfold printAll
    rw [if_pos (by simp [hs])]
    simp
  · have h := printAll_ok (items := [i]) (by simpa using hi) (by simpa using hp) (by
      simp only [Item.plain, hs, Bool.false_or, Bool.or_eq_true, Option.isSome_iff_ne_none] at hp
      rcases hp with h | h
      · left; simpa using h
      · right; simp [h]) (by
      simp only [sizeWithScatter, List.map_cons, List.map_nil, List.sum_cons, List.sum_nil, Nat.add_zero, Item.extra]
      cases hd : i.dynamic with
      | some n => have := hi.dynamic_small n hd; simp only []; omega
      | none => simp [hs])
    simpa using h

theorem dynPrint_one {i : Item} (hi : i.Honest) (ho : OneWrite i) (opt : Bool) (hp : ¬ i.plain = true) :
    (printBuffered opt dynStream false ⟨[], 0⟩ [i]).map DynBuf.out = .ok i.text := by
  have e : printBuffered opt dynStream false ⟨[], 0⟩ [i] = Print.control dynStream false ⟨[], 0⟩ i := by
    have hr : i.reserve = none := by
      by_contra h
      exact hp (by simp [Item.plain, Option.isSome_iff_ne_none.2 h])
    cases opt
    · rfl
    · simp [printBuffered, multi, hr]
  obtain ⟨b', e1, e2⟩ := dynControl_ok hi ho ⟨[], 0⟩ rfl
  rw [e, e1]
  exact congrArg Except.ok e2

/-- One argument for a type that is scanned at once. -/
theorem toValue_one {S V : Type} {t : Target S V} {f : List Nat → Option (Code × Option V)} (ht : t.contig = some f) (opt : Bool)
    {i : Item} (hi : i.Honest) (ho : OneWrite i) : toValue opt t [i] = result (f i.text) := by
  have hp : t.piecewise [i] = false := by simp [Target.piecewise, ht]
  unfold toValue
  rw [hp, ht]
  simp only []
  by_cases h : i.plain = true
  · rw [if_pos (by simp [h]), printAll_one hi h]; rfl
  · rw [if_neg (by simp [h]), dynPrint_one hi ho opt h]; rfl

/-- **C64, one argument** (partial, exclusions of C06 and several calls of a `print_define`). -/
theorem c64_one_partial (cfg : Cfg) (hv : Valid cfg) (opt : Bool) (i : Item) (hi : i.Honest) (ho : OneWrite i)
    (hc : Clean cfg i.text) (hsp : cfg.noskipws = false → SpaceSafe cfg i.text) (hs : SseSafe cfg i.text)
    (hls : NoLoneSign cfg i.text) :
    ∃ o r, ScanSpec cfg.bits cfg.signed cfg.noskipws cfg.skipzero cfg.base i.text o ∧ Answer o r ∧
      toValue opt (intTarget cfg) [i] = .ok r := by
  obtain ⟨o, h1, h2⟩ := c06_scan_partial cfg hv i.text hc hsp hs hls
  obtain ⟨r, e, a⟩ := result_spec h2
  refine ⟨o, r, h2, a, ?_⟩
  rw [toValue_one (f := fun l => (scanContig cfg l).map fun o => (o.code, o.value)) rfl opt hi ho, h1]
  exact e

/-- **C64, types scanned at once only** (partial): whatever the type, `to` scans the concatenation of the texts if every
argument announces the size of its type, or every argument is a range or has a value-dependent size. -/
theorem c64_contiguous_partial {S V : Type} (t : Target S V) (f : List Nat → Option (Code × Option V)) (ht : t.contig = some f)
    (hx : t.ctx = none) (opt : Bool) (items : List Item) (hr : ∀ i ∈ items, i.Honest) (hp : ∀ i ∈ items, i.plain = true)
    (hm : (∀ i ∈ items, i.reserve ≠ none) ∨ ∀ i ∈ items, i.scatter = true ∨ i.dynamic ≠ none)
    (hs : sizeWithScatter items < 2 ^ 64) :
    toValue opt t items = result (f (expected false items)) := by
  have h1 : t.piecewise items = false := by simp [Target.piecewise, hx]
  unfold toValue
  rw [h1, ht]
  simp only []
  rw [if_pos (List.all_eq_true.2 hp), printAll_ok hr hp hm hs]
  simp [scanAll, expected]

/-- **C64, round trip.** `to<T>` of a value of the integer type `T` itself returns that value: the argument is what the library's
own integer printer makes of it in the default format (`txt`), announced with any sufficient size. -/
theorem c64_round_trip (cfg : Cfg) (hv : Valid cfg) (hsk : cfg.skipzero = false) (h10 : cfg.base = 10)
    (opt : Bool) (t : Int) (ht : InRange cfg.bits cfg.signed t) (m : Mem) (p : Nat) :
    ∃ txt, printInt cfg.bits cfg.signed { base := 10 } m p t = some (store m p txt, p + txt.length) ∧
      ∀ n, txt.length ≤ n → n < 2 ^ 63 - 2 →
        toValue opt (intTarget cfg) [⟨txt, [], false, some n, none, false, none⟩] = .ok (.value t) := by
  obtain ⟨txt, h1, h2⟩ := c07_round_trip cfg hv hsk { base := 10 } h10.symm rfl rfl rfl (by intro h; simp) t ht m p []
    (by simp [CodeUnits]) (by simp [NoTrap]) (noDigit_nil _)
  refine ⟨txt, h1, ?_⟩
  intro n hn hn'
  rw [toValue_one (f := fun l => (scanContig cfg l).map fun o => (o.code, o.value)) rfl opt (i := ⟨txt, [], false, some n, none, false, none⟩)
    ⟨by simp, by simpa using hn, by simp, by simp, by simpa using hn', by simp⟩ (.inl rfl)]
  rw [List.append_nil] at h2
  simp only [h2]
  rfl

/-! ## The hypotheses are met -/

/-- A literal, an integer with room to spare, a `print_define` of one call. -/
def sample : List Item :=
  [⟨ascii " -1", [], true, none, none, false, none⟩, ⟨ascii "23", [0, 0], false, some 20, none, true, none⟩,
   ⟨[], [], true, none, none, false, none⟩, ⟨ascii "4;", [], false, none, none, false, some [.write (ascii "4;")]⟩]

theorem sample_honest : ∀ i ∈ sample, i.Honest := by
  intro i hi
  fin_cases hi <;> constructor <;> simp [ascii] <;> try decide

example : toValue true (intTarget i32) sample = .ok (.value (-1234)) := by decide +kernel

example : ∃ o r, ScanSpec 32 true false false 10 (ascii " -1234;") o ∧ Answer o r ∧
    toValue true (intTarget i32) sample = .ok r := by
  refine c64_many_partial i32 i32_valid true sample (by decide) sample_honest ?_ ?_ ?_ ?_ ?_
  · intro h; exact absurd (h _ (by simp [sample]; right; right; right; rfl)) (by decide)
  · intro i hi; fin_cases hi
    · exact .inl rfl
    · exact .inl rfl
    · exact .inl rfl
    · exact .inr ⟨_, rfl⟩
  · intro i hi
    refine ⟨clean_i32 _ ?_, fun _ => spaceSafe_of_off rfl _⟩
    fin_cases hi <;> decide
  · intro _ _ _; rfl
  · intro a i b hab hne
    have hpre : (a.map Item.text).flatten <+: (sample.map Item.text).flatten := by
      rw [hab]; simp
    have hlen : ∀ x, x = (a.map Item.text).flatten → x <+: ascii " -1234;" := by
      rintro x rfl; simpa [sample, ascii] using hpre
    constructor
    · rintro ⟨_, ws, sgn, neg, h, _⟩
      have h48 : 48 ∈ (a.map Item.text).flatten := by rw [h]; simp
      have := (hlen _ rfl).subset h48
      exact absurd this (by decide)
    · rintro ⟨ws, sgn, neg, k, cs, ds, h, _, _, _, _, hcap⟩
      have h1 := (hlen _ rfl).length_le
      rw [h] at h1
      have hcapv : ctxCap i32 = 13 := by decide +kernel
      have h2 : (ascii " -1234;").length = 7 := by decide
      simp only [List.length_append] at h1
      omega

/-! ## Violations -/

/-- An integer beside an argument with a value-dependent size: the buffer is made for the latter only, and the text of the
integer is stored outside it. -/
theorem c64_mixed_violated :
    toValue true (intTarget i32) [⟨ascii "12", [], false, some 20, none, false, none⟩, ⟨ascii "3", [], false, none, some 1, false, none⟩] =
      .error .ub := by decide +kernel

/-- `to<int>("0"," ")` reads behind its second argument. -/
theorem c64_zero_violated :
    toValue true (intTarget i32) [⟨ascii "0", [], true, none, none, false, none⟩, ⟨ascii " ", [], true, none, none, false, none⟩] =
      .error .ub := by decide +kernel

/-- An empty argument behind a zero makes a number invalid when zeros are skipped. -/
theorem c64_empty_violated :
    toValue true (intTarget { i32 with skipzero := true }) [⟨ascii "0", [], true, none, none, false, none⟩, ⟨[], [], true, none, none, false, none⟩] =
      .ok (.throws .invalid) ∧
    toValue true (intTarget { i32 with skipzero := true }) [⟨ascii "0", [], true, none, none, false, none⟩] = .ok (.value 0) := by
  constructor <;> decide +kernel

/-- A `print_define` that writes 1, 2, 3 and 4 in four calls gives 4 instead of 1234; one that begins with `put` stores outside
the buffer. -/
theorem c64_custom_violated :
    toValue true (intTarget i32) [⟨ascii "1234", [], false, none, none, false,
      some [.write [49], .write [50], .write [51], .write [52]]⟩] = .ok (.value 4) ∧
    toValue true (intTarget i32) [⟨ascii "1", [], false, none, none, false, some [.put 49]⟩] = .error .ub := by
  constructor <;> decide +kernel

/-- For a type that can only be scanned at once, a range beside an integer is stored in a buffer made for the range only. -/
theorem c64_contiguous_violated :
    toValue (S := CtxState) true { intTarget i32 with ctx := none } [⟨ascii "1", [], true, none, none, false, none⟩,
      ⟨ascii "23", [], false, some 20, none, false, none⟩] = .error .ub := by decide +kernel

end Verif.To
