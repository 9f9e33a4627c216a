import Verif.LcPrint.Lemmas
import Verif.Lc.Props
/-!
# C78: printing with a locale writes every argument once, in order, and in the way of the locale
-/
namespace Verif.LcPrint
open Verif.Print

/-- A sample of arguments: a literal, a number with thousands separators, `true` in the words of the locale, a plain
announced size, and one with a localised `print_define`. -/
def lcSample : List LcArg :=
  [{ plain := ⟨[97, 58], [], true, none, none, false, none⟩ },
   { plain := ⟨[49, 50, 51, 52], [], false, some 20, none, true, none⟩, lcText := [49, 44, 50, 51, 52], lcJunk := [0, 0], lcDynamic := some 40 },
   { plain := ⟨[116], [], true, none, none, false, none⟩, lcText := [119, 97, 104, 114], lcScatter := true },
   { plain := ⟨[40, 41], [], false, none, none, false, some [.write [40], .put 41]⟩, lcText := [91, 93],
     lcCustom := some [.put 91, .write [93]] },
   { plain := ⟨[55], [9], false, some 20, none, false, none⟩ }]

theorem lcSample_honest : ∀ a ∈ lcSample, a.Honest := by
  intro a ha
  fin_cases ha
  · exact ⟨fun _ => ⟨.inl rfl, by simp, by simp, by simp, by simp, by simp⟩, by simp, by simp⟩
  · exact ⟨by simp [LcArg.localised], by simp, by simp⟩
  · exact ⟨by simp [LcArg.localised], by simp, by simp⟩
  · exact ⟨by simp [LcArg.localised], by simp, by simp [Prim.text]⟩
  · exact ⟨fun _ => ⟨.inr (.inl (by simp)), by simp, by simp, by simp, by simp, by simp⟩, by simp, by simp⟩

theorem lcSample_coherent : ∀ a ∈ lcSample, a.Coherent := by
  intro a ha
  fin_cases ha <;> simp [LcArg.Coherent, LcArg.localised]

/-! ## Streams with a buffer -/

/-- **C78, buffered file.** `print` and `println` to a buffered file through a locale append exactly the texts of the arguments in
their order — the localised text of those that know about locales, the plain one of the others — and, for `println`, a
line feed, whatever mixture it is, however full the buffer is and whatever its size. -/
theorem c78_file {cfg : IoBuf.Cfg} (hb : 1 ≤ cfg.bfs) (opt line : Bool) (args : List LcArg) (hr : ∀ a ∈ args, a.Honest)
    (hl : args.length < 2 ^ 53) (s : IoBuf.St) (hs : IoBuf.Inv cfg s) (hd : ∀ a ∈ s.dev.script, a = IoBuf.Answer.full) :
    ∃ s', lcPrintBuffered opt (fileStream cfg) line s args = .ok s' ∧ IoBuf.Inv cfg s' ∧
      s'.dev.got ++ s'.held = s.dev.got ++ s.held ++ lcExpected line args := by
  have := lcPrintBuffered_ok (file_lawful hb) opt line args (s := s) ⟨hs, hd⟩ hr (fun i _ _ => by simp [Fits, fileStream]) hl
  match hm : lcPrintBuffered opt (fileStream cfg) line s args, this with
  | .ok s', this => exact ⟨s', rfl, this.1.1, this.2⟩
  | .error .stop, this => exact this.elim
  | .error .ub, this => exact this.elim

example : ∃ s', lcPrintBuffered true (fileStream ⟨8, true⟩) true ⟨none, ⟨[], []⟩⟩ lcSample = .ok s' ∧
    IoBuf.Inv ⟨8, true⟩ s' ∧ s'.dev.got ++ s'.held = [97, 58, 49, 44, 50, 51, 52, 119, 97, 104, 114, 91, 93, 55, 10] := by
  refine c78_file (by decide) true true lcSample lcSample_honest (by decide) _ (by simp [IoBuf.Inv]) (by simp)

/-- **C78, fixed space.** Through a locale, printing to a view of a fixed space either appends exactly the texts or ends the
program; it never writes outside the space. An argument of value-dependent size is a problem (`c53_dynamic_violated`) only
without a locale. -/
theorem c78_view_partial (cap : Nat) (opt line : Bool) (args : List LcArg) (hr : ∀ a ∈ args, a.Honest)
    (hf : ∀ a ∈ args, a.localised = false → a.plain.scatter = true ∨ a.plain.reserve ≠ none ∨ a.plain.dynamic = none)
    (hl : args.length < 2 ^ 53) (l : List Nat) (h : l.length ≤ cap) :
    lcPrintBuffered opt (viewStream cap) line l args = .ok (l ++ lcExpected line args) ∧ (l ++ lcExpected line args).length ≤ cap ∨
    lcPrintBuffered opt (viewStream cap) line l args = .error .stop := by
  have := lcPrintBuffered_ok (view_lawful cap) opt line args (s := l) h hr (fun a ha h' _ => hf a ha h') hl
  match hm : lcPrintBuffered opt (viewStream cap) line l args, this with
  | .ok s', this =>
    obtain ⟨h1, h2⟩ := this
    simp only [id] at h2
    exact .inl ⟨by rw [h2], by rw [← h2]; exact h1⟩
  | .error .stop, this => exact .inr rfl
  | .error .ub, this => exact this.elim

example : lcPrintBuffered true (viewStream 64) true [1] lcSample =
      .ok [1, 97, 58, 49, 44, 50, 51, 52, 119, 97, 104, 114, 91, 93, 55, 10] ∧
    lcPrintBuffered true (viewStream 9) true [1] lcSample = .error .stop := by
  constructor <;> decide +kernel

/-- **C78, appending to a string.** Printing through a locale to a reference to an existing string appends to it. -/
theorem c78_append {c : StrCfg} (hc : c.Good) (ha : c.aux = true) (opt line : Bool) (args : List LcArg)
    (hr : ∀ a ∈ args, a.Honest) (hl : args.length < 2 ^ 53) (s : Str) (hs : s.content.length ≤ s.cap) :
    ∃ s', lcPrintBuffered opt (strStream c) line s args = .ok s' ∧ s'.content = s.content ++ lcExpected line args ∧
      s'.content.length ≤ s'.cap := by
  have := lcPrintBuffered_ok (str_lawful hc) opt line args (s := s) ⟨hs, by simp [ha]⟩ hr (fun i _ _ => by simp [Fits, strStream]) hl
  match hm : lcPrintBuffered opt (strStream c) line s args, this with
  | .ok s', this => exact ⟨s', rfl, this.2, this.1.1⟩
  | .error .stop, this => rw [Done, StrMay, ha] at this; exact absurd this.1 (by simp)
  | .error .ub, this => exact this.elim

example : ∃ s', lcPrintBuffered true (strStream libstdcxx) true ⟨[1, 2], 15⟩ lcSample = .ok s' ∧
    s'.content = [1, 2] ++ lcExpected true lcSample ∧ s'.content.length ≤ s'.cap :=
  c78_append libstdcxx_good rfl true true lcSample lcSample_honest (by decide) ⟨[1, 2], 15⟩ (by decide)

/-! ## Numbers -/

/-- An integer as an argument: without locale as `plain` says, with the locale as `Verif.Lc` says
(lc_numbers/integers.h:355-376). -/
def numArg (nu : Lc.Numeric) (bits : Nat) (signed : Bool) (f : IntPrint.Fmt) (plain : Item) (t : Int) : LcArg :=
  match Lc.lcPrintInt nu bits signed f (fun _ => 0) 0 t with
  | some (m, e) => { plain := plain, lcText := load m 0 e, lcDynamic := some (Lc.lcReserve nu bits signed f) }
  | none => { plain := plain, lcDynamic := some 0 }

/-- **C78, numbers** (partial: the restrictions of C67): an integer is an argument that keeps its promises, so that all the theorems
here apply to it, and the text it stands for is its sign, its base prefix and its digits grouped as the locale wants. -/
theorem c78_number_partial (nu : Lc.Numeric) (bits : Nat) (hw : IntPrint.Width bits) (signed : Bool) (f : IntPrint.Fmt)
    (hfull : f.full = false) (hb2 : 2 ≤ f.base) (hb36 : f.base ≤ 36) (hup : f.base ≤ 10 → f.upper = false)
    (hs : nu.grouping.length = 0 ∨ nu.sep.length = 0 → IntPrint.Supported bits f.base f.upper) (t : Int)
    (ht : IntPrint.InRange bits signed t)
    (hmin : signed = true → (∀ k, f.base ^ k ≠ 2 ^ (bits - 1)) ∨ t ≠ -(2 ^ (bits - 1) : Int))
    (hsmall : Lc.lcReserve nu bits signed f < 2 ^ 63 - 2) (plain : Item) (hns : plain.scatter = false) :
    (numArg nu bits signed f plain t).Honest ∧ (numArg nu bits signed f plain t).Coherent ∧
    ∃ ds body, Lc.IsDigits bits f.base f.upper f.full t.natAbs ds ∧ Lc.Grouped nu.grouping nu.sep ds body ∧
      (numArg nu bits signed f plain t).text =
        IntPrint.signText f.showpos t ++ (if f.showbase then IntPrint.prefixText f.base f.upperShow else []) ++ body := by
  obtain ⟨ds, body, h1, h2, h3⟩ := Lc.c67_lc_print_partial nu bits hw signed f hb2 hb36 hup
    (fun h => by simpa [Lc.PlainOk, hfull] using hs h) t ht (fun _ => 0) 0
  obtain ⟨m', e, g1, _, g3, _⟩ := Lc.c67_reserve_partial nu bits hw signed f hfull hb2 hb36 hup hs t ht hmin (fun _ => 0) 0
  have hx : numArg nu bits signed f plain t =
      { plain := plain, lcText := IntPrint.signText f.showpos t ++ (if f.showbase then IntPrint.prefixText f.base f.upperShow else []) ++ body,
        lcDynamic := some (Lc.lcReserve nu bits signed f) } := by
    unfold numArg
    rw [h3]
    simp only [Nat.zero_add]
    rw [load_store]
  rw [h3] at g1
  cases g1
  rw [hx]
  refine ⟨⟨by simp [LcArg.localised], ?_, by simp⟩, ⟨by simp, fun _ _ => hns⟩, ds, body, h1, h2, rfl⟩
  intro n hn
  cases hn
  simp only [List.length_nil, Nat.add_zero]
  exact ⟨by simpa using g3, hsmall⟩

/-- `1234567` as an `unsigned long long` in a German locale, on a fixed space. -/
example : lcPrintBuffered true (viewStream 64) true [1] [lcSample[0], numArg ⟨[46], [3]⟩ 64 false {} ⟨[], [], false, some 20, none, true, none⟩ 1234567] =
    .ok (1 :: 97 :: 58 :: IntPrint.ascii "1.234.567" ++ [10]) := by decide +kernel

/-! ## Devices without a buffer -/

/-- A single argument that does not know about locales and only has a `print_define`: see `Verif.Print.Compiles`. -/
def LcCompiles (cfg : DevCfg) (line : Bool) (args : List LcArg) : Prop :=
  ∀ a, args = [a] → a.localised = false → Compiles cfg line [a.plain]

theorem lcDevControl_ok {cfg : DevCfg} {line : Bool} {d : Dev} {a : LcArg} (ha : a.Honest) (hc : a.Coherent)
    (hp : a.piecewise = true) : ∃ d', lcDevControl cfg line d a = .ok d' ∧ d'.got = d.got ++ (a.text ++ lf line) := by
  obtain ⟨h1, h2, h3⟩ := piece_honest ha hc hp
  unfold lcDevControl
  by_cases k1 : a.lcScatter = true
  · rw [if_pos k1]
    simp only [LcArg.piece, k1, if_true] at h1 h3
    rw [← h3]
    exact devControl_ok h1 (by simp [Item.onlyCustom, LcArg.asScatter])
  · rw [if_neg k1]
    cases k2 : a.lcDynamic with
    | some n =>
      obtain ⟨g1, g2⟩ := ha.dynamic_ok n k2
      rw [text_local (local_of_dynamic k2)]
      simp only []
      rw [if_neg (by omega), intoArray_ok (i := a.asDynamic n) (by show a.lcText.length + a.lcJunk.length + line.toNat ≤ n + line.toNat; omega)]
      exact ⟨_, rfl, Dev.got_call _ _⟩
    | none =>
      simp only [LcArg.piece, k1, k2] at h1 h2 h3
      simp only [Bool.false_eq_true, if_false] at h1 h2 h3
      cases k3 : a.lcCustom with
      | some l =>
        obtain ⟨p1, p2, p3⟩ := hc.1 (local_of_custom k3) (by simpa using k1) k2
        simp [Item.plain, p1, p2, p3] at h2
      | none =>
        rw [← h3]
        refine devControl_ok h1 fun hx => ?_
        obtain ⟨p1, p2, p3⟩ := hx
        simp [Item.plain, p1, p2, p3] at h2

theorem lcFallback_ok {opt : Bool} {cfg : DevCfg} {line : Bool} {d : Dev} {args : List LcArg} (hr : ∀ a ∈ args, a.Honest)
    (hc : ∀ a ∈ args, a.Coherent) (hl : args.length < 2 ^ 53)
    (ho : reserveTotal (args.map LcArg.plain) < 2 ^ 64 ∧ lcDynamicTotal args < 2 ^ 64) (hm : LcCompiles cfg line args) :
    ∃ d', lcFallback opt cfg line d args = .ok d' ∧ d'.got = d.got ++ lcExpected line args := by
  unfold lcFallback
  by_cases h1 : (args.all fun a => !a.localised) = true
  · rw [if_pos h1]
    have hp : ∀ a ∈ args, a.localised = false := fun a ha => by simpa using List.all_eq_true.1 h1 a ha
    rw [← plain_expected line hp]
    refine c63_device cfg line d _ (plain_honest hr hp) (by simpa using hl) ⟨ho.1, ?_⟩ ?_
    · have : dynamicTotal (args.map LcArg.plain) = lcDynamicTotal args := by
        unfold dynamicTotal lcDynamicTotal
        rw [List.map_map]
        congr 1
        refine List.map_congr_left fun a ha => ?_
        have := hp a ha
        have hd : a.lcDynamic = none := by
          cases hx : a.lcDynamic with
          | none => rfl
          | some n => rw [local_of_dynamic hx] at this; cases this
        simp [hd]
      omega
    · intro i hi
      match args, hm, hp, hi with
      | [a], hm, hp, hi =>
        simp only [List.map_cons, List.map_nil, List.cons.injEq, and_true] at hi
        subst hi
        exact hm a rfl (hp a (by simp)) _ rfl
  · rw [if_neg h1]
    have hne : args ≠ [] := by rintro rfl; exact h1 rfl
    by_cases h2 : cfg.scatter = true ∧ args.all LcArg.piecewise = true
    · rw [if_pos h2]
      by_cases h3 : (args.all fun a => a.plain.scatter || a.lcScatter) = true
      · rw [if_pos h3, lcRanges_ok hc h3]
        exact ⟨_, rfl, Dev.got_call _ _⟩
      · rw [if_neg h3]
        simp only []
        rw [if_neg (by omega)]
        obtain ⟨ar, ps, e, m⟩ := lcScatterAll_ok hr hc h2.2
        rw [e]
        simp only [m]
        exact ⟨_, rfl, Dev.got_call _ _⟩
    · rw [if_neg h2]
      have := lcControls_ok Tmp.lawful opt line args (s := ⟨[], d⟩) (by simp) hne hr (fun a _ _ => tmpFits _) hl
      match hm : lcControls opt tmpStream line ⟨[], d⟩ args, this with
      | .ok t, this =>
        refine ⟨_, rfl, ?_⟩
        rw [Tmp.flush_got, this.2]
        simp [Tmp.out]
      | .error .stop, this => exact this.elim
      | .error .ub, this => exact this.elim

/-- **C78, device without a buffer.** `print` and `println` through a locale deliver exactly the texts of the arguments in order,
whether they go through the list of pieces, the temporary buffer or directly, provided the arguments are `Coherent`. -/
theorem c78_device_partial (opt : Bool) (cfg : DevCfg) (line : Bool) (d : Dev) (args : List LcArg) (hr : ∀ a ∈ args, a.Honest)
    (hc : ∀ a ∈ args, a.Coherent) (hl : args.length < 2 ^ 53)
    (ho : reserveTotal (args.map LcArg.plain) < 2 ^ 64 ∧ lcDynamicTotal args < 2 ^ 64) (hm : LcCompiles cfg line args) :
    ∃ d', lcPrintDevice opt cfg line d args = .ok d' ∧ d'.got = d.got ++ lcExpected line args := by
  unfold lcPrintDevice
  by_cases h0 : args = [] ∧ line = false
  · rw [if_pos h0]
    obtain ⟨rfl, rfl⟩ := h0
    exact ⟨d, rfl, by simp [lcExpected]⟩
  · rw [if_neg h0]
    match args, hr, hc, hl, ho, hm with
    | [], hr, hc, hl, ho, hm => exact lcFallback_ok hr hc hl ho hm
    | a :: b :: t, hr, hc, hl, ho, hm => exact lcFallback_ok hr hc hl ho hm
    | [a], hr, hc, hl, ho, hm =>
      simp only []
      split_ifs with h1
      · have hp : a.piecewise = true := by
          revert h1
          unfold lcDirect LcArg.piecewise Item.plain
          cases a.plain.scatter <;> cases a.lcScatter <;> cases a.lcDynamic.isSome <;> cases a.plain.reserve.isSome <;>
            cases a.plain.dynamic.isSome <;> simp
        obtain ⟨d', e, g⟩ := lcDevControl_ok (cfg := cfg) (line := line) (d := d) (hr a (by simp)) (hc a (by simp)) hp
        exact ⟨d', e, by rw [g]; simp [lcExpected, lf]⟩
      · exact lcFallback_ok hr hc hl ho hm

example : ∃ d', lcPrintDevice true ⟨true, false⟩ true ⟨[[1]]⟩ lcSample = .ok d' ∧
    d'.got = [1, 97, 58, 49, 44, 50, 51, 52, 119, 97, 104, 114, 91, 93, 55, 10] := by
  obtain ⟨d', e, g⟩ := c78_device_partial true ⟨true, false⟩ true ⟨[[1]]⟩ lcSample lcSample_honest lcSample_coherent (by decide)
    (by decide) (by simp [LcCompiles, lcSample])
  exact ⟨d', e, by rw [g]; decide⟩

/-- **C78, one call.** On a device with `scatter_write`, a `print` or `println` through a locale of two or more arguments, none of
which has to be printed by a `print_define`, reaches the device in a single call carrying the whole text. -/
theorem c78_one_call (opt : Bool) (cfg : DevCfg) (line : Bool) (d : Dev) (args : List LcArg) (hr : ∀ a ∈ args, a.Honest)
    (hc : ∀ a ∈ args, a.Coherent) (h2 : 2 ≤ args.length)
    (ho : reserveTotal (args.map LcArg.plain) < 2 ^ 64 ∧ lcDynamicTotal args < 2 ^ 64) (hs : cfg.scatter = true)
    (hp : ∀ a ∈ args, a.piecewise = true) :
    lcPrintDevice opt cfg line d args = .ok ⟨d.calls ++ [lcExpected line args]⟩ := by
  match args, h2 with
  | a :: b :: t, _ =>
    unfold lcPrintDevice
    rw [if_neg (by simp)]
    simp only []
    unfold lcFallback
    by_cases h1 : ((a :: b :: t).all fun a => !a.localised) = true
    · rw [if_pos h1]
      have hpl : ∀ c ∈ a :: b :: t, c.localised = false := fun c hc => by simpa using List.all_eq_true.1 h1 c hc
      rw [← plain_expected line hpl]
      refine c63_one_call cfg line d _ (plain_honest hr hpl) (.inl (by simp)) ⟨ho.1, ?_⟩ hs ?_ (by simp)
      · have : dynamicTotal ((a :: b :: t).map LcArg.plain) = lcDynamicTotal (a :: b :: t) := by
          unfold dynamicTotal lcDynamicTotal
          rw [List.map_map]
          congr 1
          refine List.map_congr_left fun c hc => ?_
          have := hpl c hc
          have hd : c.lcDynamic = none := by
            cases hx : c.lcDynamic with
            | none => rfl
            | some n => rw [local_of_dynamic hx] at this; cases this
          simp [hd]
        omega
      · intro i hi
        obtain ⟨c, hcm, rfl⟩ := List.mem_map.1 hi
        have := hpl c hcm
        have h3 := hp c hcm
        simp only [LcArg.localised, Bool.or_eq_false_iff] at this
        simpa [LcArg.piecewise, this.1.1, this.1.2] using h3
    · rw [if_neg h1, if_pos ⟨hs, List.all_eq_true.2 hp⟩]
      by_cases h3 : ((a :: b :: t).all fun a => a.plain.scatter || a.lcScatter) = true
      · rw [if_pos h3, lcRanges_ok hc h3]
        rfl
      · rw [if_neg h3]
        simp only []
        rw [if_neg (by omega)]
        obtain ⟨ar, ps, e, m⟩ := lcScatterAll_ok hr hc (List.all_eq_true.2 hp)
        rw [e]
        simp only [m]
        rfl

example : lcPrintDevice true ⟨true, false⟩ true ⟨[[1]]⟩ (lcSample.take 3) =
    .ok ⟨[[1], [97, 58, 49, 44, 50, 51, 52, 119, 97, 104, 114, 10]]⟩ :=
  c78_one_call true ⟨true, false⟩ true ⟨[[1]]⟩ (lcSample.take 3) (fun a ha => lcSample_honest a (List.mem_of_mem_take ha))
    (fun a ha => lcSample_coherent a (List.mem_of_mem_take ha)) (by decide) (by decide) rfl (by decide)

/-- **C78, violated.** On a device with `scatter_write` an argument that has a localised `print_define` and an announced size
without locale is printed without the locale, and so is, among ranges only, one that is a range without locale and has a
localised announced size; on a stream with a buffer both are printed with the locale. -/
theorem c78_device_violated :
    let x : LcArg := { plain := ⟨[49], [], false, some 1, none, false, none⟩, lcText := [50], lcCustom := some [.put 50] }
    let y : LcArg := { plain := ⟨[51], [], true, none, none, false, none⟩, lcText := [52], lcDynamic := some 1 }
    (x.text = [50] ∧ y.text = [52]) ∧
    lcPrintDevice true ⟨true, false⟩ false ⟨[]⟩ [x, x] = .ok ⟨[[49, 49]]⟩ ∧
    lcPrintDevice true ⟨true, false⟩ false ⟨[]⟩ [y, y] = .ok ⟨[[51, 51]]⟩ ∧
    lcPrintBuffered true (viewStream 64) false [] [x, y] = .ok [50, 52] := by
  decide +kernel

/-! ## Strings -/

theorem stored_ok {a : LcArg} (ha : a.Honest) (hc : a.Coherent) (hp : a.piecewise = true) :
    a.stored.Honest ∧ a.stored.plain = true ∧ a.stored.text = a.text := by
  obtain ⟨h1, h2, h3⟩ := piece_honest ha hc hp
  unfold LcArg.stored
  cases k2 : a.lcDynamic with
  | some n =>
    obtain ⟨g1, g2⟩ := ha.dynamic_ok n k2
    rw [text_local (local_of_dynamic k2)]
    refine ⟨⟨.inr (.inr (.inl (by simp [LcArg.asDynamic]))), by simp [LcArg.asDynamic], ?_, ?_, by simp [LcArg.asDynamic],
      by simp [LcArg.asDynamic]⟩, by simp [Item.plain, LcArg.asDynamic], rfl⟩
    · intro m hm
      cases hm
      exact g1
    · intro m hm
      cases hm
      exact g2
  | none =>
    simp only [LcArg.piece, k2] at h1 h2 h3
    exact ⟨h1, h2, h3⟩

theorem stored_need {a : LcArg} (hn : a.localised = false → a.plain.reserve = none) (hc : a.Coherent) (hp : a.piecewise = true) :
    a.stored.need = a.extra := by
  unfold LcArg.stored LcArg.extra
  cases k2 : a.lcDynamic with
  | some n => simp [Item.need, Item.extra, LcArg.asDynamic]
  | none =>
    by_cases k1 : a.lcScatter = true
    · simp [k1, Item.need, Item.extra, LcArg.asScatter]
    · simp only [if_neg k1]
      have hl : a.localised = false := by
        by_contra hx
        obtain ⟨p1, p2, p3⟩ := hc.1 (by simpa using hx) (by simpa using k1) k2
        simp [LcArg.piecewise, Item.plain, p1, p2, p3, k1, k2] at hp
      simp [Item.need, hn hl]

/-- **C78, `lc_concat`.** `lc_concat` and `lc_concatln` return exactly the texts of the arguments in order (and the line feed) and
touch no character outside the string's capacity, if no argument that does not know about locales announces its size by
its type, and some argument has a localised range or announced size. -/
theorem c78_concat_partial {c : StrCfg} (hg : c.Good) (opt line : Bool) (args : List LcArg) (hr : ∀ a ∈ args, a.Honest)
    (hc : ∀ a ∈ args, a.Coherent) (hsome : ∃ a ∈ args, a.lcScatter = true ∨ a.lcDynamic ≠ none)
    (hn : ∀ a ∈ args, a.localised = false → a.plain.reserve = none)
    (hl : args.length < 2 ^ 53) (hs : (args.map LcArg.extra).sum < 2 ^ 56) (ht : (lcExpected line args).length < 2 ^ 56) :
    lcConcat opt c line args = .ok (lcExpected line args) := by
  have hmx := hg.mx
  have hln : line.toNat ≤ 1 := by cases line <;> simp
  unfold lcConcat
  rw [if_neg]
  · split_ifs with h1
    · have hp : ∀ a ∈ args, a.piecewise = true := List.all_eq_true.1 h1
      have key : (if 2 ^ 64 ≤ line.toNat + (args.map LcArg.extra).sum then (.error .stop : R (List Nat))
          else strReserve c ⟨[], c.fresh⟩ (line.toNat + (args.map LcArg.extra).sum) >>= fun s => lcChain s.cap line args)
          = .ok (lcExpected line args) := by
        rw [if_neg (by omega)]
        rcases strReserve_cases hg ⟨[], c.fresh⟩ (line.toNat + (args.map LcArg.extra).sum) with ⟨s', e', g1, _, _, _⟩ | ⟨_, g⟩
        · rw [e']
          show lcChain s'.cap line args = _
          have hneed : ((args.map LcArg.stored).map Item.need).sum = (args.map LcArg.extra).sum := by
            rw [List.map_map]
            congr 1
            exact List.map_congr_left fun a ha => stored_need (hn a ha) (hc a ha) (hp a ha)
          unfold lcChain
          rw [chainScatter_ok s'.cap line (args.map LcArg.stored) (by
            intro i hi
            obtain ⟨a, ha, rfl⟩ := List.mem_map.1 hi
            have := stored_ok (hr a ha) (hc a ha) (hp a ha)
            exact ⟨this.1, this.2.1⟩) (by omega)]
          rw [List.map_map]
          have : args.map (Item.text ∘ LcArg.stored) = args.map LcArg.text :=
            List.map_congr_left fun a ha => (stored_ok (hr a ha) (hc a ha) (hp a ha)).2.2
          rw [this]
          rfl
        · omega
      match args, key with
      | [], key => exact key
      | a :: b :: t, key => exact key
      | [a], key =>
        simp only []
        by_cases h3 : line = false ∧ a.lcScatter = true
        · rw [if_pos h3]
          simp [lcExpected, h3.1, text_local (local_of_scatter h3.2)]
        · rw [if_neg h3]
          exact key
    · have := lcPrintBuffered_ok (str_lawful hg) opt line args (s := ⟨[], c.fresh⟩) (fresh_inv hg) hr
        (fun i _ _ => by simp [Fits, strStream]) hl
      match hm : lcPrintBuffered opt (strStream c) line ⟨[], c.fresh⟩ args, this with
      | .ok s', this =>
        have := this.2
        simp only [List.nil_append] at this
        exact congrArg Except.ok this
      | .error .stop, this =>
        have h := this.2
        simp only [List.nil_append] at h
        omega
      | .error .ub, this => exact this.elim
  · intro hx
    obtain ⟨a, ha, h⟩ := hsome
    have := List.all_eq_true.1 hx a ha
    rcases h with h | h
    · simp [h] at this
    · obtain ⟨n, hn⟩ := Option.ne_none_iff_exists'.1 h
      simp [hn] at this

example : lcConcat true libstdcxx true (lcSample.take 3) = .ok [97, 58, 49, 44, 50, 51, 52, 119, 97, 104, 114, 10] :=
  c78_concat_partial libstdcxx_good true true (lcSample.take 3) (fun a ha => lcSample_honest a (List.mem_of_mem_take ha))
    (fun a ha => lcSample_coherent a (List.mem_of_mem_take ha)) ⟨lcSample[1], by decide, by decide⟩ (by decide) (by decide) (by decide)
    (by decide)

/-- **C78, `lc_concat` without anything localised** is `concat`. -/
theorem c78_concat_plain {c : StrCfg} (hg : c.Good) (opt line : Bool) (args : List LcArg) (hr : ∀ a ∈ args, a.Honest)
    (hp : ∀ a ∈ args, a.localised = false) (hl : args.length < 2 ^ 53)
    (hs : ((args.map LcArg.plain).map Item.need).sum < 2 ^ 56) (ht : (lcExpected line args).length < 2 ^ 56) :
    lcConcat opt c line args = .ok (lcExpected line args) := by
  unfold lcConcat
  rw [if_pos, ← plain_expected line hp]
  · exact c38_concat hg opt line _ (plain_honest hr hp) (by simpa using hl) hs (by rwa [plain_expected line hp])
  · refine List.all_eq_true.2 fun a ha => ?_
    have := hp a ha
    simp only [LcArg.localised, Bool.or_eq_false_iff] at this
    simp [this.1.1, this.1.2]

example : lcConcat true libstdcxx true [lcSample[0], lcSample[4]] = .ok [97, 58, 55, 10] :=
  c78_concat_plain libstdcxx_good true true [lcSample[0], lcSample[4]] (by simp [lcSample_honest]) (by decide) (by decide) (by decide) (by decide)

/-- **C78, `lc_concat`, violated.** The space announced by the type of an argument is not counted: with a time stamp of 20 characters
next to a localised number the text is stored outside the string. An argument with a localised `print_define` is
printed without the locale. -/
theorem c78_concat_violated :
    let stamp : LcArg := { plain := ⟨List.replicate 20 48, [], false, some 20, none, false, none⟩ }
    let num : LcArg := { plain := ⟨[55], [], false, some 20, none, false, none⟩, lcText := [55], lcDynamic := some 4 }
    let cust : LcArg := { plain := ⟨[40], [], false, none, none, false, some [.put 40]⟩, lcText := [91], lcCustom := some [.put 91] }
    lcConcat true libstdcxx false [stamp, num] = .error .ub ∧
    lcConcat true libstdcxx false [cust] = .ok [40] ∧ cust.text = [91] := by
  decide +kernel

end Verif.LcPrint
