import Verif.Print.Lemmas4
import Mathlib.Tactic.FinCases
import Mathlib.Tactic.Push
/-!
# C63, C38: `print` writes its arguments in order; `concat` returns the same text
-/
namespace Verif.Print

/-- A sample of arguments: a literal, a number with room to spare, a value-dependent size and one that only has a
`print_define`. -/
def sample : List Item :=
  [⟨[97, 98], [], true, none, none, false, none⟩, ⟨[52, 50], [0, 0], false, some 20, none, true, none⟩,
   ⟨[55], [], false, some 20, none, false, none⟩, ⟨[120, 121], [9], false, none, some 5, false, none⟩,
   ⟨[40, 41], [], false, none, none, false, some [.write [40], .put 41]⟩]

theorem sample_honest : ∀ i ∈ sample, i.Honest := by
  intro i hi
  fin_cases hi <;> constructor <;> simp <;> try decide

/-! ## Streams with a buffer -/

/-- **C63, buffered file.** `print` and `println` to a buffered file append exactly the texts of the arguments in their order
and, for `println`, a line feed — whatever mixture of arguments it is, however full the buffer is, whatever its size, and
in builds with and without optimisation; no character outside the buffers is touched. -/
theorem c63_file {cfg : IoBuf.Cfg} (hb : 1 ≤ cfg.bfs) (opt line : Bool) (items : List Item) (hr : ∀ i ∈ items, i.Honest)
    (hl : items.length < 2 ^ 53) (s : IoBuf.St) (hs : IoBuf.Inv cfg s) (hd : ∀ a ∈ s.dev.script, a = IoBuf.Answer.full) :
    ∃ s', printBuffered opt (fileStream cfg) line s items = .ok s' ∧ IoBuf.Inv cfg s' ∧
      s'.dev.got ++ s'.held = s.dev.got ++ s.held ++ expected line items := by
  have := printBuffered_ok (file_lawful hb) opt line items (s := s) ⟨hs, hd⟩ hr (fun i _ => by simp [Fits, fileStream]) hl
  match hm : printBuffered opt (fileStream cfg) line s items, this with
  | .ok s', this => exact ⟨s', rfl, this.1.1, this.2⟩
  | .error .stop, this => exact this.elim
  | .error .ub, this => exact this.elim

/-- Several `print`s and `println`s in a row. -/
def printMany {S : Type} (opt : Bool) (st : Stream S) (s : S) : List (Bool × List Item) → R S
  | [] => .ok s
  | (line, items) :: t => printBuffered opt st line s items >>= fun s => printMany opt st s t

theorem printMany_ok {S : Type} {st : Stream S} {out : S → List Nat} {Inv : S → Prop} {may : Nat → Prop}
    (L : Lawful st out Inv may) (opt : Bool) (l : List (Bool × List Item))
    (hr : ∀ p ∈ l, (∀ i ∈ p.2, i.Honest) ∧ (∀ i ∈ p.2, Fits st i) ∧ p.2.length < 2 ^ 53) : ∀ s, Inv s →
    Done out Inv may s (l.map fun p => expected p.1 p.2).flatten (printMany opt st s l) := by
  induction l with
  | nil => intro s hs; exact Done.nil hs
  | cons p t ih =>
    intro s hs
    obtain ⟨line, items⟩ := p
    obtain ⟨h1, h2, h3⟩ := hr _ (List.mem_cons_self ..)
    exact (printBuffered_ok L opt line items hs h1 h2 h3).bind L fun s' h' _ =>
      ih (fun q hq => hr q (List.mem_cons_of_mem _ hq)) s' h'

/-- **C63, buffered file, histories.** Any sequence of `print`s and `println`s followed by a `flush` delivers exactly the
concatenation of what was printed to the device. -/
theorem c63_file_history {cfg : IoBuf.Cfg} (hb : 1 ≤ cfg.bfs) (opt : Bool) (l : List (Bool × List Item))
    (hr : ∀ p ∈ l, (∀ i ∈ p.2, i.Honest) ∧ p.2.length < 2 ^ 53) (s : IoBuf.St) (hs : IoBuf.Inv cfg s)
    (hd : ∀ a ∈ s.dev.script, a = IoBuf.Answer.full) :
    ∃ s' s'', printMany opt (fileStream cfg) s l = .ok s' ∧ IoBuf.flush s' = (s'', .ok) ∧
      s''.dev.got = s.dev.got ++ s.held ++ (l.map fun p => expected p.1 p.2).flatten := by
  have := printMany_ok (file_lawful hb) opt l (fun p hp => ⟨(hr p hp).1, fun i _ => by simp [Fits, fileStream], (hr p hp).2⟩) s ⟨hs, hd⟩
  match hm : printMany opt (fileStream cfg) s l, this with
  | .ok s', this =>
    obtain ⟨s'', o, e, ok, _, h3⟩ := IoBuf.flush_ok this.1.1 (.inl this.1.2)
    obtain ⟨ho, _, h'⟩ := file_of_ok this.1 ok
    subst ho
    refine ⟨s', s'', rfl, e, ?_⟩
    have h4 := (h3 rfl).1
    have : fileOut s'' = _ := h'.trans (congrArg (· ++ []) this.2)
    simpa [fileOut, h4] using this
  | .error .stop, this => exact this.elim
  | .error .ub, this => exact this.elim

/-- The hypotheses are met, with a buffer of 8 characters so that every path is taken. -/
example : ∃ s' s'', printMany true (fileStream ⟨8, true⟩) ⟨none, ⟨[], []⟩⟩ [(true, sample), (false, []), (true, [])] = .ok s' ∧
    IoBuf.flush s' = (s'', .ok) ∧ s''.dev.got = [97, 98, 52, 50, 55, 120, 121, 40, 41, 10, 10] := by
  refine c63_file_history (by decide) true _ ?_ _ (by simp [IoBuf.Inv]) (by simp)
  intro p hp
  fin_cases hp
  · exact ⟨sample_honest, by decide⟩
  · simp
  · simp

/-- **C63, fixed space.** Printing to a view of a fixed space either appends exactly the texts or ends the program; it never
writes outside the space. Arguments whose size depends on their value are excluded (see `c53_dynamic_violated`). -/
theorem c63_view_partial (cap : Nat) (opt line : Bool) (items : List Item) (hr : ∀ i ∈ items, i.Honest)
    (hf : ∀ i ∈ items, i.scatter = true ∨ i.reserve ≠ none ∨ i.dynamic = none) (hl : items.length < 2 ^ 53)
    (l : List Nat) (h : l.length ≤ cap) :
    printBuffered opt (viewStream cap) line l items = .ok (l ++ expected line items) ∧ (l ++ expected line items).length ≤ cap ∨
    printBuffered opt (viewStream cap) line l items = .error .stop := by
  have := printBuffered_ok (view_lawful cap) opt line items (s := l) h hr (fun i hi _ => hf i hi) hl
  match hm : printBuffered opt (viewStream cap) line l items, this with
  | .ok s', this =>
    obtain ⟨h1, h2⟩ := this
    simp only [id] at h2
    exact .inl ⟨by rw [h2], by rw [← h2]; exact h1⟩
  | .error .stop, this => exact .inr rfl
  | .error .ub, this => exact this.elim

example : printBuffered true (viewStream 64) true [1] [sample[0], sample[1], sample[2]] = .ok [1, 97, 98, 52, 50, 55, 10] := by
  decide +kernel

/-- **C63, `dynamic_io_buffer`, violated.** After the buffer has grown once, a later piece of text overwrites the beginning of
what was printed and the rest is dropped: printing "abc", "d" and "e" leaves "e". A line feed as the first thing printed
is stored outside the (empty) buffer. -/
theorem c63_dynamic_violated :
    (printBuffered true dynStream false ⟨[], 0⟩ [⟨[97, 98, 99], [], true, none, none, false, none⟩,
      ⟨[100], [], true, none, none, false, none⟩, ⟨[101], [], true, none, none, false, none⟩]).map DynBuf.out = .ok [101] ∧
    printBuffered true dynStream true ⟨[], 0⟩ [] = .error .ub := by
  constructor <;> decide +kernel

/-! ## Devices without a buffer -/

/-- A single argument that only has a `print_define` is handed to the device directly, which compiles only if it does not
use `put` and no line feed has to follow. -/
def Compiles (cfg : DevCfg) (line : Bool) (items : List Item) : Prop :=
  ∀ i, items = [i] → i.onlyCustom →
    (line = false → ∀ l, i.custom = some l → ∀ p ∈ l, ∃ bs, p = Prim.write bs) ∧ (line = true → cfg.writeln = false)

/-- **C63, device without a buffer.** `print` and `println` deliver exactly the texts of the arguments in order, whether they
go through the list of pieces, the temporary buffer or directly. -/
theorem c63_device (cfg : DevCfg) (line : Bool) (d : Dev) (items : List Item) (hr : ∀ i ∈ items, i.Honest)
    (hl : items.length < 2 ^ 53) (ho : reserveTotal items < 2 ^ 64 ∧ dynamicTotal items < 2 ^ 64) (hc : Compiles cfg line items) :
    ∃ d', printDevice cfg line d items = .ok d' ∧ d'.got = d.got ++ expected line items := by
  unfold printDevice
  by_cases h0 : items = [] ∧ line = false
  · rw [if_pos h0]
    obtain ⟨rfl, rfl⟩ := h0
    exact ⟨d, rfl, by simp [expected]⟩
  · rw [if_neg h0]
    have h0' : items ≠ [] ∨ line = true := by
      by_contra h
      push Not at h
      exact h0 ⟨h.1, by simpa using h.2⟩
    match items, h0' with
    | [], h0' => exact fallback_ok hr hl h0' ho
    | i :: j :: t, h0' => exact fallback_ok hr hl h0' ho
    | [i], h0' =>
      simp only []
      split_ifs with h1
      · have hi := hr i (by simp)
        obtain ⟨d', e, g⟩ := devControl_ok (cfg := cfg) (line := line) (d := d) hi (fun hcu => by
          have := hc i rfl hcu
          have hline : line = false := by
            by_contra hlf
            have hlt : line = true := by simpa using hlf
            have hw := this.2 hlt
            obtain ⟨c1, c2, c3⟩ := hcu
            simp [direct, hlt, hw, c2, c3] at h1
          exact ⟨hline, this.1 hline⟩)
        exact ⟨d', e, by rw [g]; simp [expected, lf]⟩
      · exact fallback_ok hr hl h0' ho

example : ∃ d', printDevice ⟨false, false⟩ true ⟨[[1]]⟩ sample = .ok d' ∧ d'.got = [1, 97, 98, 52, 50, 55, 120, 121, 40, 41, 10] := by
  obtain ⟨d', e, g⟩ := c63_device ⟨false, false⟩ true ⟨[[1]]⟩ sample sample_honest (by decide) (by decide) (by simp [Compiles, sample])
  exact ⟨d', e, by rw [g]; decide⟩

/-- **C63, one call.** On a device with `scatter_write`, a `print` or `println` of arguments that can be printed without
`print_define` reaches the device in a single call carrying the whole text, so that lines of several writers do not mix;
except for a single argument that is available as a range and announces a size as well, printed with a line feed on a
device without `writeln`. -/
theorem c63_one_call (cfg : DevCfg) (line : Bool) (d : Dev) (items : List Item) (hr : ∀ i ∈ items, i.Honest)
    (h0 : items ≠ [] ∨ line = true) (ho : reserveTotal items < 2 ^ 64 ∧ dynamicTotal items < 2 ^ 64) (hs : cfg.scatter = true)
    (hp : ∀ i ∈ items, i.plain = true)
    (hx : line = true → cfg.writeln = false → ∀ i, items = [i] → i.scatter = true → i.reserve = none ∧ i.dynamic = none) :
    printDevice cfg line d items = .ok ⟨d.calls ++ [expected line items]⟩ := by
  have hall : items.all Item.plain = true := List.all_eq_true.2 hp
  have hfb : fallback cfg line d items = .ok (d.call (expected line items)) := by
    unfold fallback
    by_cases h1 : line = true ∧ items = []
    · rw [if_pos h1]
      obtain ⟨rfl, rfl⟩ := h1
      rfl
    · rw [if_neg h1, if_pos ⟨hs, hall⟩]
      simp only []
      rw [if_neg (by omega)]
      obtain ⟨a', ps, e, _, _, m⟩ := scatterAll_ok
        (rf := !items.all Item.scatter && items.all fun i => i.scatter || i.reserve.isSome) items
        (fun i hi => ⟨hr i hi, hp i hi⟩)
        ⟨List.replicate (reserveTotal items) 0, List.replicate (dynamicTotal items) 0, 0, 0⟩ (by simp) (by simp)
      rw [e]
      simp only [m]
      rfl
  unfold printDevice
  rw [if_neg (by rintro ⟨a, b⟩; rcases h0 with h | h; exact h a; rw [b] at h; cases h)]
  match items, hfb, hr, hp, hx with
  | [], hfb, _, _, _ => exact hfb
  | i :: j :: t, hfb, _, _, _ => exact hfb
  | [i], hfb, hr, hp, hx =>
    simp only []
    split_ifs with h1
    · have hi := hr i (by simp)
      have hpi := hp i (by simp)
      have he : expected line [i] = i.text ++ lf line := by simp [expected, lf]
      rw [he]
      unfold devControl
      by_cases hsc : i.scatter = true
      · rw [if_pos hsc]
        cases line with
        | false => simp [Dev.call, lf]
        | true =>
          cases hw : cfg.writeln with
          | true => simp [Dev.call, lf]
          | false =>
            obtain ⟨a, b⟩ := hx rfl hw i rfl hsc
            simp [direct, hw, a, b] at h1
      · rw [if_neg hsc]
        cases h2 : i.reserve with
        | some n =>
          have := hi.reserve_ok n h2
          simp only []
          rw [intoArray_ok (by omega)]
          rfl
        | none =>
          cases h3 : i.dynamic with
          | some n =>
            have := hi.dynamic_ok n h3
            have := hi.dynamic_small n h3
            simp only []
            rw [if_neg (by omega), intoArray_ok (by omega)]
            rfl
          | none => simp [Item.plain, hsc, h2, h3] at hpi
    · exact hfb

example : printDevice ⟨true, false⟩ true ⟨[[1]]⟩ (sample.take 4) = .ok ⟨[[1], [97, 98, 52, 50, 55, 120, 121, 10]]⟩ := by
  refine c63_one_call ⟨true, false⟩ true ⟨[[1]]⟩ (sample.take 4) (fun i hi => sample_honest i (List.mem_of_mem_take hi))
    (.inr rfl) (by decide) rfl (by decide) (by simp [sample])

/-- The exception is real: such an argument is delivered in two calls. -/
theorem c63_one_call_violated :
    printDevice ⟨true, false⟩ true ⟨[]⟩ [⟨[97], [], true, some 1, none, false, none⟩] = .ok ⟨[[97], [10]]⟩ := by
  decide +kernel

/-! ## Strings -/

/-- **C38.** `concat` and `concatln` return exactly the texts of the arguments in order (and the line feed), for every string
type with a buffer whose `reserve` and `append` do what they say, whatever the arguments; no character outside the
string's capacity is touched. -/
theorem c38_concat {c : StrCfg} (hc : c.Good) (opt line : Bool) (items : List Item) (hr : ∀ i ∈ items, i.Honest)
    (hl : items.length < 2 ^ 53) (hs : (items.map Item.need).sum < 2 ^ 56) (ht : (expected line items).length < 2 ^ 56) :
    concat opt c line items = .ok (expected line items) := by
  unfold concat
  by_cases h0 : items = []
  · subst h0; rfl
  · rw [if_neg h0]
    obtain ⟨s', e, g⟩ := concatRef_ok hc opt line items h0 hr hl hs ht
    rw [e]
    exact congrArg Except.ok g

/-- **C38, other string types.** The same for string types that can only be constructed from a range. -/
theorem c38_concat_other {cs : Nat} (h1 : 1 ≤ cs) (h8 : cs ≤ 8) (opt line : Bool) (items : List Item) (hr : ∀ i ∈ items, i.Honest)
    (hl : items.length < 2 ^ 53) (hs : (items.map Item.need).sum < 2 ^ 56) (ht : (expected line items).length < 2 ^ 56) :
    concatOther opt cs line items = .ok (expected line items) := by
  unfold concatOther
  by_cases h0 : items = []
  · subst h0; rfl
  · rw [if_neg h0]
    simp only []
    have key : (if items.all fun i => i.reserve.isSome then chainLine (reserveTotal items + line.toNat) line items
      else
        match concatRef opt (concatBuffer cs) line ⟨[], (concatBuffer cs).fresh⟩ items with
        | .ok s => .ok s.content
        | .error e => .error e) = .ok (expected line items) := by
      by_cases h2 : (items.all fun i => i.reserve.isSome) = true
      · rw [if_pos h2]
        have hn : ∀ i ∈ items, i.reserve ≠ none := fun i hi =>
          Option.isSome_iff_ne_none.1 (List.all_eq_true.1 h2 i hi)
        exact (chainLine_ok _ line items hr hn (Nat.le_refl _)).1
      · rw [if_neg h2]
        obtain ⟨s', e, g⟩ := concatRef_ok (concatBuffer_good h1 h8) opt line items h0 hr hl hs ht
        rw [e]
        exact congrArg Except.ok g
    match items, h0, key with
    | i :: j :: t, _, key => exact key
    | [i], _, key =>
      simp only []
      by_cases h3 : line = false ∧ i.scatter = true
      · rw [if_pos h3]
        simp [expected, h3.1]
      · rw [if_neg h3]
        exact key

/-- A string of libstdc++: 15 characters inside the object, doubling. -/
def libstdcxx : StrCfg := ⟨15, some 15, true, fun cap n => max n (2 * cap), fun cap n => max n (2 * cap), 1⟩

theorem libstdcxx_good : libstdcxx.Good where
  reserve := fun cap n h => Nat.le_max_left _ _
  append := fun cap n h => Nat.le_max_left _ _
  sso := by simp [libstdcxx]
  char := by decide
  own := by simp [libstdcxx]

example : concat true libstdcxx true sample = .ok [97, 98, 52, 50, 55, 120, 121, 40, 41, 10] :=
  (c38_concat libstdcxx_good true true sample sample_honest (by decide) (by decide) (by decide)).trans (by decide)

example : concatOther true 4 false (sample.take 4) = .ok [97, 98, 52, 50, 55, 120, 121] :=
  (c38_concat_other (by decide) (by decide) true false (sample.take 4) (fun i hi => sample_honest i (List.mem_of_mem_take hi))
    (by decide) (by decide) (by decide)).trans (by decide)

/-- **C38, appending to a string.** Printing to a reference to an existing `std::string` appends to it. -/
theorem c38_append {c : StrCfg} (hc : c.Good) (ha : c.aux = true) (opt line : Bool) (items : List Item)
    (hr : ∀ i ∈ items, i.Honest) (hl : items.length < 2 ^ 53) (s : Str) (hs : s.content.length ≤ s.cap) :
    ∃ s', printBuffered opt (strStream c) line s items = .ok s' ∧ s'.content = s.content ++ expected line items ∧
      s'.content.length ≤ s'.cap := by
  have := printBuffered_ok (str_lawful hc) opt line items (s := s) ⟨hs, by simp [ha]⟩ hr (fun i _ => by simp [Fits, strStream]) hl
  match hm : printBuffered opt (strStream c) line s items, this with
  | .ok s', this => exact ⟨s', rfl, this.2, this.1.1⟩
  | .error .stop, this => rw [Done, StrMay, ha] at this; exact absurd this.1 (by simp)
  | .error .ub, this => exact this.elim

example : ∃ s', printBuffered true (strStream libstdcxx) true ⟨[1, 2], 15⟩ sample = .ok s' ∧
    s'.content = [1, 2] ++ expected true sample ∧ s'.content.length ≤ s'.cap :=
  c38_append libstdcxx_good rfl true true sample sample_honest (by decide) ⟨[1, 2], 15⟩ (by decide)

end Verif.Print
