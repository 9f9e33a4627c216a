import Verif.Scan.Back
/-!
# C71, C72: `scan(in, args...)`
-/
namespace Verif.Scan
open Verif Verif.IntPrint Verif.IntScan Verif.IoBuf Verif.Line

/-- The value `scan` returned. -/
def Res.returned : Res → Option Bool
  | .ret b => some b
  | _ => none

/-- The code `scan` threw. -/
def Res.threw : Res → Option Code
  | .thrown c => some c
  | _ => none

theorem ends_view {c : Code} (h : c ≠ .ok) : Ends (some c) (viewRes c).returned (viewRes c).threw := by
  unfold viewRes
  rw [if_neg h]
  by_cases he : c = .eof
  · rw [if_pos he]; exact .inr (.inl ⟨by rw [he], rfl, rfl⟩)
  · rw [if_neg he]; exact .inr (.inr ⟨c, rfl, he, rfl, rfl⟩)

theorem readAll_notOk {ws : List What} {T : List Nat} {vs : List Val} {e : Option Code} {r : List Nat} (h : ReadAll ws T vs e r) : e ≠ some .ok := by
  induction h with
  | done => simp
  | more _ _ ih => exact ih
  | stop _ hc => intro h; exact hc (Option.some.inj h)

theorem readAll_length {ws : List What} {T : List Nat} {vs : List Val} {r : List Nat} (h : ReadAll ws T vs none r) : vs.length = ws.length := by
  generalize he : (none : Option Code) = e at h
  induction h with
  | done => rfl
  | more _ _ ih => simp [ih he]
  | stop _ hc => cases he

theorem ScanOk.scanned {args : List (What × Val)} {T rest : List Nat} {vars : List Val} {res : Res} (h : ScanOk args T rest vars res) :
    Scanned (args.map (·.1)) (args.map (·.2)) T vars rest res.returned res.threw := by
  obtain ⟨vs, e, hr, rfl, h1, h2, h3⟩ := h
  refine ⟨vs, e, hr, ?_, h1, by simpa using h2, h3⟩
  match e, hr with
  | none, _ => exact .inl ⟨rfl, rfl, rfl⟩
  | some c, hr => exact ends_view (fun h => readAll_notOk hr (by rw [h]))

/-! ## C71: buffered and contiguous streams -/

/-- C71: the specification determines the values, why scanning stops, and the rest of the input. -/
theorem c71_spec_functional {ws : List What} (hb : BasesOk ws) {T : List Nat} {vs vs' : List Val} {e e' : Option Code} {r r' : List Nat}
    (h : ReadAll ws T vs e r) (h' : ReadAll ws T vs' e' r') : vs = vs' ∧ e = e' ∧ r = r' :=
  readAll_functional hb h h'

/-- C71 (partial: `SafeAll`, the inputs on which the individual scanners are right, see C06, C08-C10, C51): `scan(in,args...)` from a
buffered stream in any state, with any buffer size and any fragmentation of the device's answers, never hangs or runs into undefined
behaviour; unless the device throws, the arguments take consecutive prefixes of the coming text as specified, the characters behind
the last one are what the stream delivers next, and the result says why it stopped. -/
theorem c71_scan_partial (P : Plat) (hP : PlatOk P) (bfs : Nat) (hb : 1 ≤ bfs) (s : ISt) (hwf : s.avail.isSome = true) (hea : Eager s.dev.script)
    (hn : NoFail s.dev.script ∨ s.mem ≠ none) (fuel : Nat) (hf : s.ahead.length < fuel) (args : List (What × Val))
    (hs : SafeAll P (args.map (·.1)) s.ahead) :
    ∃ s' vars res, scanAll P bfs fuel s args = some (s', vars, res) ∧ s'.avail.isSome = true ∧ (NoFail s.dev.script → res ≠ .device) ∧
      (res ≠ .device → Scanned (args.map (·.1)) (args.map (·.2)) s.ahead vars s'.ahead res.returned res.threw) := by
  obtain ⟨s', vars, res, h1, h2, h3, h4⟩ := scanAll_ok hP hb (args := args) hwf hea hn hf hs
  exact ⟨s', vars, res, h1, h2, h3, fun h => (h4 h).scanned⟩

/-- C71 (partial as above): what `scan` does depends on the coming text only, not on the platform, the buffer size, the state of the
buffer or how the device fragments the text. -/
theorem c71_blocks_partial (P P' : Plat) (hP : PlatOk P) (hP' : PlatOk P') (bfs bfs' : Nat) (hb : 1 ≤ bfs) (hb' : 1 ≤ bfs') (s t : ISt)
    (hwf : s.avail.isSome = true) (hwf' : t.avail.isSome = true) (hea : Eager s.dev.script) (hea' : Eager t.dev.script) (hn : NoFail s.dev.script)
    (hn' : NoFail t.dev.script) (hst : s.ahead = t.ahead) (fuel : Nat) (hf : s.ahead.length < fuel) (args : List (What × Val))
    (hs : SafeAll P (args.map (·.1)) s.ahead) (hs' : SafeAll P' (args.map (·.1)) s.ahead) (hbase : BasesOk (args.map (·.1))) :
    ∃ s' vars res t' vars' res', scanAll P bfs fuel s args = some (s', vars, res) ∧ scanAll P' bfs' fuel t args = some (t', vars', res') ∧
      s'.ahead = t'.ahead ∧ res.returned = res'.returned ∧ res.threw = res'.threw ∧
      ∃ n, vars.take n = vars'.take n ∧ vars.drop (n + 1) = vars'.drop (n + 1) ∧ (res.returned = some true → vars = vars') := by
  obtain ⟨s', vars, res, e1, _, d1, r1⟩ := c71_scan_partial P hP bfs hb s hwf hea (.inl hn) fuel hf args hs
  obtain ⟨t', vars', res', e2, _, d2, r2⟩ := c71_scan_partial P' hP' bfs' hb' t hwf' hea' (.inl hn') fuel (hst ▸ hf) args (hst ▸ hs')
  obtain ⟨vs, e, ra, en, p1, l1, q1⟩ := r1 (d1 hn)
  obtain ⟨vs', e', ra', en', p2, l2, q2⟩ := r2 (d2 hn')
  rw [← hst] at ra'
  obtain ⟨rfl, rfl, hr⟩ := readAll_functional hbase ra ra'
  refine ⟨s', vars, res, t', vars', res', e1, e2, hr, ?_, ?_, vs.length, ?_, q1.trans q2.symm, ?_⟩
  · rcases en with ⟨h, a, b⟩ | ⟨h, a, b⟩ | ⟨c, h, hc, a, b⟩ <;> rcases en' with ⟨h', a', b'⟩ | ⟨h', a', b'⟩ | ⟨c', h', hc', a', b'⟩ <;>
      simp_all
  · rcases en with ⟨h, a, b⟩ | ⟨h, a, b⟩ | ⟨c, h, hc, a, b⟩ <;> rcases en' with ⟨h', a', b'⟩ | ⟨h', a', b'⟩ | ⟨c', h', hc', a', b'⟩ <;>
      simp_all
  · obtain ⟨x, rfl⟩ := p1
    obtain ⟨y, rfl⟩ := p2
    simp
  · intro ht
    have he : e = none := by
      rcases en with ⟨h, a, b⟩ | ⟨h, a, b⟩ | ⟨c, h, hc, a, b⟩
      · exact h
      · rw [a] at ht; cases ht
      · rw [a] at ht; cases ht
    subst he
    have hl := readAll_length ra
    simp only [List.length_map] at hl l1 l2
    have w1 := List.IsPrefix.eq_of_length p1 (by omega)
    have w2 := List.IsPrefix.eq_of_length p2 (by omega)
    rw [← w1, ← w2]

/-- C71 (partial: `SafeViewAll`): the same for streams whose whole content is in memory. -/
theorem c71_view_partial (P : Plat) (hP : PlatOk P) (T : List Nat) (args : List (What × Val)) (hs : SafeViewAll P (args.map (·.1)) T) :
    ∃ rest vars res, scanViewAll P T args = some (rest, vars, res) ∧
      Scanned (args.map (·.1)) (args.map (·.2)) T vars rest res.returned res.threw := by
  obtain ⟨rest, vars, res, h1, h2⟩ := scanViewAll_ok hP hs
  exact ⟨rest, vars, res, h1, h2.scanned⟩

/-! ### Strings -/

/-- The arguments are strings or have a fixed size. -/
def Textual (ws : List What) : Prop := ∀ bits signed noskipws skipzero base, What.int bits signed noskipws skipzero base ∉ ws

theorem reads_suffix {w : What} (hw : ∀ bits signed noskipws skipzero base, w ≠ .int bits signed noskipws skipzero base) {T : List Nat} {o : Out}
    (h : Reads w T o) : o.rest <:+ T := by
  cases w with
  | word =>
    rcases h with ⟨_, rfl⟩ | ⟨ws, w, r, e, _, _, _, _, rfl⟩
    · exact List.nil_suffix
    · exact ⟨ws ++ w, e.symm⟩
  | token =>
    rcases h with ⟨_, rfl⟩ | ⟨_, w, r, e, _, _, rfl⟩
    · exact List.nil_suffix
    · exact ⟨w, e.symm⟩
  | line =>
    rcases h with ⟨_, rfl⟩ | ⟨_, _, rfl⟩ | ⟨w, r, e, _, rfl⟩
    · exact List.nil_suffix
    · exact List.nil_suffix
    · exact ⟨w ++ [10], by rw [e]; simp⟩
  | whole => rw [show o = _ from h]; exact List.nil_suffix
  | chars n =>
    rcases h with ⟨_, rfl⟩ | ⟨w, r, e, _, rfl⟩
    · exact List.nil_suffix
    · exact ⟨w, e.symm⟩
  | int => exact absurd rfl (hw _ _ _ _ _)
  | fixed n f =>
    rcases h with ⟨_, rfl⟩ | ⟨w, r, e, _, rfl⟩
    · exact List.nil_suffix
    · exact ⟨w, e.symm⟩

theorem safeAll_text {P : Plat} : ∀ {ws : List What} {T : List Nat}, Textual ws → CodeUnits P.cw T → SpacePlain P T → SafeAll P ws T
  | [], _, _, _, _ => trivial
  | w :: ws, T, ht, hc, hp => by
    have hw : ∀ bits signed noskipws skipzero base, w ≠ .int bits signed noskipws skipzero base :=
      fun a b c d e h => ht a b c d e (by rw [h]; simp)
    refine ⟨?_, fun r v hr => ?_⟩
    · cases w with
      | int => exact absurd rfl (hw _ _ _ _ _)
      | word => exact ⟨hc, hp⟩
      | token => exact hc
      | line => exact hc
      | whole => trivial
      | chars => trivial
      | fixed => trivial
    · obtain ⟨a, ha⟩ := reads_suffix hw hr
      simp only at ha
      exact safeAll_text (fun a b c d e h => ht a b c d e (by simp [h])) (fun c hm => hc c (by rw [← ha]; simp [hm]))
        (fun h c hm => hp h c (by rw [← ha]; simp [hm]))

/-- C71: reading strings (words, tokens, lines, the whole rest, a number of characters) and values of fixed size is exact for every
text (without vector instructions; with them the text must avoid the characters the vectorised white space test gets wrong, C51). -/
theorem c71_strings_partial (P : Plat) (hP : PlatOk P) (bfs : Nat) (hb : 1 ≤ bfs) (s : ISt) (hwf : s.avail.isSome = true) (hea : Eager s.dev.script)
    (hn : NoFail s.dev.script) (fuel : Nat) (hf : s.ahead.length < fuel) (args : List (What × Val)) (ht : Textual (args.map (·.1)))
    (hc : CodeUnits P.cw s.ahead) (hp : SpacePlain P s.ahead) :
    ∃ s' vars res, scanAll P bfs fuel s args = some (s', vars, res) ∧
      Scanned (args.map (·.1)) (args.map (·.2)) s.ahead vars s'.ahead res.returned res.threw := by
  obtain ⟨s', vars, res, h1, _, h3, h4⟩ := c71_scan_partial P hP bfs hb s hwf hea (.inl hn) fuel hf args (safeAll_text ht hc hp)
  exact ⟨s', vars, res, h1, h4 (h3 hn)⟩

/-! ### Numbers -/

theorem numText_chars {bits : Nat} {signed : Bool} : ∀ {items : List (List Nat × Int)} {tail : List Nat}, Separated items tail →
    (∀ p ∈ items, InRange bits signed p.2) → ∀ c ∈ numText items tail, 9 ≤ c ∧ c < 58
  | [], tail, h, _, c, hc => by
    have := h c hc
    unfold IsSpace at this; omega
  | (sep, i) :: items, tail, h, hr, c, hc => by
    simp only [numText, List.mem_append] at hc
    rcases hc with hc | hc | hc
    · have := h.1 c hc
      unfold IsSpace at this; omega
    · unfold decimal at hc
      rcases List.mem_append.mp hc with hc | hc
      · obtain ⟨neg, hs, _⟩ := sign_decimal (hr _ (by simp : (sep, i) ∈ _))
        rcases hs with ⟨h, _⟩ | ⟨_, h, _⟩ <;> rw [h] at hc <;> simp at hc; omega
      · obtain ⟨k, hk⟩ := run_mem (numeral_run 10 (by omega) false i.natAbs) c hc
        obtain ⟨h1, h2 | h2⟩ := hk <;> (unfold digitChar at h2; rw [if_pos h1] at h2; omega)
    · exact numText_chars h.2.2 (fun p hp => hr p (by simp [hp])) c hc

theorem numText_first : ∀ {items : List (List Nat × Int)} {tail : List Nat}, Separated items tail → (∀ p ∈ items, p.1 ≠ []) →
    ∀ c t, numText items tail = c :: t → IsSpace c
  | [], tail, h, _, c, t, he => h c (by rw [show tail = c :: t from he]; simp)
  | (sep, i) :: items, tail, h, hne, c, t, he => by
    cases sep with
    | nil => exact absurd rfl (hne ([], i) (by simp))
    | cons a b =>
      simp only [numText, List.cons_append, List.cons.injEq] at he
      rw [← he.1]
      exact h.1 a (by simp)

theorem numText_safe {P : Plat} (hP : PlatOk P) {bits : Nat} {signed : Bool} (hw : Width bits) : ∀ {items : List (List Nat × Int)} {tail : List Nat},
    Separated items tail → (∀ p ∈ items, InRange bits signed p.2 ∧ p.2 ≠ 0) →
    SafeAll P (items.map fun _ => .int bits signed false false 10) (numText items tail) ∧
    ReadAll (items.map fun _ => .int bits signed false false 10) (numText items tail) (items.map fun p => .num p.2) none tail
  | [], tail, _, _ => ⟨trivial, .done _⟩
  | (sep, i) :: items, tail, h, hr => by
    obtain ⟨hi, hi0⟩ := hr (sep, i) (by simp)
    have ih := numText_safe (P := P) hP (signed := signed) hw h.2.2 (fun p hp => hr p (by simp [hp]))
    obtain ⟨hv, hs, hreads⟩ := intSafe_number hP hw hi hi0 h.1 (numText_first h.2.2 h.2.1)
      (numText_chars h.2.2 (fun p hp => (hr p (by simp [hp])).1))
    refine ⟨⟨⟨hv, hs⟩, fun r v hrd => ?_⟩, .more hreads ih.2⟩
    have := reads_functional (fun a b c d e he => by cases he; omega) hreads hrd
    simp only [Out.mk.injEq, Option.some.injEq, true_and] at this
    rw [← this.1]
    exact ih.1

/-- C71 (partial: the number zero is excluded, see `c71_zero_violated`): numbers separated by white space are read exactly, for every
width and signedness, every buffer size and every fragmentation, and what follows them is left. -/
theorem c71_numbers_partial (P : Plat) (hP : PlatOk P) (bits : Nat) (signed : Bool) (hw : Width bits) (bfs : Nat) (hb : 1 ≤ bfs) (s : ISt)
    (hwf : s.avail.isSome = true) (hea : Eager s.dev.script) (hn : NoFail s.dev.script) (items : List (List Nat × Int)) (tail : List Nat)
    (hsep : Separated items tail) (hr : ∀ p ∈ items, InRange bits signed p.2 ∧ p.2 ≠ 0) (hT : s.ahead = numText items tail) (fuel : Nat)
    (hf : s.ahead.length < fuel) (v : Val) :
    ∃ s', scanAll P bfs fuel s (items.map fun _ => (.int bits signed false false 10, v)) = some (s', items.map fun p => .num p.2, .ret true) ∧
      s'.ahead = tail := by
  obtain ⟨h1, h2⟩ := numText_safe hP (signed := signed) hw hsep hr
  have hm : (items.map fun _ => (What.int bits signed false false 10, v)).map (·.1) = items.map fun _ => What.int bits signed false false 10 := by
    simp
  obtain ⟨s', vars, res, e, _, d, hsc⟩ := c71_scan_partial P hP bfs hb s hwf hea (.inl hn) fuel hf (items.map fun _ => (.int bits signed false false 10, v))
    (by rw [hm, hT]; exact h1)
  obtain ⟨vs, er, ra, en, p1, l1, _⟩ := hsc (d hn)
  rw [hm, hT] at ra
  obtain ⟨hvs, he, hrest⟩ := readAll_functional (by
    intro a b c d e hm
    simp only [List.mem_map] at hm
    obtain ⟨_, _, hm⟩ := hm
    cases hm; omega) h2 ra
  have hl : vs.length = vars.length := by rw [l1, ← hvs]; simp
  have := List.IsPrefix.eq_of_length p1 hl
  refine ⟨s', ?_, hrest.symm⟩
  rw [e, ← this, ← hvs]
  have : res = .ret true := by
    rw [← he] at en
    rcases en with ⟨_, a, _⟩ | ⟨h, _⟩ | ⟨c, h, _⟩
    · cases res with
      | ret b => simp only [Res.returned, Option.some.injEq] at a; rw [a]
      | thrown c => simp [Res.returned] at a
      | device => simp [Res.returned] at a
    · cases h
    · cases h
  rw [this]

/-! ## C72: unbuffered streams -/

/-- C72 (partial: `SafeAll`, and only devices with `try_unget`): scanning from an unbuffered device leaves it exactly behind the last
character taken, so that any other way of reading it goes on there. -/
theorem c72_unget_partial (P : Plat) (hP : PlatOk P) (d : IDev) (hea : Eager d.script) (hn : NoFail d.script) (fuel : Nat)
    (hf : d.rest.length < fuel) (args : List (What × Val)) (hs : SafeAll P (args.map (·.1)) d.rest) :
    ∃ d' vars res, scanRaw P true fuel d args = some (d', vars, res) ∧
      Scanned (args.map (·.1)) (args.map (·.2)) d.rest vars d'.rest res.returned res.threw := by
  have hah : (ungetFresh d).ahead = d.rest := by simp [ungetFresh, ISt.ahead, ISt.avail]
  obtain ⟨s', vars, res, h1, h2, h3, h4⟩ := c71_scan_partial P hP 1 (Nat.le_refl 1) (ungetFresh d) (by simp [ungetFresh, ISt.avail]) hea (.inl hn) fuel
    (by rw [hah]; exact hf) args (by rw [hah]; exact hs)
  have hback : Back 1 s' := back_scanAll (back_nil (by intro av h; simp [ungetFresh, ISt.avail] at h; exact h)) h1
  have hrest : (ungetClose true s').rest = s'.ahead := by
    obtain ⟨av, hav⟩ := Option.isSome_iff_exists.mp h2
    obtain ⟨b1, b2, b3⟩ := hback av hav
    unfold ungetClose
    rw [hav]
    simp only [Option.getD_some, true_and]
    by_cases h0 : av = []
    · rw [if_neg (by simp [h0])]; simp [ISt.ahead, hav, h0]
    · rw [if_pos h0]
      have hl : av.length = 1 := by have := List.length_pos_of_ne_nil h0; omega
      rw [hl] at b3
      simp only [ISt.ahead, hav, Option.getD_some, ← b3]
      rfl
  have := h4 (h3 hn)
  rw [hah] at this
  exact ⟨_, vars, res, by rw [scanRaw, h1]; rfl, by rw [hrest]; exact this⟩

/-- C72 (partial: `SafeAll`): without `try_unget` at most one character behind the last one taken is lost. -/
theorem c72_lost_partial (P : Plat) (hP : PlatOk P) (d : IDev) (hea : Eager d.script) (hn : NoFail d.script) (fuel : Nat)
    (hf : d.rest.length < fuel) (args : List (What × Val)) (hs : SafeAll P (args.map (·.1)) d.rest) :
    ∃ d' vars res lost, scanRaw P false fuel d args = some (d', vars, res) ∧ lost.length ≤ 1 ∧
      Scanned (args.map (·.1)) (args.map (·.2)) d.rest vars (lost ++ d'.rest) res.returned res.threw := by
  have hah : (ungetFresh d).ahead = d.rest := by simp [ungetFresh, ISt.ahead, ISt.avail]
  obtain ⟨s', vars, res, h1, h2, h3, h4⟩ := c71_scan_partial P hP 1 (Nat.le_refl 1) (ungetFresh d) (by simp [ungetFresh, ISt.avail]) hea (.inl hn) fuel
    (by rw [hah]; exact hf) args (by rw [hah]; exact hs)
  have hback : Back 1 s' := back_scanAll (back_nil (by intro av h; simp [ungetFresh, ISt.avail] at h; exact h)) h1
  obtain ⟨av, hav⟩ := Option.isSome_iff_exists.mp h2
  have := h4 (h3 hn)
  rw [hah] at this
  refine ⟨_, vars, res, av, by rw [scanRaw, h1]; rfl, (hback av hav).1, ?_⟩
  simpa [ungetClose, ISt.ahead, hav] using this

/-! ## Examples and violations -/

/-- The text of an ASCII string. -/
def txt (s : String) : List Nat := s.toList.map Char.toNat

/-- A device with a text. -/
def fileDev (s : String) (script : List RAnswer := []) : IDev := ⟨txt s, 0, script⟩

/-- A 32-bit `int` argument. -/
def int32 : What := .int 32 true false false 10

theorem platOk_plain : PlatOk {} := ⟨.inl rfl, .inl rfl, rfl⟩
theorem platOk_avx2 : PlatOk { simd := 32, sse := true } := ⟨.inl rfl, .inr (.inr (.inl rfl)), rfl⟩

/-- The witness of `c71_numbers_partial`: `" -12 345\n"` in fragments of three characters. -/
example : let items := [([32], -12), ([32], 345)]
    let s : ISt := ⟨none, none, fileDev " -12 345\n" [.give 3, .give 3, .give 3]⟩
    Separated items [10] ∧ (∀ p ∈ items, InRange 32 true p.2 ∧ p.2 ≠ 0) ∧ s.ahead = numText items [10] ∧ Eager s.dev.script ∧
    NoFail s.dev.script := by
  refine ⟨⟨by simp [IsSpace], by simp, by simp [IsSpace], by simp, by intro c hc; simp at hc; simp [hc, IsSpace]⟩, by simp [InRange], by decide +kernel,
    by unfold Eager; decide, by unfold NoFail; decide⟩

example : scanAll { simd := 32, sse := true } 4 20 ⟨none, none, fileDev " -12 345\n" [.give 3, .give 3, .give 3]⟩ [(int32, .num 7), (int32, .num 8)] =
    some (⟨some (txt "45\n"), some 2, ⟨txt " -12 345\n", 9, []⟩⟩, [.num (-12), .num 345], .ret true) := by decide +kernel

/-- A word, a line, and the end of the input: the last variable keeps its value. -/
example : scanAll {} 3 30 ⟨none, none, fileDev "key  the value\n"⟩ [(.word, .str []), (.line, .str []), (.word, .str [9]), (.word, .str [8])] =
    some (⟨some [], some 0, ⟨txt "key  the value\n", 15, []⟩⟩, [.str (txt "key"), .str (txt "  the value"), .str [9], .str [8]], .ret false) := by
  decide +kernel

example : Textual [.word, .line, .chars 3, .fixed 2 .str] := by intro a b c d e h; simp at h

/-- The hypotheses of the `c72` theorems on a concrete file and arguments. -/
example : Eager (fileDev "12,34").script ∧ NoFail (fileDev "12,34").script ∧ SafeAll {} [.word] (fileDev "12,34").rest :=
  ⟨by unfold Eager; decide, by unfold NoFail; decide, safeAll_text (by intro a b c d e h; simp at h) (by unfold CodeUnits; decide +kernel) (by intro h; exact absurd rfl h)⟩

/-- C71 violated: a leading zero at the end of a block. `"0 1"` from a buffer of one character (or any block boundary there): the
resumable scanner goes wrong, here into undefined behaviour (C08); in one block the numbers are read. -/
theorem c71_zero_violated :
    scanAll {} 1 20 ⟨none, none, fileDev "0 1"⟩ [(int32, .num 7), (int32, .num 7)] = none ∧
    (scanAll {} 4096 20 ⟨none, none, fileDev "0 1"⟩ [(int32, .num 7), (int32, .num 7)]).map (fun r => (r.2.1, r.2.2)) =
      some ([.num 0, .num 1], .ret true) := by
  constructor <;> decide +kernel

/-- C71 violated: a value of fixed size at the end of a text in memory takes nothing, so a following argument still sees the rest;
from a buffered stream the rest is gone. -/
theorem c71_fixed_eof_violated :
    scanViewAll {} (txt "abc") [(.fixed 4 .str, .str [])] = some (txt "abc", [.str []], .ret false) ∧
    (scanAll {} 16 20 ⟨none, none, fileDev "abc"⟩ [(.fixed 4 .str, .str [])]).map (fun r => (r.1.ahead, r.2)) = some ([], [.str []], .ret false) := by
  constructor <;> decide +kernel

/-- C72 violated: the character behind the last argument is lost on devices without `try_unget` (`native_file` and the like): the
comma of `"12,34"`. -/
theorem c72_lost_violated :
    (scanRaw {} false 20 (fileDev "12,34") [(int32, .num 7)]).map (fun r => (r.1.rest, r.2)) = some (txt "34", [.num 12], .ret true) ∧
    (scanRaw {} true 20 (fileDev "12,34") [(int32, .num 7)]).map (fun r => (r.1.rest, r.2)) = some (txt ",34", [.num 12], .ret true) := by
  constructor <;> decide +kernel

/-- C72 violated: `"0\n"` cannot be read from an unbuffered device (undefined behaviour, C08). -/
theorem c72_zero_violated : scanRaw {} true 20 (fileDev "0\n") [(int32, .num 7)] = none := by decide +kernel

end Verif.Scan
