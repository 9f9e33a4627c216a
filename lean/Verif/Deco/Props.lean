import Verif.Deco.Out
import Verif.Deco.In
/-!
# C73: converting streams

A stream whose characters are converted between encodings on their way to or from a device.
-/
namespace Verif.Deco
open Verif Verif.Utf Verif.IoBuf

/-! ## Output -/

/-- The device of a converting output stream, after the stream was closed, has received exactly the text of everything that was written, for
every buffer size, with and without the internal buffer, and however the text was divided into writes: only a character that is still
incomplete at the end is missing. Undefined behaviour does not occur. -/
theorem c73_output_partial (s d : Enc) (hsd : s ≠ d) (sse direct : Bool) (bfs : Nat) (hb : 1 ≤ bfs) (hb' : bfs ≤ 2 ^ 58) (g0 : List Nat) (script : List Answer)
    (hs : ∀ a ∈ script, a = .full) (ops : List OOp) (hok : Accepted s d (written ops)) :
    ∃ q q' out tail, orun (converter s d sse) bfs direct (ofresh [] ⟨g0, script⟩) ops = some (q, .ok) ∧ oclose (converter s d sse) bfs direct q = some (q', .ok) ∧
      q'.dev.got = g0 ++ out ∧ ConvertedUpTo s d (written ops) out tail := by
  have L := converter_lawful s d hsd sse bfs hb'
  have hi : Inv (converter s d sse) bfs (fun st h out => ConvertedUpTo s d h out st) direct g0 [] (ofresh [] ⟨g0, script⟩) :=
    ⟨by simp [ofresh], by simp [ofresh], by simp [ofresh], [], [], ⟨[], .done [] (Or.inl rfl), rfl⟩, by simp [ofresh], by simp [ofresh]⟩
  obtain ⟨⟨q, o⟩, e1, e2⟩ := orun_spec L hb ops hi (fun a ha => Or.inl (hs a ha)) (by simpa using hok)
  have ho : o = .ok := e2.full hs
  subst ho
  have hi2 := e2.good rfl
  rw [List.nil_append] at hi2
  obtain ⟨⟨q', o'⟩, f1, f2, f3⟩ := oclose_spec L hb hi2 (fun a ha => Or.inl (hs a (e2.script a ha))) hok
  have ho' : o' = .ok := f2.full (fun a ha => hs a (e2.script a ha))
  subst ho'
  obtain ⟨h, out, r1, r2, r3⟩ := (f2.good rfl).main
  rw [f3 rfl, List.append_nil, List.append_nil] at r3
  subst r3
  exact ⟨q, q', out, _, e1, f1, r2, r1⟩

/-- In particular a well-formed text arrives in full, as the same text. -/
theorem c73_output_text (s d : Enc) (hsd : s ≠ d) (sse direct : Bool) (bfs : Nat) (hb : 1 ≤ bfs) (hb' : bfs ≤ 2 ^ 58) (g0 : List Nat) (script : List Answer)
    (hs : ∀ a ∈ script, a = .full) (ops : List OOp) (cs : List Nat) (hcs : ∀ c ∈ cs, Scalar c) (hw : written ops = encText s cs) :
    ∃ q q', orun (converter s d sse) bfs direct (ofresh [] ⟨g0, script⟩) ops = some (q, .ok) ∧ oclose (converter s d sse) bfs direct q = some (q', .ok) ∧
      q'.dev.got = g0 ++ encText d cs := by
  obtain ⟨q, q', out, tail, e1, e2, e3, cs', h1, rfl⟩ := c73_output_partial s d hsd sse direct bfs hb hb' g0 script hs ops
    (Or.inr (Or.inr ⟨[], cs, hcs, by simpa using hw⟩))
  rw [hw, ← List.append_nil (encText s cs)] at h1
  obtain ⟨rfl, _⟩ := reads_text_det hcs (Or.inl rfl) h1
  exact ⟨q, q', e1, e2, e3⟩

/-- As long as no exception has left the stream, and at the moment the first one does, the device has received the beginning of the text
written, and nothing else; undefined behaviour does not occur. -/
theorem c73_output_prefix (s d : Enc) (hsd : s ≠ d) (sse direct : Bool) (bfs : Nat) (hb : 1 ≤ bfs) (hb' : bfs ≤ 2 ^ 58) (g0 : List Nat) (script : List Answer)
    (hs : ∀ a ∈ script, a = .full ∨ ∃ k, a = .fail k) (ops : List OOp) (hok : Accepted s d (written ops)) :
    ∃ q o, orun (converter s d sse) bfs direct (ofresh [] ⟨g0, script⟩) ops = some (q, o) ∧
      ∃ h out tail, h <+: written ops ∧ ConvertedUpTo s d h out tail ∧ q.dev.got <+: g0 ++ out := by
  have L := converter_lawful s d hsd sse bfs hb'
  have hi : Inv (converter s d sse) bfs (fun st h out => ConvertedUpTo s d h out st) direct g0 [] (ofresh [] ⟨g0, script⟩) :=
    ⟨by simp [ofresh], by simp [ofresh], by simp [ofresh], [], [], ⟨[], .done [] (Or.inl rfl), rfl⟩, by simp [ofresh], by simp [ofresh]⟩
  obtain ⟨⟨q, o⟩, e1, e2⟩ := orun_spec L hb ops hi hs (by simpa using hok)
  obtain ⟨h, out, p1, p2, p3⟩ := e2.bad
  exact ⟨q, o, e1, h, out, _, by simpa using p1, p2, p3⟩

/-- Writes of all sizes around the buffer size, one of them in the middle of a character. -/
example : Accepted .u8 .u16 (written [.write [0x41, 0xC3], .put 0xA9, .write [0xF0, 0x9F, 0x98, 0x80, 0x42], .write [0xFF]]) :=
  Or.inl ⟨rfl, by decide⟩

example : ((orun (converter .u8 .u16 false) 4 false (ofresh [] ⟨[], []⟩)
    [.write [0x41, 0xC3], .put 0xA9, .write [0xF0, 0x9F, 0x98, 0x80, 0x42], .write [0xFF]]).bind fun r =>
      (oclose (converter .u8 .u16 false) 4 false r.1).map fun q => (r.1.dev.got, q.1.dev.got)) =
    some ([0x41, 0xE9, 0xD83D, 0xDE00, 0x42], [0x41, 0xE9, 0xD83D, 0xDE00, 0x42, 0xFFFD]) := by decide +kernel

example : (∀ c ∈ [0x41, 0x20AC, 0x1F600], Scalar c) ∧ written [.write [0x41, 0x20AC, 0xD83D], .put 0xDE00] = encText .u16 [0x41, 0x20AC, 0x1F600] := by
  decide

/-- Violated: a character cut off at the end of the text is dropped by `close` instead of being replaced. -/
theorem c73_output_truncated_violated : ∃ q q', orun (converter .u8 .u16 false) 8 false (ofresh [] ⟨[], []⟩) [.write [0x41, 0xC3]] = some (q, .ok) ∧
    oclose (converter .u8 .u16 false) 8 false q = some (q', .ok) ∧ ¬ Converted .u8 .u16 [0x41, 0xC3] q'.dev.got := by
  refine ⟨⟨some [0x41, 0xC3], none, [], ⟨[], []⟩⟩, ⟨some [], some 30, [0xC3], ⟨[0x41], []⟩⟩, rfl, by rfl, ?_⟩
  rintro ⟨cs, ⟨cs', t, h, hcs⟩, he⟩
  have h1 : Reads .u8 ([0x41] ++ [0xC3]) [0x41] [0xC3] :=
    .char 0x41 [0xC3] [] [0xC3] (by decide) (.done _ (Or.inr ⟨by simp, 0xE9, by decide, ⟨[0xA9], rfl⟩, by decide⟩))
  obtain ⟨rfl, rfl⟩ := Reads.det (prefixFree .u8) h1 h
  rw [if_neg (by simp)] at hcs
  subst hcs
  have h2 := congrArg List.length he
  simp [encText, enc, enc16] at h2

/-- Violated: when the device throws in the middle of a write, the characters that were already converted stay in the buffer. Closing the
stream after that sends them a second time. -/
theorem c73_output_exception_violated : ∃ q q', orun (converter .u8 .u16 false) 2 false (ofresh [] ⟨[], [.fail 1]⟩)
      [.put 0x41, .write [0x42, 0x43]] = some (q, .threw) ∧
    oclose (converter .u8 .u16 false) 2 false q = some (q', .ok) ∧ q'.dev.got = [0x41, 0x41] :=
  ⟨⟨some [0x41], some 18, [], ⟨[0x41], []⟩⟩, ⟨some [], some 18, [], ⟨[0x41, 0x41], []⟩⟩, by rfl, by rfl, rfl⟩

/-! ## Input -/

/-- What a converting input stream has handed out, together with what is in its buffer, is exactly the text of what it has taken from the
device, for every buffer size, for every program of reads, and however the device divides its content. Undefined behaviour does not occur. -/
theorem c73_input (s d : Enc) (hsd : s ≠ d) (sse : Bool) (bfs : Nat) (hb : 1 ≤ bfs) (hb' : bfs ≤ 2 ^ 58) (file : List Nat) (script : List RAnswer)
    (hs : NoFail script) (hok : Accepted s d file) (fuel : Nat) (hf : file.length < fuel) (ops : List IOp) :
    ∃ q rs, irun (converter s d sse) bfs fuel (ifresh [] ⟨file, 0, script⟩) ops = some (q, rs) ∧
      (∃ taken tail, file = taken ++ rest q.dev ∧ ConvertedUpTo s d taken (received rs ++ q.avail) tail) ∧ (∀ r ∈ rs, r.threw = false) ∧
      rs.length = ops.length ∧ ∀ i (h : i < rs.length) (h' : i < ops.length), (rs[i]).data.length ≤ (ops[i]).want := by
  have L := converter_lawful s d hsd sse bfs hb'
  have hi : IInv (fun st h out => ConvertedUpTo s d h out st) file [] (ifresh [] ⟨file, 0, script⟩) :=
    ⟨hs, [], by simp [rest, ifresh], ⟨[], .done [] (Or.inl rfl), rfl⟩⟩
  obtain ⟨q, rs, e1, e2, e3, e4, e5, e6, e7⟩ := irun_spec L hb hok fuel ops hi hf
  obtain ⟨h, h1, h2⟩ := e2.main
  exact ⟨q, rs, e1, ⟨h, _, h1, by simpa using h2⟩, e3, e6, e7⟩

/-- With a buffer of five or more characters an operation that gives less than was asked for means the end: the text of the whole content of the
device, up to a character cut off at its end, has been handed out. -/
theorem c73_input_end_partial (s d : Enc) (hsd : s ≠ d) (sse : Bool) (bfs : Nat) (hb : 5 ≤ bfs) (hb' : bfs ≤ 2 ^ 58) (file : List Nat) (script : List RAnswer)
    (hs : NoFail script) (he : Eager script) (hok : Accepted s d file) (fuel : Nat) (hf : file.length < fuel) (ops : List IOp) (op : IOp)
    (q : ISt (List Nat)) (rs : List Res) (hrun : irun (converter s d sse) bfs fuel (ifresh [] ⟨file, 0, script⟩) ops = some (q, rs))
    (q' : ISt (List Nat)) (r : Res) (hstep : istep (converter s d sse) bfs fuel q op = some (q', r)) (hshort : r.data.length < op.want) :
    ∃ tail, ConvertedUpTo s d file (received rs ++ r.data) tail := by
  have L := converter_lawful s d hsd sse bfs hb'
  have hi : IInv (fun st h out => ConvertedUpTo s d h out st) file [] (ifresh [] ⟨file, 0, script⟩) :=
    ⟨hs, [], by simp [rest, ifresh], ⟨[], .done [] (Or.inl rfl), rfl⟩⟩
  obtain ⟨q0, rs0, e1, e2, e3, e4, e5, e6, e7⟩ := irun_spec L (by omega) hok fuel ops hi hf
  rw [hrun] at e1
  obtain ⟨rfl, rfl⟩ : q = q0 ∧ rs = rs0 := by simpa using e1
  have hfile : q.dev.file = file := e5
  obtain ⟨q1, r1, f1, f2⟩ := istep_spec L (by omega) hok e2 fuel op (by simp only [rest, List.length_drop, hfile]; omega)
  rw [hstep] at f1
  obtain ⟨rfl, rfl⟩ : q' = q1 ∧ r = r1 := by simpa using f1
  obtain ⟨g1, g2⟩ := f2.short (fun a ha => he a (e4 a ha)) hb hshort
  obtain ⟨h, h1, h2⟩ := f2.inv.main
  rw [g1, List.append_nil] at h1
  subst h1
  rw [g2] at h2
  exact ⟨_, by simpa using h2⟩

/-- In particular a well-formed text is handed out in full. -/
theorem c73_input_text_partial (s d : Enc) (hsd : s ≠ d) (sse : Bool) (bfs : Nat) (hb : 5 ≤ bfs) (hb' : bfs ≤ 2 ^ 58) (cs : List Nat) (hcs : ∀ c ∈ cs, Scalar c)
    (script : List RAnswer) (hs : NoFail script) (he : Eager script) (fuel : Nat) (hf : (encText s cs).length < fuel) (n : Nat) (hn : (encText d cs).length < n) :
    ∃ q, istep (converter s d sse) bfs fuel (ifresh [] ⟨encText s cs, 0, script⟩) (.read n) = some (q, ⟨encText d cs, false⟩) := by
  have hok : Accepted s d (encText s cs) := Or.inr (Or.inr ⟨[], cs, hcs, by simp⟩)
  have L := converter_lawful s d hsd sse bfs hb'
  have hi : IInv (fun st h out => ConvertedUpTo s d h out st) (encText s cs) [] (ifresh [] ⟨encText s cs, 0, script⟩) :=
    ⟨hs, [], by simp [rest, ifresh], ⟨[], .done [] (Or.inl rfl), rfl⟩⟩
  obtain ⟨q, r, f1, f2⟩ := istep_spec L (by omega) hok hi fuel (.read n) (by simpa [rest, ifresh] using hf)
  obtain ⟨h, h1, cs', h2, h3⟩ := f2.inv.main
  have hlt : r.data.length < n := by
    have hl : (r.data ++ q.avail).length ≤ (encText d cs).length := by
      have h4 : h ++ rest q.dev = encText s cs ++ [] := by rw [← h1, List.append_nil]
      obtain ⟨c1, t1, c2, rfl, g2, g3, _⟩ := text_split cs h (rest q.dev) [] hcs (Or.inl rfl) h4
      rw [g2] at h2
      obtain ⟨rfl, _⟩ := reads_text_det (fun x hx => hcs x (by simp [hx])) g3 h2
      have h5 := congrArg List.length h3
      simp [encText] at h5 ⊢
      omega
    rw [List.length_append] at hl
    omega
  obtain ⟨tail, cs2, k1, k2⟩ := c73_input_end_partial s d hsd sse bfs hb hb' _ script hs he hok fuel hf [] (.read n) _ [] rfl q r f1 hlt
  rw [← List.append_nil (encText s cs)] at k1
  obtain ⟨rfl, _⟩ := reads_text_det hcs (Or.inl rfl) k1
  refine ⟨q, ?_⟩
  rw [f1]
  have h6 := f2.threw
  cases r
  simp only [received, List.map_nil, List.flatten_nil, List.nil_append] at k2 h6
  rw [k2, h6]

/-- A device that delivers one byte at a time. -/
example : (istep (converter .u8 .u16 false) 5 20 (ifresh [] ⟨[0x41, 0xF0, 0x9F, 0x98, 0x80, 0xC3, 0xA9, 0xFF, 0x42], 0, [.give 1, .give 1, .give 3]⟩) (.read 10)).map (fun r => r.2) =
    some ⟨[0x41, 0xD83D, 0xDE00, 0xE9, 0xFFFD, 0x42], false⟩ := by decide +kernel

/-- Violated for small buffers: a buffer that does not hold a whole character makes the stream report the end of the input too early. -/
theorem c73_input_small_violated : (istep (converter .u8 .u16 false) 1 9 (ifresh [] ⟨[0xC3, 0xA9, 0x41], 0, []⟩) .getc).map (fun r => r.2) =
    some ⟨[], false⟩ := by decide +kernel

/-- Violated: a character cut off at the end of the input is dropped instead of being replaced. -/
theorem c73_input_truncated_violated : (istep (converter .u8 .u16 false) 8 9 (ifresh [] ⟨[0x41, 0xC3], 0, []⟩) (.read 9)).map (fun r => r.2) =
    some ⟨[0x41], false⟩ ∧ ¬ Converted .u8 .u16 [0x41, 0xC3] [0x41] := by
  constructor
  · decide +kernel
  rintro ⟨cs, ⟨cs', t, h, hcs⟩, he⟩
  have h1 : Reads .u8 ([0x41] ++ [0xC3]) [0x41] [0xC3] :=
    .char 0x41 [0xC3] [] [0xC3] (by decide) (.done _ (Or.inr ⟨by simp, 0xE9, by decide, ⟨[0xA9], rfl⟩, by decide⟩))
  obtain ⟨rfl, rfl⟩ := Reads.det (prefixFree .u8) h1 h
  rw [if_neg (by simp)] at hcs
  subst hcs
  have h2 := congrArg List.length he
  simp [encText, enc, enc16] at h2

/-- Violated: what was read from the device before it throws within one refill is lost: a program that catches the exception and goes on
never receives it. -/
theorem c73_input_exception_violated : (irun (converter .u8 .u16 false) 8 9 (ifresh [] ⟨[0x41, 0x42, 0x43, 0x44], 0, [.give 2, .fail]⟩) [.read 2, .read 4]).map
    (fun r => r.2) = some [⟨[], true⟩, ⟨[0x43, 0x44], false⟩] := by decide +kernel

end Verif.Deco
