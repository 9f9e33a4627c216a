import Verif.IoBuf.InLemmas
/-!
# C20, C21, C52: buffered input, whole-buffer reads, transmission, seeking

Specification: the file, the position at which the program starts, and the characters it receives.
-/
namespace Verif.IoBuf

/-- A freshly opened buffer over a device at position `pos` of `file`. -/
def ifresh (file : List Nat) (pos : Nat) (script : List RAnswer) : ISt := ⟨none, none, ⟨file, pos, script⟩⟩

/-- What a program received. -/
def received (rs : List Res) : List Nat := (rs.map Res.data).flatten

theorem ifresh_ahead (file pos script) : (ifresh file pos script).ahead = file.drop pos := by
  simp [ifresh, ISt.ahead, ISt.avail, IDev.rest]

theorem irun_ok {bfs : Nat} (hb : 1 ≤ bfs) (ops : List IOp) : ∀ {s : ISt}, s.avail.isSome = true → (NoFail s.dev.script ∨ s.mem ≠ none) →
    ∃ (s' : ISt) (rs : List Res), irun bfs s ops = some (s', rs) ∧ s'.avail.isSome = true ∧ (NoFail s'.dev.script ∨ s'.mem ≠ none) ∧
      s.ahead = received rs ++ s'.ahead ∧ rs.length = ops.length ∧ s'.dev.file = s.dev.file ∧
      (∀ i (h : i < rs.length) (h' : i < ops.length), (rs[i]).data.length ≤ (ops[i]).want) ∧
      (NoFail s.dev.script → NoFail s'.dev.script ∧ ∀ r ∈ rs, r.threw = false) ∧ (Eager s.dev.script → Eager s'.dev.script) := by
  induction ops with
  | nil =>
    intro s hw hn
    exact ⟨s, [], rfl, hw, hn, by simp [received], rfl, rfl, by simp, fun h => ⟨h, by simp⟩, fun h => h⟩
  | cons op ops ih =>
    intro s hw hn
    obtain ⟨s1, r, e, h⟩ := istep_ok hb hw hn op
    have hn1 : NoFail s1.dev.script ∨ s1.mem ≠ none := by
      rcases hn with hn | hn
      · exact .inl (h.nofail hn).1
      · exact .inr (h.alloc hn)
    obtain ⟨s2, rs, f1, f2, f3, f4, f5, f6, f7, f8, f9⟩ := ih h.wf hn1
    refine ⟨s2, r :: rs, by simp [irun, e, f1], f2, f3, ?_, by simp [f5], by rw [f6, h.file], ?_, ?_, fun he => f9 (h.eager he).1⟩
    · rw [h.ahead, f4]; simp [received]
    · intro i h1 h2
      cases i with
      | zero => simpa using h.len
      | succ i => simpa using f7 i (by simpa using h1) (by simpa using h2)
    · intro hnf
      obtain ⟨g1, g2⟩ := h.nofail hnf
      obtain ⟨k1, k2⟩ := f8 g1
      exact ⟨k1, by simpa [g2] using k2⟩

/-- C20 (device that does not throw): however the device fragments its reads, any program of reads and single-character
extractions receives, in order, a prefix of the file from the starting position; nothing is lost or duplicated: the rest is still
ahead. No operation throws or leaves the buffer, none stores more than was asked. -/
theorem c20_transparent_partial (bfs : Nat) (hb : 1 ≤ bfs) (file : List Nat) (pos : Nat) (script : List RAnswer) (hs : NoFail script)
    (ops : List IOp) :
    ∃ (s : ISt) (rs : List Res) (av : List Nat), irun bfs (ifresh file pos script) ops = some (s, rs) ∧
      s.avail = some av ∧ file.drop pos = received rs ++ (av ++ file.drop s.dev.pos) ∧
      rs.length = ops.length ∧ (∀ r ∈ rs, r.threw = false) ∧
      ∀ i (h : i < rs.length) (h' : i < ops.length), (rs[i]).data.length ≤ (ops[i]).want := by
  obtain ⟨s, rs, e, f1, _, f2, f3, f4, f5, f6, _⟩ := irun_ok hb ops (s := ifresh file pos script) rfl (.inl hs)
  obtain ⟨av, hav⟩ := Option.isSome_iff_exists.mp f1
  refine ⟨s, rs, av, e, hav, ?_, f3, (f6 hs).2, f5⟩
  rw [ifresh_ahead] at f2
  rw [f2]
  simp [ISt.ahead, hav, IDev.rest, f4, ifresh]

/-- C20, end of file: over a device that delivers at least one character per read until the end of the file, an operation that
asks for something and delivers nothing has reached the end: everything was received. -/
theorem c20_eof_partial (bfs : Nat) (hb : 1 ≤ bfs) (file : List Nat) (pos : Nat) (script : List RAnswer) (hs : NoFail script) (he : Eager script)
    (ops : List IOp) (op : IOp) (hw : 0 < op.want) (s : ISt) (rs : List Res) (r : Res)
    (hrun : irun bfs (ifresh file pos script) ops = some (s, rs)) (s' : ISt) (hstep : istep bfs s op = some (s', r)) (hr : r.data = []) :
    received rs = file.drop pos := by
  obtain ⟨s1, rs1, e, f1, f1', f2, f3, f4, f5, f6, f7⟩ := irun_ok hb ops (s := ifresh file pos script) rfl (.inl hs)
  rw [hrun] at e
  obtain ⟨rfl, rfl⟩ : s = s1 ∧ rs = rs1 := by simpa using e
  obtain ⟨s2, r2, e2, h⟩ := istep_ok hb f1 f1' op
  rw [hstep] at e2
  obtain ⟨rfl, rfl⟩ : s' = s2 ∧ r = r2 := by simpa using e2
  rw [ifresh_ahead, ((h.eager (f7 he)).2 hw hr (h.nofail (f6 hs).1).2)] at f2
  simpa using f2.symm

/-- C20 with exceptions, once the buffer exists: counting what a failing operation stored before the exception, nothing is lost or
duplicated. -/
theorem c20_throw_partial (bfs : Nat) (hb : 1 ≤ bfs) (file : List Nat) (pos : Nat) (script : List RAnswer) (l : List Nat) (i : Nat)
    (hi : i ≤ l.length) (ops : List IOp) :
    ∃ (s : ISt) (rs : List Res) (av : List Nat), irun bfs ⟨some l, some i, ⟨file, pos, script⟩⟩ ops = some (s, rs) ∧
      s.avail = some av ∧ l.drop i ++ file.drop pos = received rs ++ (av ++ file.drop s.dev.pos) ∧ rs.length = ops.length := by
  have hav := avail_some (d := ⟨file, pos, script⟩) hi
  obtain ⟨s, rs, e, f1, _, f2, f3, f4, f5, f6, _⟩ := irun_ok hb ops (s := ⟨some l, some i, ⟨file, pos, script⟩⟩) (by rw [hav]; rfl) (.inr (by simp))
  obtain ⟨av, hav'⟩ := Option.isSome_iff_exists.mp f1
  refine ⟨s, rs, av, e, hav', ?_, f3⟩
  simp only [ISt.ahead, hav, hav', Option.getD_some, IDev.rest, f4] at f2
  exact f2

example : (irun 4 (ifresh [1, 2, 3, 4, 5, 6, 7, 8, 9] 0 [.give 3, .give 1]) [.read 2, .getc, .read 3, .getc, .read 9, .getc]).map
    (fun r => r.2.map Res.data) = some [[1, 2], [3], [4], [5], [6, 7, 8, 9], []] := by decide +kernel

/-- C20 fails: an exception of the device during the very first `read` leaves `buffer_curr` null beside an allocated buffer
(input_normal.h:34-40 does not set it), and the next read is undefined (copies from the null pointer). -/
theorem c20_first_throw_violated : irun 4 (ifresh [1, 2, 3] 0 [.fail]) [.read 2, .read 2] = none := by decide +kernel

/-- C20 fails: the characters a failing `read` took from the buffer are not delivered again; a caller that only sees the
exception loses them. -/
theorem c20_throw_loses_violated :
    (irun 4 (ifresh [1, 2, 3, 4, 5, 6] 0 [.give 4, .fail]) [.read 2, .read 3, .read 2]).map (fun r => r.2) =
    some [⟨[1, 2], false⟩, ⟨[3, 4], true⟩, ⟨[5, 6], false⟩] := by decide +kernel

/-- C20 fails for a buffer opened for both input and output: `flush` discards the unread input (general.h:16-17). -/
theorem c20_flush_discards_violated :
    ((irun 4 (ifresh [1, 2, 3, 4, 5, 6] 0 []) [.read 2]).bind fun r => (irun 4 (flushIn r.1) [.read 2]).map fun q => (r.2, q.2)) =
    some ([⟨[1, 2], false⟩], [⟨[5, 6], false⟩]) := by decide +kernel

/-! ### C52: seeking -/

/-- The position of the reader: the position of the device less what is buffered. -/
def ISt.tell (s : ISt) : Int := s.dev.pos - (s.avail.getD []).length

theorem emptied_ahead (s : ISt) : (emptied s).ahead = s.dev.rest := by
  cases hm : s.mem <;> simp [emptied, ISt.ahead, ISt.avail, hm]

/-- C52: a relative seek is relative to the next character the reader would receive (not to the position of the device),
and afterwards exactly the characters from the target on lie ahead. -/
theorem c52_seek_cur_partial (s : ISt) (av : List Nat) (hav : s.avail = some av) (off : Int) (hoff : -(2 ^ 63) ≤ off - av.length)
    (hpos : 0 ≤ s.tell + off) :
    ∃ s' p, seek s off .cur = some (s', some p) ∧ (p : Int) = s.tell + off ∧ s'.ahead = s.dev.file.drop p ∧ s'.dev.file = s.dev.file := by
  have ht : s.tell = s.dev.pos - av.length := by simp [ISt.tell, hav]
  have h1 : seekTarget av off .cur = (off - av.length, .cur) := by
    unfold seekTarget; rw [if_pos rfl, if_neg (by omega)]
  unfold seek devSeek
  rw [hav]
  simp only [Option.map_some, h1]
  have h2 : seekBase s.dev .cur + (off - av.length) = s.tell + off := by rw [ht]; simp only [seekBase]; omega
  rw [h2, if_neg (by omega)]
  exact ⟨_, _, rfl, by omega, emptied_ahead _, rfl⟩

/-- C52: an absolute seek. -/
theorem c52_seek_abs (s : ISt) (av : List Nat) (hav : s.avail = some av) (dir : Dir) (hd : dir ≠ .cur) (off : Int)
    (hpos : 0 ≤ (if dir = .beg then 0 else (s.dev.file.length : Int)) + off) :
    ∃ s' p, seek s off dir = some (s', some p) ∧ (p : Int) = (if dir = .beg then 0 else (s.dev.file.length : Int)) + off ∧
      s'.ahead = s.dev.file.drop p ∧ s'.dev.file = s.dev.file := by
  have h1 : seekTarget av off dir = (off, dir) := by
    unfold seekTarget; rw [if_neg hd]
  have h2 : seekBase s.dev dir = if dir = .beg then 0 else (s.dev.file.length : Int) := by
    cases dir with
    | beg => rfl
    | cur => exact absurd rfl hd
    | fin => rfl
  unfold seek devSeek
  rw [hav]
  simp only [Option.map_some, h1]
  rw [h2, if_neg (by omega)]
  exact ⟨_, _, rfl, by omega, emptied_ahead _, rfl⟩

/-- C52: a failed seek loses nothing. -/
theorem c52_seek_fail (s : ISt) (off : Int) (dir : Dir) (s' : ISt) (h : seek s off dir = some (s', none)) : s' = s := by
  unfold seek devSeek at h
  cases hav : s.avail with
  | none => rw [hav] at h; simp at h
  | some av =>
    rw [hav] at h
    simp only [Option.map_some, Option.some.injEq] at h
    split at h
    · next heq =>
      split at heq
      · simp at heq
      · simp at h
    · next heq =>
      split at heq
      · simp at heq h
        rw [← h, ← heq]
      · simp at heq

/-- C52 fails at the extreme: a relative seek below the representable range goes to the beginning instead of failing. -/
theorem c52_seek_underflow_violated :
    (irun 4 (ifresh [1, 2, 3, 4, 5, 6] 0 []) [.read 2]).bind (fun r => (seek r.1 (-(2 ^ 63)) .cur).map (·.2)) = some (some 0) := by decide +kernel

example : (irun 4 (ifresh [1, 2, 3, 4, 5, 6] 0 []) [.read 2]).bind (fun r => (seek r.1 1 .cur).bind fun q => (irun 4 q.1 [.read 2]).map
    fun t => (q.2, t.2)) = some (some 3, [⟨[4, 5], false⟩]) := by decide +kernel

/-! ### C21: whole-buffer reads -/

theorem readAllCold_ok {bfs : Nat} (hb : 1 ≤ bfs) (n : Nat) : ∀ fuel {s : ISt}, n ≤ fuel → s.avail.isSome = true → (NoFail s.dev.script ∨ s.mem ≠ none) →
    ∃ (s' : ISt) (data : List Nat) (res : AllRes), readAllCold bfs fuel s n = some (s', data, res) ∧ s'.avail.isSome = true ∧
      s'.dev.file = s.dev.file ∧ s.ahead = data ++ s'.ahead ∧ (res = .done → data.length = n) ∧ (res = .eof → data.length < n) ∧ data.length ≤ n ∧
      (NoFail s.dev.script → NoFail s'.dev.script ∧ res ≠ .threw) ∧ (Eager s.dev.script → Eager s'.dev.script ∧ (res = .eof → data = s.ahead)) := by
  induction n using Nat.strongRecOn with
  | _ n ih =>
  intro fuel s hf hw hn
  cases n with
  | zero => exact ⟨s, [], .done, by cases fuel <;> rfl, hw, rfl, by simp, by simp, by simp, by simp, fun h => ⟨h, by simp⟩, fun h => ⟨h, by simp⟩⟩
  | succ n =>
    obtain ⟨fuel, rfl⟩ := Nat.exists_eq_succ_of_ne_zero (by omega : fuel ≠ 0)
    obtain ⟨s1, r, e, h⟩ := read_ok hb hw hn (n + 1)
    have hred : readAllCold bfs (fuel + 1) s (n + 1) = (read bfs s (n + 1)).bind fun r =>
        if r.2.threw then some (r.1, r.2.data, .threw)
        else if r.2.data = [] then some (r.1, [], .eof)
        else (readAllCold bfs fuel r.1 (n + 1 - r.2.data.length)).map fun q => (q.1, r.2.data ++ q.2.1, q.2.2) := rfl
    rw [hred, e]
    simp only [Option.bind_some]
    by_cases ht : r.threw = true
    · rw [if_pos ht]
      exact ⟨_, _, _, rfl, h.wf, h.file, h.ahead, by simp, by simp, h.len, fun hnf => absurd ht (by rw [(h.nofail hnf).2]; simp),
        fun he => ⟨(h.eager he).1, by simp⟩⟩
    · rw [if_neg ht]
      by_cases hd : r.data = []
      · rw [if_pos hd]
        refine ⟨_, _, _, rfl, h.wf, h.file, by have := h.ahead; rwa [hd] at this, by simp, by simp, by simp, fun hnf => ⟨(h.nofail hnf).1, by simp⟩,
          fun he => ⟨(h.eager he).1, fun _ => ((h.eager he).2 (by omega) hd (by simpa using ht)).symm⟩⟩
      · rw [if_neg hd]
        have hlen : 0 < r.data.length := List.length_pos_of_ne_nil hd
        have hle := h.len
        have hn1 : NoFail s1.dev.script ∨ s1.mem ≠ none := by
          rcases hn with hn | hn
          · exact .inl (h.nofail hn).1
          · exact .inr (h.alloc hn)
        obtain ⟨s2, data, res, f1, f2, f3, f4, f5, f6, f7, f8, f9⟩ := ih (n + 1 - r.data.length) (by omega) fuel (by omega) h.wf hn1
        rw [f1]
        refine ⟨s2, r.data ++ data, res, rfl, f2, by rw [f3, h.file], by rw [h.ahead, f4, List.append_assoc], ?_, ?_, ?_, ?_, ?_⟩
        · intro hr; simp [f5 hr]; omega
        · intro hr; have := f6 hr; simp; omega
        · simp; omega
        · intro hnf; exact f8 (h.nofail hnf).1
        · intro he
          obtain ⟨g1, g2⟩ := f9 (h.eager he).1
          exact ⟨g1, fun hr => by rw [h.ahead, ← g2 hr]⟩

/-- C21, `read_all` on a buffered stream (device without exceptions): it either stores exactly the `n` characters
ahead of the reader, however the device fragments, or reports the end of the file, and then everything before the end was stored
(at least one character per device read until the end); nothing is lost or duplicated. -/
theorem c21_read_all_partial (bfs : Nat) (hb : 1 ≤ bfs) (s : ISt) (hw : s.avail.isSome = true) (hs : NoFail s.dev.script) (he : Eager s.dev.script) (n : Nat) :
    ∃ (s' : ISt) (data : List Nat) (res : AllRes), readAll bfs s n = some (s', data, res) ∧ s.ahead = data ++ s'.ahead ∧
      (res = .done ∧ data = s.ahead.take n ∧ n ≤ s.ahead.length ∨ res = .eof ∧ data = s.ahead ∧ s.ahead.length < n) := by
  obtain ⟨av, hav⟩ := Option.isSome_iff_exists.mp hw
  unfold readAll
  rw [hav]
  simp only [Option.bind_some]
  split
  · next hlt =>
    have h := advance_ok (k := n) hav (by omega)
    refine ⟨_, _, _, rfl, h.ahead, .inl ⟨rfl, ?_, ?_⟩⟩
    · simp only [ISt.ahead, hav, Option.getD_some]; rw [List.take_append_of_le_length (by omega)]
    · simp only [ISt.ahead, hav, Option.getD_some, List.length_append]; omega
  · obtain ⟨s2, data, res, f1, f2, f3, f4, f5, f6, f7, f8, f9⟩ := readAllCold_ok hb n n (Nat.le_refl n) hw (.inl hs)
    refine ⟨s2, data, res, f1, f4, ?_⟩
    cases res with
    | done => exact .inl ⟨rfl, by rw [f4, ← f5 rfl]; simp, by rw [f4, ← f5 rfl]; simp⟩
    | eof => exact .inr ⟨rfl, (f9 he).2 rfl, by rw [← (f9 he).2 rfl]; exact f6 rfl⟩
    | threw => exact absurd rfl (f8 hs).2

example : (readAll 4 (ifresh [1, 2, 3, 4, 5, 6, 7] 0 [.give 1, .give 2]) 6).map (fun r => r.2) = some ([1, 2, 3, 4, 5, 6], .done) ∧
    (readAll 4 (ifresh [1, 2, 3] 0 [.give 1, .give 2]) 6).map (fun r => r.2) = some ([1, 2, 3], .eof) := by decide +kernel

/-! ### C21: transmission -/

theorem consume_all {s : ISt} {av : List Nat} (hav : s.avail = some av) {k : Nat} (hk : k ≤ av.length) :
    ∃ s1, (if av = [] then s else { s with curr := s.curr.map (· + k) }) = s1 ∧ s1.avail = some (av.drop k) ∧ s1.dev = s.dev ∧
      s.ahead = av.take k ++ s1.ahead := by
  by_cases h0 : av = []
  · rw [if_pos h0]; exact ⟨s, rfl, by rw [hav, h0]; simp, rfl, by rw [h0]; simp⟩
  · rw [if_neg h0]
    have h := advance_ok (k := k) hav hk
    refine ⟨_, rfl, ?_, rfl, by simpa using h.ahead⟩
    obtain ⟨av', hav'⟩ := Option.isSome_iff_exists.mp h.wf
    have := h.ahead
    simp only [ISt.ahead, hav, hav', Option.getD_some] at this
    rw [hav', ← List.append_assoc] at *
    have := List.append_cancel_right this
    rw [Option.some.injEq]
    have h2 : av.take k ++ av.drop k = av.take k ++ av' := by rw [List.take_append_drop]; exact this
    exact (List.append_cancel_left h2).symm

theorem transmitBuf_ok {bfs : Nat} (hb : 1 ≤ bfs) : ∀ fuel {s : ISt}, s.avail.isSome = true → NoFail s.dev.script → Eager s.dev.script →
    s.dev.rest.length < fuel → ∃ s', transmitBuf bfs fuel s = some (s', s.ahead, s.ahead.length, false) ∧ s'.ahead = [] := by
  intro fuel
  induction fuel with
  | zero => intro s _ _ _ h; omega
  | succ fuel ih =>
    intro s hw hs he hf
    obtain ⟨av, hav⟩ := Option.isSome_iff_exists.mp hw
    unfold transmitBuf
    rw [hav]
    simp only [Option.bind_some]
    obtain ⟨s1, e1, h1, h2, h3⟩ := consume_all hav (Nat.le_refl _)
    simp only [List.drop_length, List.take_length] at h1 h3
    rw [e1]
    obtain ⟨s2, o, e, u1, u2, u3, ⟨av1, u4, u5, u6⟩, u7, u8⟩ := underflow_ok bfs h1
    rw [e]
    rw [← h2] at hs he hf
    cases o with
    | none => exact absurd rfl (u7 hs).2
    | some b =>
      cases b with
      | false =>
        have := (u8 he).2 (by omega) rfl
        rw [this] at h3
        refine ⟨s2, ?_, by rw [← u3]; exact this⟩
        simp [h3]
      | true =>
        have hpos : 0 < av1.length := List.length_pos_of_ne_nil (u5 rfl)
        have hl : s1.dev.rest.length = av1.length + s2.dev.rest.length := by
          have := congrArg List.length u3
          simpa [ISt.ahead, h1, u4] using this
        obtain ⟨s3, g1, g2⟩ := ih (s := s2) (by rw [u4]; rfl) (u7 hs).1 (u8 he).1 (by omega)
        refine ⟨s3, ?_, g2⟩
        dsimp only
        rw [g1, h3, ← u3]
        simp

/-- C21, transmission from a buffered stream: everything ahead is written, in order, once, and the count is exact. -/
theorem c21_transmit_partial (bfs : Nat) (hb : 1 ≤ bfs) (s : ISt) (hw : s.avail.isSome = true) (hs : NoFail s.dev.script) (he : Eager s.dev.script) :
    ∃ fuel s', transmitBuf bfs fuel s = some (s', s.ahead, s.ahead.length, false) ∧ s'.ahead = [] :=
  ⟨_, transmitBuf_ok hb _ hw hs he (Nat.lt_succ_self _)⟩

theorem transmit64Buf_ok {bfs : Nat} (hb : 1 ≤ bfs) : ∀ fuel {s : ISt} {n : Nat}, s.avail.isSome = true → NoFail s.dev.script → Eager s.dev.script →
    s.dev.rest.length < fuel → ∃ s', transmit64Buf bfs fuel s n = some (s', s.ahead.take n, (s.ahead.take n).length, false) ∧ s'.ahead = s.ahead.drop n := by
  intro fuel
  induction fuel with
  | zero => intro s n _ _ _ h; omega
  | succ fuel ih =>
    intro s n hw hs he hf
    obtain ⟨av, hav⟩ := Option.isSome_iff_exists.mp hw
    unfold transmit64Buf
    rw [hav]
    simp only [Option.bind_some]
    have hkm : (if n ≤ av.length then n else av.length) = min n av.length := by split <;> omega
    rw [hkm]
    obtain ⟨s1, e1, h1, h2, h3⟩ := consume_all hav (Nat.min_le_right n av.length)
    rw [e1]
    by_cases hbr : av ≠ [] ∧ n - min n av.length = 0
    · rw [if_pos hbr]
      have hn : n ≤ av.length := by omega
      have hm : min n av.length = n := by omega
      rw [hm] at h3
      rw [hm]
      have htl : (av.take n).length = n := by simp; omega
      have ht : s.ahead.take n = av.take n := by
        rw [h3, List.take_append_of_le_length (by omega), List.take_of_length_le (by omega)]
      refine ⟨s1, by rw [ht, htl], ?_⟩
      rw [h3, List.drop_append_of_le_length (by omega), List.drop_eq_nil_of_le (by omega)]; rfl
    · rw [if_neg hbr]
      have hle : av.length ≤ n := by
        by_cases h0 : av = []
        · simp [h0]
        · have : ¬ n - min n av.length = 0 := fun h => hbr ⟨h0, h⟩
          omega
      have hm : min n av.length = av.length := by omega
      rw [hm, List.drop_length] at h1
      rw [hm, List.take_length] at h3
      rw [hm]
      obtain ⟨s2, o, e, u1, u2, u3, ⟨av1, u4, u5, u6⟩, u7, u8⟩ := underflow_ok bfs h1
      rw [e]
      rw [← h2] at hs he hf
      have hsplit : s.ahead.take n = av ++ s2.ahead.take (n - av.length) ∧ s.ahead.drop n = s2.ahead.drop (n - av.length) := by
        rw [h3, u3, List.take_append, List.drop_append, List.take_of_length_le hle, List.drop_eq_nil_of_le hle]
        exact ⟨rfl, rfl⟩
      cases o with
      | none => exact absurd rfl (u7 hs).2
      | some b =>
        cases b with
        | false =>
          have hnil := (u8 he).2 (by omega) rfl
          have hnil2 : s2.ahead = [] := by rw [← u3]; exact hnil
          refine ⟨s2, ?_, by rw [hsplit.2, hnil2]; simp⟩
          rw [hsplit.1, hnil2]; simp
        | true =>
          have hpos : 0 < av1.length := List.length_pos_of_ne_nil (u5 rfl)
          have hl : s1.dev.rest.length = av1.length + s2.dev.rest.length := by
            have := congrArg List.length u3
            simpa [ISt.ahead, h1, u4] using this
          obtain ⟨s3, g1, g2⟩ := ih (s := s2) (n := n - av.length) (by rw [u4]; rfl) (u7 hs).1 (u8 he).1 (by omega)
          refine ⟨s3, ?_, by rw [g2, hsplit.2]⟩
          dsimp only
          rw [g1, hsplit.1]
          simp

/-- C21, bounded transmission from a buffered stream: exactly the first `n` characters ahead (or all, if fewer) are written, and
the rest stays ahead. -/
theorem c21_transmit64_partial (bfs : Nat) (hb : 1 ≤ bfs) (s : ISt) (n : Nat) (hw : s.avail.isSome = true) (hs : NoFail s.dev.script) (he : Eager s.dev.script) :
    ∃ fuel s', transmit64Buf bfs fuel s n = some (s', s.ahead.take n, (s.ahead.take n).length, false) ∧ s'.ahead = s.ahead.drop n :=
  ⟨_, transmit64Buf_ok hb _ hw hs he (Nat.lt_succ_self _)⟩

theorem transmitRaw_ok {bs : Nat} (hb : 1 ≤ bs) : ∀ fuel {d : IDev}, NoFail d.script → Eager d.script → d.rest.length < fuel →
    ∃ d', transmitRaw bs fuel d = some (d', d.rest, d.rest.length, false) ∧ d'.rest = [] := by
  intro fuel
  induction fuel with
  | zero => intro d _ _ h; omega
  | succ fuel ih =>
    intro d hs he hf
    have hr := devRead_ok d bs
    unfold transmitRaw
    cases hd : devRead d bs with
    | mk d1 o =>
    rw [hd] at hr
    obtain ⟨r1, r2, r3, r4, r5, r6⟩ := hr
    dsimp only at r1 r2 r3 r4 r5
    cases o with
    | none => exact absurd rfl (r4 hs).2
    | some l =>
      cases l with
      | nil =>
        have := (r5 he).2 (by omega) rfl
        refine ⟨d1, by rw [this]; rfl, ?_⟩
        rw [this] at r2; simpa using r2.symm
      | cons c l =>
        simp only [Option.getD_some] at r2
        obtain ⟨d2, g1, g2⟩ := ih (d := d1) (r4 hs).1 (r5 he).1 (by rw [r2] at hf; simp at hf; omega)
        refine ⟨d2, ?_, g2⟩
        dsimp only
        rw [g1, r2]
        simp; omega

/-- C21, transmission from an unbuffered device. -/
theorem c21_transmit_raw_partial (bs : Nat) (hb : 1 ≤ bs) (d : IDev) (hs : NoFail d.script) (he : Eager d.script) :
    ∃ fuel d', transmitRaw bs fuel d = some (d', d.rest, d.rest.length, false) ∧ d'.rest = [] :=
  ⟨_, transmitRaw_ok hb _ hs he (Nat.lt_succ_self _)⟩

theorem transmit64Loop_ok {alloc : Nat} : ∀ fuel {d : IDev} {n : Nat}, (0 < n → 0 < alloc) → NoFail d.script → Eager d.script → d.rest.length < fuel →
    ∃ d', transmit64Loop alloc fuel d n = some (d', d.rest.take n, (d.rest.take n).length, false) ∧ d'.rest = d.rest.drop n := by
  intro fuel
  induction fuel with
  | zero => intro d n _ _ _ h; omega
  | succ fuel ih =>
    intro d n ha hs he hf
    unfold transmit64Loop
    have hkm : (if n ≤ alloc then n else alloc) = min n alloc := by split <;> omega
    simp only [hkm]
    by_cases hk : min n alloc = 0
    · have : n = 0 := by
        by_cases h : 0 < n
        · have := ha h; omega
        · omega
      subst this
      exact ⟨d, by simp, by simp⟩
    · rw [if_neg hk]
      have hr := devRead_ok d (min n alloc)
      cases hd : devRead d (min n alloc) with
      | mk d1 o =>
      rw [hd] at hr
      obtain ⟨r1, r2, r3, r4, r5, r6⟩ := hr
      dsimp only at r1 r2 r3 r4 r5
      cases o with
      | none => exact absurd rfl (r4 hs).2
      | some l =>
        cases l with
        | nil =>
          have := (r5 he).2 (by omega) rfl
          refine ⟨d1, by rw [this]; simp, ?_⟩
          rw [this] at r2 ⊢; simpa using r2.symm
        | cons c l =>
          simp only [Option.getD_some] at r2 r3
          have hle : (c :: l).length ≤ n := by omega
          have hsplit : d.rest.take n = (c :: l) ++ d1.rest.take (n - (c :: l).length) ∧ d.rest.drop n = d1.rest.drop (n - (c :: l).length) := by
            rw [r2, List.take_append, List.drop_append, List.take_of_length_le hle, List.drop_eq_nil_of_le hle]
            exact ⟨rfl, rfl⟩
          dsimp only
          by_cases h0 : n - (c :: l).length = 0
          · rw [if_pos h0]
            rw [h0] at hsplit
            exact ⟨d1, by rw [hsplit.1]; simp, by rw [hsplit.2]; simp⟩
          · rw [if_neg h0]
            obtain ⟨d2, g1, g2⟩ := ih (d := d1) (n := n - (c :: l).length) (fun _ => ha (by omega)) (r4 hs).1 (r5 he).1 (by rw [r2] at hf; simp at hf; omega)
            refine ⟨d2, ?_, by rw [g2, hsplit.2]⟩
            rw [g1, hsplit.1]
            simp; omega

/-- C21, bounded transmission from an unbuffered device: never more than `n` characters are taken from the device. -/
theorem c21_transmit64_raw_partial (bs : Nat) (hb : 1 ≤ bs) (d : IDev) (n : Nat) (hs : NoFail d.script) (he : Eager d.script) :
    ∃ fuel d', transmit64Raw bs fuel d n = some (d', d.rest.take n, (d.rest.take n).length, false) ∧ d'.rest = d.rest.drop n :=
  ⟨_, transmit64Loop_ok _ (fun h => by split <;> omega) hs he (Nat.lt_succ_self _)⟩

example : (transmit64Raw 2 9 ⟨[1, 2, 3, 4, 5, 6, 7], 1, [.give 1, .give 9]⟩ 4).map (fun r => (r.2, r.1.pos)) = some (([2, 3, 4, 5], 4, false), 5) ∧
    (transmit64Buf 4 9 (ifresh [1, 2, 3, 4, 5, 6, 7] 1 [.give 1, .give 9]) 4).map (fun r => (r.2, r.1.avail)) = some (([2, 3, 4, 5], 4, false), some [6]) := by
  decide +kernel

end Verif.IoBuf
