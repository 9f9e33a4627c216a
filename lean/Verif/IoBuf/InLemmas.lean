import Verif.IoBuf.InModel
/-! Helper lemmas about buffered input. -/
namespace Verif.IoBuf

/-- What the device has still to deliver. -/
def IDev.rest (d : IDev) : List Nat := d.file.drop d.pos

/-- What lies ahead of the reader: the unread characters of the buffer, then what the device has still to deliver. -/
def ISt.ahead (s : ISt) : List Nat := s.avail.getD [] ++ s.dev.rest

/-- No answer of the device is an exception. -/
def NoFail (sc : List RAnswer) : Prop := ∀ a ∈ sc, a ≠ .fail

/-- The device delivers at least one character unless it is at the end of the file (or throws). -/
def Eager (sc : List RAnswer) : Prop := ∀ a ∈ sc, a ≠ .give 0

/-- What a device read guarantees. -/
structure ReadOk (d : IDev) (n : Nat) (d' : IDev) (o : Option (List Nat)) : Prop where
  file : d'.file = d.file
  rest : d.rest = o.getD [] ++ d'.rest
  len : (o.getD []).length ≤ n
  nofail : NoFail d.script → NoFail d'.script ∧ o ≠ none
  eager : Eager d.script → Eager d'.script ∧ (0 < n → o = some [] → d.rest = [])
  pos : d.pos ≤ d'.pos

theorem deliver_ok (d : IDev) (n : Nat) (t : List RAnswer) : (d.deliver n t).1.file = d.file ∧
    d.rest = (d.deliver n t).2 ++ (d.deliver n t).1.rest ∧ (d.deliver n t).2.length ≤ n ∧ (d.deliver n t).1.script = t ∧
    (0 < n → (d.deliver n t).2 = [] → d.rest = []) ∧ d.pos ≤ (d.deliver n t).1.pos := by
  refine ⟨rfl, ?_, by simp [IDev.deliver]; omega, rfl, ?_, by simp [IDev.deliver]⟩
  · have h : (d.deliver n t).1.rest = d.rest.drop n := by
      simp only [IDev.rest, IDev.deliver, List.length_take, List.length_drop, List.drop_drop]
      rcases Nat.le_total n (d.file.length - d.pos) with h | h
      · rw [Nat.min_eq_left h]
      · rw [Nat.min_eq_right h, List.drop_eq_nil_of_le (by omega), List.drop_eq_nil_of_le (by omega)]
    rw [h]
    exact (List.take_append_drop n d.rest).symm
  · intro hn h
    have h' : d.rest.take n = [] := h
    rcases List.take_eq_nil_iff.mp h' with h | h
    · omega
    · exact h

theorem devRead_ok (d : IDev) (n : Nat) : ReadOk d n (devRead d n).1 (devRead d n).2 := by
  unfold devRead
  cases hs : d.script with
  | nil =>
    obtain ⟨a, b, c, e, f, g⟩ := deliver_ok d n []
    exact ⟨a, b, c, fun _ => ⟨by simp [NoFail, e], by simp⟩, fun _ => ⟨by simp [Eager, e], fun h h' => f h (by simpa using h')⟩, g⟩
  | cons a t =>
    cases a with
    | give k =>
      obtain ⟨a, b, c, e, f, g⟩ := deliver_ok d (min n k) t
      refine ⟨a, b, by simp at c ⊢; omega, fun h => ⟨fun x hx => h x (by rw [hs]; simp only [e] at hx; simp [hx]), by simp⟩,
        fun h => ⟨fun x hx => h x (by rw [hs]; simp only [e] at hx; simp [hx]), fun hn h' => f ?_ (by simpa using h')⟩, g⟩
      have := h (.give k) (by simp [hs])
      have : k ≠ 0 := by rintro rfl; exact this rfl
      omega
    | fail =>
      exact ⟨rfl, rfl, by simp, fun h => absurd rfl (h .fail (by simp [hs])),
        fun h => ⟨fun x hx => h x (by rw [hs]; simp at hx; simp [hx]), by simp⟩, Nat.le_refl _⟩

/-- What an input operation delivering `data` guarantees. -/
structure IOk (s : ISt) (n : Nat) (s' : ISt) (r : Res) : Prop where
  wf : s'.avail.isSome = true
  file : s'.dev.file = s.dev.file
  ahead : s.ahead = r.data ++ s'.ahead
  len : r.data.length ≤ n
  nofail : NoFail s.dev.script → NoFail s'.dev.script ∧ r.threw = false
  alloc : s.mem ≠ none → s'.mem ≠ none
  eager : Eager s.dev.script → Eager s'.dev.script ∧ (0 < n → r.data = [] → r.threw = false → s.ahead = [])

theorem avail_cases {s : ISt} (h : s.avail.isSome = true) :
    (s.mem = none ∧ s.curr = none ∧ s.avail = some []) ∨
    ∃ l i, s.mem = some l ∧ s.curr = some i ∧ i ≤ l.length ∧ s.avail = some (l.drop i) := by
  unfold ISt.avail at *
  cases hm : s.mem with
  | none =>
    cases hc : s.curr with
    | none => simp
    | some i => simp [hm, hc] at h
  | some l =>
    cases hc : s.curr with
    | none => simp [hm, hc] at h
    | some i =>
      simp only [hm, hc] at h
      by_cases hi : i ≤ l.length
      · exact .inr ⟨l, i, rfl, rfl, hi, by simp [hi]⟩
      · simp [hi] at h

theorem avail_some {l : List Nat} {i : Nat} {d : IDev} (h : i ≤ l.length) : (⟨some l, some i, d⟩ : ISt).avail = some (l.drop i) := by
  simp [ISt.avail, h]

/-- Advancing within the buffer. -/
theorem advance_ok {s : ISt} {av : List Nat} (hav : s.avail = some av) {k : Nat} (hk : k ≤ av.length) :
    IOk s k { s with curr := s.curr.map (· + k) } ⟨av.take k, false⟩ := by
  rcases avail_cases (s := s) (by simp [hav]) with ⟨h1, h2, h3⟩ | ⟨l, i, h1, h2, h3, h4⟩
  · rw [h3] at hav
    have : av = [] := by simpa using hav.symm
    subst this
    have : k = 0 := by simpa using hk
    subst this
    refine ⟨?_, rfl, ?_, by simp, fun h => ⟨h, rfl⟩, fun h => h, fun h => ⟨h, fun h => absurd h (by simp)⟩⟩
    · simp [ISt.avail, h1, h2]
    · simp [ISt.ahead, ISt.avail, h1, h2]
  · rw [h4] at hav
    have : l.drop i = av := by simpa using hav
    subst this
    simp only [List.length_drop] at hk
    have e : ({ s with curr := s.curr.map (· + k) } : ISt).avail = some (l.drop (i + k)) := by
      simp only [ISt.avail, h1, h2, Option.map_some]
      rw [if_pos (by omega)]
    refine ⟨by rw [e]; rfl, rfl, ?_, by simp; omega, fun h => ⟨h, rfl⟩, fun h => h, fun h => ⟨h, fun hn h' => ?_⟩⟩
    · simp only [ISt.ahead, e, h4, Option.getD_some]
      rw [← List.drop_drop, ← List.append_assoc, List.take_append_drop]
    · exfalso
      have := congrArg List.length h'
      simp at this
      omega

theorem underflow_ok (bfs : Nat) {s : ISt} (hav : s.avail = some []) :
    ∃ s' o, underflow bfs s = (s', o) ∧ s'.mem ≠ none ∧ s'.dev.file = s.dev.file ∧ s.ahead = s'.ahead ∧
      (∃ av, s'.avail = some av ∧ (o = some true → av ≠ []) ∧ (o ≠ some true → av = [])) ∧
      (NoFail s.dev.script → NoFail s'.dev.script ∧ o ≠ none) ∧
      (Eager s.dev.script → Eager s'.dev.script ∧ (0 < bfs → o = some false → s.ahead = [])) := by
  have hwf : s.avail.isSome = true := by simp [hav]
  have hah : s.ahead = s.dev.rest := by simp [ISt.ahead, hav]
  have hr := devRead_ok s.dev bfs
  unfold underflow
  have hdev : (allocate s).dev = s.dev := by
    unfold allocate; cases s.mem <;> rfl
  dsimp only
  rw [hdev]
  cases hd : devRead s.dev bfs with
  | mk d o =>
  rw [hd] at hr
  obtain ⟨r1, r2, r3, r4, r5, r6⟩ := hr
  dsimp only at r1 r2 r3 r4 r5
  cases o with
  | some l =>
    refine ⟨_, _, rfl, by simp, r1, ?_, ⟨l, by simp [ISt.avail], by simp, by simp⟩, fun h => ⟨(r4 h).1, by simp⟩,
      fun h => ⟨(r5 h).1, fun hb ho => ?_⟩⟩
    · rw [hah, r2]; simp [ISt.ahead, ISt.avail]
    · rw [hah]; exact (r5 h).2 hb (by simp at ho; rw [ho])
  | none =>
    rcases avail_cases hwf with ⟨h1, h2, h3⟩ | ⟨l, i, h1, h2, h3, h4⟩
    · simp only [allocate, h1]
      refine ⟨_, _, rfl, by simp, r1, ?_, ⟨[], by simp [ISt.avail], by simp, by simp⟩, fun h => absurd rfl (r4 h).2, fun h => ⟨(r5 h).1, by simp⟩⟩
      rw [hah, r2]; simp [ISt.ahead, ISt.avail]
    · simp only [allocate, h1]
      have hd : l.drop i = [] := by rw [h4] at hav; simpa using hav
      refine ⟨_, _, rfl, by simp [h1], r1, ?_, ⟨[], ?_, by simp, by simp⟩, fun h => absurd rfl (r4 h).2, fun h => ⟨(r5 h).1, by simp⟩⟩
      · rw [hah, r2]; simp only [ISt.ahead, ISt.avail, h1, h2]; simp [h3, hd]
      · simp only [ISt.avail, h1, h2]; simp [h3, hd]

theorem getc_ok {bfs : Nat} (hb : 1 ≤ bfs) {s : ISt} (hwf : s.avail.isSome = true) :
    ∃ s' r, getc bfs s = some (s', r) ∧ IOk s 1 s' r := by
  obtain ⟨av, hav⟩ := Option.isSome_iff_exists.mp hwf
  unfold getc
  rw [hav]
  cases av with
  | cons c l =>
    exact ⟨_, _, rfl, by simpa using advance_ok (k := 1) hav (by simp)⟩
  | nil =>
    obtain ⟨s1, o, e, u1, u2, u3, ⟨av1, u4, u5, u6⟩, u7, u8⟩ := underflow_ok bfs hav
    simp only [Option.bind_some, e]
    cases o with
    | none =>
      refine ⟨_, _, rfl, by simp [u4], u2, by simpa using u3, by simp, fun h => absurd rfl (u7 h).2, fun _ => u1, fun h => ⟨(u8 h).1, by simp⟩⟩
    | some b =>
      cases b with
      | false =>
        refine ⟨_, _, rfl, by simp [u4], u2, by simpa using u3, by simp, fun h => ⟨(u7 h).1, rfl⟩, fun _ => u1,
          fun h => ⟨(u8 h).1, fun _ _ _ => (u8 h).2 (by omega) rfl⟩⟩
      | true =>
        have hne := u5 rfl
        cases av1 with
        | nil => exact absurd rfl hne
        | cons c l =>
          have h := advance_ok (k := 1) u4 (by simp)
          simp only [u4, Option.bind_some]
          refine ⟨_, _, rfl, h.wf, u2, by rw [u3]; simpa using h.ahead, by simp, fun hf => ⟨(u7 hf).1, rfl⟩, fun _ => h.alloc u1,
            fun he => ⟨(u8 he).1, by simp⟩⟩

theorem read_ok {bfs : Nat} (hb : 1 ≤ bfs) {s : ISt} (hwf : s.avail.isSome = true) (hnf : NoFail s.dev.script ∨ s.mem ≠ none) (n : Nat) :
    ∃ s' r, read bfs s n = some (s', r) ∧ IOk s n s' r := by
  obtain ⟨av, hav⟩ := Option.isSome_iff_exists.mp hwf
  unfold read
  rw [hav]
  simp only [Option.map_some]
  split
  · next hlt =>
    unfold readUnhappy readUnhappyDecay
    rcases avail_cases hwf with ⟨h1, h2, h3⟩ | ⟨l, i, h1, h2, h3, h4⟩
    · -- nothing allocated: the device does not throw
      have hnf' : NoFail s.dev.script := by
        rcases hnf with h | h
        · exact h
        · exact absurd h1 h
      have hnil : av = [] := by rw [h3] at hav; simpa using hav.symm
      subst hnil
      simp only [h1, List.length_nil, Nat.sub_zero, List.nil_append]
      have hah : s.ahead = s.dev.rest := by simp [ISt.ahead, hav]
      split
      · next hle =>
        have hr := devRead_ok s.dev n
        cases hd : devRead s.dev n with
        | mk d o =>
        rw [hd] at hr
        obtain ⟨r1, r2, r3, r4, r5, r6⟩ := hr
        dsimp only at r1 r2 r3 r4 r5
        cases o with
        | none => exact absurd rfl (r4 hnf').2
        | some l =>
          have e : (⟨none, s.curr, d⟩ : ISt).avail = some [] := by simp [ISt.avail, h2]
          refine ⟨_, _, rfl, by simp [e], r1, by rw [hah, r2]; simp [ISt.ahead, e], r3, fun h => ⟨(r4 h).1, rfl⟩, fun h => absurd h1 h,
            fun h => ⟨(r5 h).1, fun hn h' _ => by rw [hah]; exact (r5 h).2 hn (by simpa using h')⟩⟩
      · next hgt =>
        have hr := devRead_ok s.dev bfs
        cases hd : devRead s.dev bfs with
        | mk d o =>
        rw [hd] at hr
        obtain ⟨r1, r2, r3, r4, r5, r6⟩ := hr
        dsimp only at r1 r2 r3 r4 r5
        cases o with
        | none => exact absurd rfl (r4 hnf').2
        | some l =>
          have e := avail_some (l := l) (i := min n l.length) (d := d) (Nat.min_le_right _ _)
          refine ⟨_, _, rfl, by simp [e], r1, ?_, by simp; omega, fun h => ⟨(r4 h).1, rfl⟩, fun h => absurd h1 h, fun h => ⟨(r5 h).1, ?_⟩⟩
          · rw [hah, r2]
            simp only [ISt.ahead, e, Option.getD_some]
            rw [← List.append_assoc, List.take_append_drop]
          · intro hn h' _
            rw [hah]
            apply (r5 h).2 (by omega)
            dsimp only at h'
            rcases List.take_eq_nil_iff.mp h' with h' | h'
            · rw [List.length_eq_zero_iff.mp (by omega : l.length = 0)]
            · rw [h']
    · rw [h4] at hav
      have : l.drop i = av := by simpa using hav
      subst this
      simp only [h1]
      have hah : s.ahead = l.drop i ++ s.dev.rest := by simp [ISt.ahead, h4]
      have hfull : ∀ d, (⟨some l, some l.length, d⟩ : ISt).avail = some [] := by intro d; simp [ISt.avail]
      split
      · next hle =>
        have hr := devRead_ok s.dev (n - (l.drop i).length)
        cases hd : devRead s.dev (n - (l.drop i).length) with
        | mk d o =>
        rw [hd] at hr
        obtain ⟨r1, r2, r3, r4, r5, r6⟩ := hr
        dsimp only at r1 r2 r3 r4 r5
        cases o with
        | none =>
          refine ⟨_, _, rfl, by simp [ISt.avail, h1], r1, ?_, by simp; simp at hlt; omega, fun h => absurd rfl (r4 h).2, fun _ => by simp [h1],
            fun h => ⟨(r5 h).1, by simp⟩⟩
          rw [hah, r2]; simp [ISt.ahead, ISt.avail, h1]
        | some l' =>
          refine ⟨_, _, rfl, by simp [ISt.avail, h1], r1, ?_, by simp at r3 hlt ⊢; omega, fun h => ⟨(r4 h).1, rfl⟩, fun _ => by simp [h1],
            fun h => ⟨(r5 h).1, ?_⟩⟩
          · rw [hah, r2]; simp [ISt.ahead, ISt.avail, h1]
          · intro hn h' _
            simp only [List.append_eq_nil_iff] at h'
            rw [hah, h'.1, (r5 h).2 (by rw [h'.1]; simpa using hn) (by rw [h'.2])]; rfl
      · next hgt =>
        have hr := devRead_ok s.dev bfs
        cases hd : devRead s.dev bfs with
        | mk d o =>
        rw [hd] at hr
        obtain ⟨r1, r2, r3, r4, r5, r6⟩ := hr
        dsimp only at r1 r2 r3 r4 r5
        cases o with
        | none =>
          refine ⟨_, _, rfl, by simp [ISt.avail, h1], r1, ?_, by simp; simp at hlt; omega, fun h => absurd rfl (r4 h).2, fun _ => by simp [h1],
            fun h => ⟨(r5 h).1, by simp⟩⟩
          rw [hah, r2]; simp [ISt.ahead, ISt.avail, h1]
        | some l' =>
          have e := avail_some (l := l') (i := min (n - (l.drop i).length) l'.length) (d := d) (Nat.min_le_right _ _)
          refine ⟨_, _, rfl, by simp only [e]; rfl, r1, ?_, by simp at hlt ⊢; omega, fun h => ⟨(r4 h).1, rfl⟩, fun _ => by simp,
            fun h => ⟨(r5 h).1, ?_⟩⟩
          · rw [hah, r2]
            simp only [ISt.ahead, e, Option.getD_some]
            rw [List.append_assoc, ← List.append_assoc (List.take _ _), List.take_append_drop]
          · intro hn h' _
            simp only [List.append_eq_nil_iff] at h'
            have hl' : l' = [] := by
              rcases List.take_eq_nil_iff.mp h'.2 with h2 | h2
              · have := congrArg List.length h'.1
                simp at this
                apply List.length_eq_zero_iff.mp
                simp at h2 hlt
                rcases h2 with h2 | h2
                · omega
                · simp [h2]
              · exact h2
            rw [hah, h'.1, (r5 h).2 (by omega) (by rw [hl'])]; rfl
  · next hge =>
    have h := advance_ok (k := n) hav (by omega)
    exact ⟨_, _, rfl, h⟩

/-- What an operation asks for. -/
def IOp.want : IOp → Nat
  | .read n => n
  | .getc => 1

theorem istep_ok {bfs : Nat} (hb : 1 ≤ bfs) {s : ISt} (hwf : s.avail.isSome = true) (hnf : NoFail s.dev.script ∨ s.mem ≠ none) (op : IOp) :
    ∃ s' r, istep bfs s op = some (s', r) ∧ IOk s op.want s' r := by
  cases op with
  | read n => exact read_ok hb hwf hnf n
  | getc => exact getc_ok hb hwf

end Verif.IoBuf
