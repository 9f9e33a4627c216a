import Verif.Mode.Model
/-!
# C49: translation of open modes
-/
namespace Verif.Mode

/-- The user's choice in a mode: `in`, `out`, `app`, `trunc`, `excl`, `creat` (bits 11, 21, 0, 31, 8, 4). -/
def reqOf (m : Nat) : Req := ⟨m.testBit 11, m.testBit 21, m.testBit 0, m.testBit 31, m.testBit 8, m.testBit 4⟩

theorem and_bit (m k : Nat) : m &&& (1 <<< k) = if m.testBit k then 1 <<< k else 0 := by
  rw [Nat.one_shiftLeft]
  apply Nat.eq_of_testBit_eq
  intro j
  rw [Nat.testBit_and, Nat.testBit_two_pow]
  by_cases h : k = j
  · subst h; cases hm : m.testBit k <;> simp
  · cases hm : m.testBit k <;> simp [h, Nat.testBit_two_pow_of_ne]

theorem has_bit (m k : Nat) : has m (1 <<< k) = m.testBit k := by
  unfold has
  rw [and_bit]
  have : (1 <<< k : Nat) ≠ 0 := by rw [Nat.one_shiftLeft]; exact Nat.ne_of_gt (Nat.two_pow_pos k)
  cases m.testBit k <;> simp [this]

/-- The C mode string means what the mode means, for every mode (C knows no `creat`). The only mode outside the table that is given a string is
`directory` without any access flag, which is opened for reading. Whether the stream is binary is the user's choice too. -/
theorem c49_c_mode (m : Nat) (f : Option (List Nat)) :
    (¬ (cSupported m = 0 ∧ m.testBit 6) → fopen (toCMode m) f = meaning { reqOf m with c := false } f) ∧
    (cSupported m = 0 ∧ m.testBit 6 → toCMode m = "r") ∧
    (toCMode m ≠ "" → ¬ (cSupported m = 0 ∧ m.testBit 6) → fbinary (toCMode m) = !m.testBit 30) := by
  have hv : cSupported m = (if m.testBit 30 then 1 <<< 30 else 0) ||| (if m.testBit 8 then 1 <<< 8 else 0) |||
      (if m.testBit 21 then 1 <<< 21 else 0) ||| (if m.testBit 0 then 1 <<< 0 else 0) ||| (if m.testBit 11 then 1 <<< 11 else 0) |||
      (if m.testBit 31 then 1 <<< 31 else 0) := by
    unfold cSupported text excl out app in_ trunc
    simp only [Nat.and_or_distrib_left, and_bit]
  have hd : has m directory = m.testBit 6 := has_bit m 6
  unfold toCMode reqOf
  rw [hd, hv]
  generalize m.testBit 30 = t
  generalize m.testBit 8 = x
  generalize m.testBit 21 = o
  generalize m.testBit 0 = a
  generalize m.testBit 11 = i
  generalize m.testBit 31 = tr
  generalize m.testBit 6 = d
  generalize m.testBit 4 = c
  cases f <;> cases t <;> cases x <;> cases o <;> cases a <;> cases i <;> cases tr <;> cases d <;> exact ⟨fun h => by first | rfl | exact absurd (by decide) h, by decide, by decide⟩

example : toCMode (in_ ||| out ||| trunc ||| excl) = "w+xb" ∧ toCMode (out ||| text) = "w" ∧ toCMode (in_ ||| trunc) = "" := by decide

/-! ## POSIX flags -/

theorem orIf_testBit (v flag mode bits j : Nat) :
    (orIf v flag mode bits).testBit j = (mode.testBit j || (has v flag && bits.testBit j)) := by
  unfold orIf
  cases has v flag <;> simp

/-- The bits of a number given as a power of two or a sum of two. -/
theorem flags_testBit (m j : Nat) : (posixFlags m).testBit j =
    ((!m.testBit 9 && O_NOFOLLOW.testBit j) || (!m.testBit 12 && O_CLOEXEC.testBit j) || (m.testBit 4 && O_CREAT.testBit j) ||
     (m.testBit 8 && O_EXCL.testBit j) || (m.testBit 31 && O_TRUNC.testBit j) || (m.testBit 5 && O_DIRECT.testBit j) ||
     (m.testBit 27 && O_SYNC.testBit j) || (m.testBit 15 && O_NOCTTY.testBit j) || (m.testBit 22 && O_PATH.testBit j) ||
     (m.testBit 13 && O_NOATIME.testBit j) || (m.testBit 14 && O_NONBLOCK.testBit j) || (m.testBit 29 && O_TMPFILE.testBit j) ||
     (m.testBit 6 && O_DIRECTORY.testBit j)) := by
  have e1 : has m follow = m.testBit 9 := has_bit m 9
  have e2 : has m inherit = m.testBit 12 := has_bit m 12
  have e3 : has m creat = m.testBit 4 := has_bit m 4
  have e4 : has m excl = m.testBit 8 := has_bit m 8
  have e5 : has m trunc = m.testBit 31 := has_bit m 31
  have e6 : has m direct = m.testBit 5 := has_bit m 5
  have e7 : has m sync = m.testBit 27 := has_bit m 27
  have e8 : has m no_ctty = m.testBit 15 := has_bit m 15
  have e9 : has m path = m.testBit 22 := has_bit m 22
  have e10 : has m no_atime = m.testBit 13 := has_bit m 13
  have e11 : has m no_block = m.testBit 14 := has_bit m 14
  have e12 : has m temporary = m.testBit 29 := has_bit m 29
  have e13 : has m directory = m.testBit 6 := has_bit m 6
  unfold posixFlags
  simp only [orIf_testBit, e3, e4, e5, e6, e7, e8, e9, e10, e11, e12, e13, e1, e2]
  congr 1
  congr 1
  congr 1
  congr 1
  congr 1
  congr 1
  congr 1
  congr 1
  congr 1
  congr 1
  congr 1
  cases m.testBit 9 <;> cases m.testBit 12 <;> simp

/-- The access part added by the switch, as a function of `in`, `out`, `app`. -/
def accBits (i o a : Bool) : Nat :=
  if a then (if i then 0x442 else 0x441) else if o then (if i then 2 else 0x241) else 0

theorem posixMode_eq (m : Nat) : posixMode m = posixFlags m ||| accBits (m.testBit 11) (m.testBit 21) (m.testBit 0) := by
  have hv : m &&& (out ||| app ||| in_) = (if m.testBit 21 then 1 <<< 21 else 0) ||| (if m.testBit 0 then 1 <<< 0 else 0) |||
      (if m.testBit 11 then 1 <<< 11 else 0) := by
    unfold out app in_
    simp only [Nat.and_or_distrib_left, and_bit]
  unfold posixMode
  rw [hv]
  generalize posixFlags m = p
  generalize m.testBit 21 = o
  generalize m.testBit 0 = a
  generalize m.testBit 11 = i
  cases o <;> cases a <;> cases i <;> simp [accBits, out, app, in_, O_WRONLY, O_RDWR, O_CREAT, O_TRUNC, O_APPEND, Nat.or_assoc]

theorem mode_testBit (m j : Nat) : (posixMode m).testBit j =
    ((posixFlags m).testBit j || (accBits (m.testBit 11) (m.testBit 21) (m.testBit 0)).testBit j) := by
  rw [posixMode_eq, Nat.testBit_or]

/-- Every POSIX flag is set exactly by the mode flags it is documented for (`follow` and `inherit` are inverted), for every mode, and no
other bit is ever set. -/
theorem c49_flags (m : Nat) :
    let p := posixMode m
    p.testBit 17 = !m.testBit 9 ∧                                              -- O_NOFOLLOW unless `follow`
    p.testBit 19 = !m.testBit 12 ∧                                             -- O_CLOEXEC unless `inherit`
    p.testBit 14 = m.testBit 5 ∧                                               -- O_DIRECT
    p.testBit 12 = m.testBit 27 ∧ p.testBit 20 = m.testBit 27 ∧                -- O_SYNC
    p.testBit 8 = m.testBit 15 ∧                                               -- O_NOCTTY
    p.testBit 21 = m.testBit 22 ∧                                              -- O_PATH
    p.testBit 18 = m.testBit 13 ∧                                              -- O_NOATIME
    p.testBit 11 = m.testBit 14 ∧                                              -- O_NONBLOCK
    p.testBit 22 = m.testBit 29 ∧ p.testBit 16 = (m.testBit 29 || m.testBit 6) ∧  -- O_TMPFILE, O_DIRECTORY
    p.testBit 7 = m.testBit 8 ∧                                                -- O_EXCL
    p.testBit 10 = m.testBit 0 ∧                                               -- O_APPEND
    p.testBit 6 = (m.testBit 4 || m.testBit 0 || (m.testBit 21 && !m.testBit 11)) ∧   -- O_CREAT
    p.testBit 9 = (m.testBit 31 || (m.testBit 21 && !m.testBit 11 && !m.testBit 0)) ∧ -- O_TRUNC
    (∀ j, j ∉ [0, 1, 6, 7, 8, 9, 10, 11, 12, 14, 16, 17, 18, 19, 20, 21, 22] → p.testBit j = false) := by
  intro p
  refine ⟨?_, ?_, ?_, ?_, ?_, ?_, ?_, ?_, ?_, ?_, ?_, ?_, ?_, ?_, ?_, ?_⟩
  case refine_16 =>
    intro j hj
    by_cases hl : j < 23
    · have : ∀ j : Fin 23, j.val ∉ [0, 1, 6, 7, 8, 9, 10, 11, 12, 14, 16, 17, 18, 19, 20, 21, 22] →
          O_NOFOLLOW.testBit j = false ∧ O_CLOEXEC.testBit j = false ∧ O_CREAT.testBit j = false ∧ O_EXCL.testBit j = false ∧
          O_TRUNC.testBit j = false ∧ O_DIRECT.testBit j = false ∧ O_SYNC.testBit j = false ∧ O_NOCTTY.testBit j = false ∧
          O_PATH.testBit j = false ∧ O_NOATIME.testBit j = false ∧ O_NONBLOCK.testBit j = false ∧ O_TMPFILE.testBit j = false ∧
          O_DIRECTORY.testBit j = false ∧ ∀ i o a, (accBits i o a).testBit j = false := by decide +kernel
      obtain ⟨h1, h2, h3, h4, h5, h6, h7, h8, h9, h10, h11, h12, h13, h14⟩ := this ⟨j, hl⟩ hj
      simp only [p, mode_testBit, flags_testBit, h1, h2, h3, h4, h5, h6, h7, h8, h9, h10, h11, h12, h13, h14, Bool.and_false, Bool.or_false]
    · have hb : ∀ b, b < 2 ^ 23 → b.testBit j = false := by
        intro b hb
        exact Nat.testBit_lt_two_pow (Nat.lt_of_lt_of_le hb (Nat.pow_le_pow_right (by decide) (by omega)))
      have ha : ∀ i o a, accBits i o a < 2 ^ 23 := by decide
      simp only [p, mode_testBit, flags_testBit, hb _ (ha _ _ _), hb O_NOFOLLOW (by decide), hb O_CLOEXEC (by decide), hb O_CREAT (by decide),
        hb O_EXCL (by decide), hb O_TRUNC (by decide), hb O_DIRECT (by decide), hb O_SYNC (by decide), hb O_NOCTTY (by decide),
        hb O_PATH (by decide), hb O_NOATIME (by decide), hb O_NONBLOCK (by decide), hb O_TMPFILE (by decide), hb O_DIRECTORY (by decide),
        Bool.and_false, Bool.or_false]
  all_goals
    simp only [p, mode_testBit, flags_testBit]
    simp only [O_NOFOLLOW, O_CLOEXEC, O_CREAT, O_EXCL, O_TRUNC, O_DIRECT, O_SYNC, O_NOCTTY, O_PATH, O_NOATIME, O_NONBLOCK,
      O_TMPFILE, O_DIRECTORY]
    generalize m.testBit 11 = i
    generalize m.testBit 21 = o
    generalize m.testBit 0 = a
    generalize m.testBit 9 = b1
    generalize m.testBit 12 = b2
    generalize m.testBit 4 = b3
    generalize m.testBit 8 = b4
    generalize m.testBit 31 = b5
    generalize m.testBit 5 = b6
    generalize m.testBit 27 = b7
    generalize m.testBit 15 = b8
    generalize m.testBit 22 = b9
    generalize m.testBit 13 = b10
    generalize m.testBit 14 = b11
    generalize m.testBit 29 = b12
    generalize m.testBit 6 = b13
    cases i <;> cases o <;> cases a <;> simp [accBits, Nat.testBit]

example : posixMode (in_ ||| out ||| app) = 0xA0442 ∧ posixMode (out ||| excl ||| follow ||| inherit) = 0x2C1 := by decide

theorem mod4 (n : Nat) : n % 4 = (n.testBit 0).toNat + 2 * (n.testBit 1).toNat := by
  have h0 : n.testBit 0 = decide (n % 2 = 1) := Nat.testBit_zero n
  have h1 : n.testBit 1 = decide (n / 2 % 2 = 1) := by
    rw [Nat.testBit_succ, Nat.testBit_zero]
  rw [h0, h1]
  rcases Nat.mod_two_eq_zero_or_one n with h | h <;> rcases Nat.mod_two_eq_zero_or_one (n / 2) with h' | h' <;> simp [h, h'] <;> omega

theorem acc_bits (m : Nat) : (posixMode m).testBit 0 = ((m.testBit 0 || m.testBit 21) && !m.testBit 11) ∧
    (posixMode m).testBit 1 = ((m.testBit 0 || m.testBit 21) && m.testBit 11) := by
  have k0 : ∀ i o a, (accBits i o a).testBit 0 = ((a || o) && !i) := by decide
  have k1 : ∀ i o a, (accBits i o a).testBit 1 = ((a || o) && i) := by decide
  rw [← k0, ← k1]
  constructor <;>
  · rw [mode_testBit, flags_testBit]
    simp only [O_NOFOLLOW, O_CLOEXEC, O_CREAT, O_EXCL, O_TRUNC, O_DIRECT, O_SYNC, O_NOCTTY, O_PATH, O_NOATIME, O_NONBLOCK,
      O_TMPFILE, O_DIRECTORY]
    generalize accBits _ _ _ = q
    simp [Nat.testBit, Nat.shiftRight_eq_div_pow]

/-- `open` as a function of the bits of the flags. -/
def openBits (b0 b1 creat excl trunc app : Bool) (f : Option (List Nat)) : Outcome :=
  if b0 && b1 then .undef
  else if excl && !creat then .undef
  else if trunc && !(b0 || b1) then .undef
  else match f with
    | none => if creat then .ok ⟨!b0, b0 || b1, app, []⟩ else .fail
    | some bytes => if excl then .fail else .ok ⟨!b0, b0 || b1, app, if trunc then [] else bytes⟩

theorem posixOpen_bits (fl : Nat) (f : Option (List Nat)) :
    posixOpen fl f = openBits (fl.testBit 0) (fl.testBit 1) (fl.testBit 6) (fl.testBit 7) (fl.testBit 9) (fl.testBit 10) f := by
  have h := mod4 fl
  unfold posixOpen openBits
  generalize fl.testBit 0 = b0 at *
  generalize fl.testBit 1 = b1 at *
  generalize fl % 4 = q at *
  subst h
  cases f <;> cases b0 <;> cases b1 <;> simp

/-- What `open` does with the translated flags, as a function of the user's choice. -/
theorem posixOpen_eq (m : Nat) (f : Option (List Nat)) : posixOpen (posixMode m) f =
    (let q := reqOf m
     openBits ((q.a || q.o) && !q.i) ((q.a || q.o) && q.i) (q.c || q.a || (q.o && !q.i)) q.x (q.t || (q.o && !q.i && !q.a)) q.a f) := by
  obtain ⟨_, _, _, _, _, _, _, _, _, _, _, hx, ha, hc, ht, _⟩ := c49_flags m
  obtain ⟨h0, h1⟩ := acc_bits m
  rw [posixOpen_bits, h0, h1, hx, ha, hc, ht]
  rfl

/-- Opening a file through POSIX does what the mode says, for every valid mode except `in|out|trunc` without `creat`. -/
theorem c49_posix_partial (m : Nat) (f : Option (List Nat)) (hv : row (reqOf m) ≠ none)
    (hw : ¬ (m.testBit 11 ∧ m.testBit 21 ∧ m.testBit 31 ∧ ¬ m.testBit 4)) :
    posixOpen (posixMode m) f = meaning (reqOf m) f := by
  rw [posixOpen_eq]
  revert hv hw
  unfold reqOf
  generalize m.testBit 11 = i
  generalize m.testBit 21 = o
  generalize m.testBit 0 = a
  generalize m.testBit 8 = x
  generalize m.testBit 31 = t
  generalize m.testBit 4 = c
  cases i <;> cases o <;> cases a <;> cases x <;> cases t <;> cases c <;> cases f <;> simp [row, table, meaning, Row.run, openBits]

/-- `in|out|trunc` ("w+") has to create a missing file, but opening it fails; with `excl` the flags are undefined in POSIX. -/
theorem c49_posix_violated :
    (row (reqOf (in_ ||| out ||| trunc)) ≠ none ∧ posixOpen (posixMode (in_ ||| out ||| trunc)) none = .fail ∧
      meaning (reqOf (in_ ||| out ||| trunc)) none = .ok ⟨true, true, false, []⟩) ∧
    (row (reqOf (in_ ||| out ||| trunc ||| excl)) ≠ none ∧ posixOpen (posixMode (in_ ||| out ||| trunc ||| excl)) none = .undef) := by
  decide

/-- Invalid combinations are not rejected: `out|app|trunc` destroys the contents of an existing file. -/
theorem c49_invalid_violated (bytes : List Nat) :
    row (reqOf (out ||| app ||| trunc)) = none ∧
    posixOpen (posixMode (out ||| app ||| trunc)) (some bytes) = .ok ⟨false, true, true, []⟩ := by
  constructor
  · decide
  · rfl

/-- The C stream made from an opened file never asks for more than the descriptor allows: for every valid mode (`creat` aside), the stream of
the mode string reads and writes exactly when the descriptor does. -/
theorem c49_c_file (m : Nat) (f : Option (List Nat)) (hv : row { reqOf m with c := false } ≠ none) (o o' : Opened)
    (h : posixOpen (posixMode m) f = .ok o) (h' : fopen (toCMode m) (some []) = .ok o' ∨ fopen (toCMode m) none = .ok o') :
    o.read = o'.read ∧ o.write = o'.write ∧ o.append = o'.append := by
  have hd : ¬ (cSupported m = 0 ∧ m.testBit 6) := by
    rintro ⟨hc, _⟩
    have hb : ∀ k, (text ||| excl ||| out ||| app ||| in_ ||| trunc).testBit k = true → m.testBit k = false := by
      intro k hk
      have := congrArg (·.testBit k) hc
      simpa [cSupported, Nat.testBit_and, hk] using this
    apply hv
    have h1 := hb 11 (by decide)
    have h2 := hb 21 (by decide)
    have h3 := hb 0 (by decide)
    simp [reqOf, row, table, h1, h2, h3]
  rw [posixOpen_eq] at h
  rw [(c49_c_mode m (some [])).1 hd, (c49_c_mode m none).1 hd] at h'
  revert hv h h'
  unfold reqOf
  generalize m.testBit 11 = i
  generalize m.testBit 21 = oo
  generalize m.testBit 0 = a
  generalize m.testBit 8 = x
  generalize m.testBit 31 = t
  generalize m.testBit 4 = c
  cases o; cases o'
  cases i <;> cases oo <;> cases a <;> cases x <;> cases t <;> cases c <;> cases f <;> simp [row, table, meaning, Row.run, openBits] <;> grind

example : row (reqOf (out ||| excl)) ≠ none ∧ posixOpen (posixMode (out ||| excl)) none = .ok ⟨false, true, false, []⟩ := by decide

/-! ## `std::filebuf` -/

theorem ios_fields (nr : Bool) (m : Nat) (hd : ¬ (m.testBit 6 ∧ !m.testBit 0 ∧ m.testBit 30 ∧ !m.testBit 11 ∧ !m.testBit 21 ∧ !m.testBit 31)) :
    iosMode nr m = ⟨m.testBit 0, !m.testBit 30, m.testBit 11, m.testBit 21, m.testBit 31, nr && !m.testBit 8⟩ := by
  have e1 : has m app = m.testBit 0 := has_bit m 0
  have e2 : has m text = m.testBit 30 := has_bit m 30
  have e3 : has m in_ = m.testBit 11 := has_bit m 11
  have e4 : has m out = m.testBit 21 := has_bit m 21
  have e5 : has m trunc = m.testBit 31 := has_bit m 31
  have e6 : has m directory = m.testBit 6 := has_bit m 6
  have e7 : (m &&& excl != excl) = !m.testBit 8 := by
    unfold excl; rw [and_bit]; cases m.testBit 8 <;> simp
  revert hd
  unfold iosMode
  rw [e1, e2, e3, e4, e5, e6, e7]
  generalize m.testBit 11 = i
  generalize m.testBit 21 = o
  generalize m.testBit 0 = a
  generalize m.testBit 8 = x
  generalize m.testBit 31 = t
  generalize m.testBit 30 = b
  generalize m.testBit 6 = d
  revert nr i o a x t b d
  decide

/-- The `std::ios` mode means what the mode means, for every mode without `excl` and a standard library without `noreplace`
(a directory opened in text mode without access flags is opened for reading). -/
theorem c49_filebuf_partial (m : Nat) (f : Option (List Nat)) (hx : m.testBit 8 = false)
    (hd : ¬ (m.testBit 6 ∧ !m.testBit 0 ∧ m.testBit 30 ∧ !m.testBit 11 ∧ !m.testBit 21 ∧ !m.testBit 31)) :
    (iosMode false m).open f = meaning { reqOf m with c := false } f ∧ (iosMode false m).binary = !m.testBit 30 := by
  rw [ios_fields false m hd]
  exact ⟨by simp [Ios.open, reqOf, hx], rfl⟩

/-- With `std::ios::noreplace` the test is inverted: EVERY mode without `excl` is opened as if it had `excl` (writing to an existing file
fails), and `excl` itself overwrites an existing file. -/
theorem c49_filebuf_violated (bytes : List Nat) :
    (iosMode true out).open (some bytes) = .fail ∧ meaning (reqOf out) (some bytes) = .ok ⟨false, true, false, []⟩ ∧
    (iosMode true (out ||| excl)).open (some bytes) = .ok ⟨false, true, false, []⟩ ∧ meaning (reqOf (out ||| excl)) (some bytes) = .fail := by
  refine ⟨?_, ?_, ?_, ?_⟩ <;> rfl

/-! ## Windows -/

/-- Without `app` and `creat`, the arguments for `CreateFile` and `NtCreateFile` mean what the mode means, for every valid mode. -/
theorem c49_windows_partial (m : Nat) (f : Option (List Nat)) (hv : row (reqOf m) ≠ none) (ha : m.testBit 0 = false) (hc : m.testBit 4 = false) :
    createFile (win32Access m) (win32Creation m) f = meaning (reqOf m) f ∧
    ntCreateFile (ntAccess m) (ntCreation m) f = meaning (reqOf m) f := by
  have e1 : has m app = m.testBit 0 := has_bit m 0
  have e2 : has m creat = m.testBit 4 := has_bit m 4
  have e3 : has m in_ = m.testBit 11 := has_bit m 11
  have e4 : has m out = m.testBit 21 := has_bit m 21
  have e5 : has m trunc = m.testBit 31 := has_bit m 31
  have e6 : has m excl = m.testBit 8 := has_bit m 8
  revert hv
  unfold win32Access win32Creation ntAccess ntCreation reqOf
  rw [e1, e2, e3, e4, e5, e6, ha, hc]
  generalize m.testBit 11 = i
  generalize m.testBit 21 = o
  generalize m.testBit 8 = x
  generalize m.testBit 31 = t
  intro hv
  cases i <;> cases o <;> cases x <;> cases t <;> first | exact absurd rfl hv | (cases f <;> exact ⟨rfl, rfl⟩)

/-- `app` on Windows: the file is readable although only appending was asked for, and `excl` is ignored. `creat` with `out` keeps the old contents. -/
theorem c49_windows_violated (bytes : List Nat) :
    (createFile (win32Access app) (win32Creation app) (some bytes) = .ok ⟨true, true, true, bytes⟩ ∧
      meaning (reqOf app) (some bytes) = .ok ⟨false, true, true, bytes⟩) ∧
    (createFile (win32Access (app ||| excl)) (win32Creation (app ||| excl)) (some bytes) = .ok ⟨true, true, true, bytes⟩ ∧
      meaning (reqOf (app ||| excl)) (some bytes) = .fail) ∧
    (ntCreateFile (ntAccess (out ||| creat)) (ntCreation (out ||| creat)) (some bytes) = .ok ⟨false, true, false, bytes⟩ ∧
      meaning (reqOf (out ||| creat)) (some bytes) = .ok ⟨false, true, false, []⟩) := by
  refine ⟨⟨?_, ?_⟩, ⟨?_, ?_⟩, ?_, ?_⟩ <;> rfl

example : row (reqOf (in_ ||| out ||| trunc)) ≠ none ∧
    createFile (win32Access (in_ ||| out ||| trunc)) (win32Creation (in_ ||| out ||| trunc)) (some [1, 2]) = .ok ⟨true, true, false, []⟩ := by
  decide

end Verif.Mode
