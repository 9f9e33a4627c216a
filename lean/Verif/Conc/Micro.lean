import Verif.Conc.Lemmas
/-!
# A buffered write, access by access

`include/fast_io_freestanding_impl/io_buffer/{output,output_normal}.h` for a stream whose buffer is allocated and whose device
takes everything: the pointers are read, the characters are stored one by one, and the pointer is written back.
-/
namespace Verif.Conc

/-- A buffered output stream in memory: the buffer (`[buffer_begin,buffer_end)`), the offset of `buffer_curr`, and what the
device has received. -/
structure Mem where
  mem : List Nat
  curr : Nat
  dev : List Nat
deriving DecidableEq, Repr

/-- Everything written to the stream so far. -/
def Mem.out (s : Mem) : List Nat := s.dev ++ s.mem.take s.curr

/-- `non_overlapped_copy_n` to the offset `p`, one character at a time, and the update of `buffer_curr` (output.h:60). -/
def storeChars {R : Type} (i p : Nat) (k : Body Mem R) : List Nat → Body Mem R
  | [] => .act i (fun s => { s with curr := p }) fun _ => k
  | c :: l => .act i (fun s => { s with mem := s.mem.set p c }) fun _ => storeChars i (p + 1) k l

/-- `write` (output.h:34-61) with `iobuf_write_unhappy_decay_no_alloc_impl` for a device without `scatter_write`
(output_normal.h:62-68). -/
def writeThen {R : Type} (i : Nat) (bs : List Nat) (k : Body Mem R) : Body Mem R :=
  .act i id fun s =>
    if s.mem.length - s.curr < bs.length then
      .act i (fun s => { s with dev := s.dev ++ s.mem.take s.curr }) fun _ =>
      .act i (fun s => { s with dev := s.dev ++ bs }) fun _ =>
      .act i (fun s => { s with curr := 0 }) fun _ => k
    else storeChars i s.curr k bs

/-- Several `write` calls (the parts of a `print`). -/
def writes (i : Nat) : List (List Nat) → Body Mem Bool
  | [] => .ret true
  | bs :: l => writeThen i bs (writes i l)

variable {R : Type}

theorem storeChars_only {i p : Nat} {k : Body Mem R} (hk : k.Only (· = i)) (bs : List Nat) :
    (storeChars i p k bs).Only (· = i) := by
  induction bs generalizing p with
  | nil => exact ⟨rfl, fun _ => hk⟩
  | cons c l ih => exact ⟨rfl, fun _ => ih⟩

theorem writeThen_only {i : Nat} {bs : List Nat} {k : Body Mem R} (hk : k.Only (· = i)) : (writeThen i bs k).Only (· = i) := by
  refine ⟨rfl, fun s => ?_⟩
  dsimp only
  split
  · exact ⟨rfl, fun _ => ⟨rfl, fun _ => ⟨rfl, fun _ => hk⟩⟩⟩
  · exact storeChars_only hk bs

theorem writes_only (i : Nat) (l : List (List Nat)) : (writes i l).Only (· = i) := by
  induction l with
  | nil => trivial
  | cons bs l ih => exact writeThen_only ih

theorem set_set (st : Nat → Mem) (i : Nat) (x y : Mem) : set (set st i x) i y = set st i y := by
  funext j; unfold set; split <;> rfl

theorem set_self (st : Nat → Mem) (i : Nat) : set st i (st i) = st := by
  funext j; unfold set; split
  · rename_i h; rw [h]
  · rfl

theorem storeChars_exec (i : Nat) (k : Body Mem R) (bs : List Nat) : ∀ (st : Nat → Mem) (p : Nat),
    p + bs.length ≤ (st i).mem.length → ∃ m, m.length = (st i).mem.length ∧ m.take (p + bs.length) = (st i).mem.take p ++ bs ∧
      (storeChars i p k bs).exec st = k.exec (set st i ⟨m, p + bs.length, (st i).dev⟩) := by
  induction bs with
  | nil => intro st p h; exact ⟨(st i).mem, rfl, by simp, rfl⟩
  | cons c l ih =>
    intro st p h
    simp only [List.length_cons] at h
    obtain ⟨m, h1, h2, h3⟩ := ih (set st i { st i with mem := (st i).mem.set p c }) (p + 1)
      (by rw [set_same]; simp only [List.length_set]; omega)
    rw [set_same, set_set] at h3
    rw [set_same] at h1 h2
    simp only [List.length_set] at h1
    have e : p + (c :: l).length = p + 1 + l.length := by simp; omega
    refine ⟨m, h1, ?_, ?_⟩
    · rw [e, h2]
      simp only
      rw [List.take_succ, List.take_set_of_le (Nat.le_refl p), List.getElem?_set_self (by omega)]
      simp
    · rw [e, storeChars, Body.exec, h3]

theorem writeThen_exec (i : Nat) (bs : List Nat) (k : Body Mem R) (st : Nat → Mem) (h : (st i).curr ≤ (st i).mem.length) :
    ∃ x, (writeThen i bs k).exec st = k.exec (set st i x) ∧ x.curr ≤ x.mem.length ∧ x.out = (st i).out ++ bs := by
  rw [writeThen, Body.exec]
  simp only [id, set_self]
  split
  · simp only [Body.exec, set_set, set_same]
    exact ⟨_, rfl, by simp, by simp [Mem.out, List.append_assoc]⟩
  · rename_i hn
    obtain ⟨m, h1, h2, h3⟩ := storeChars_exec i k bs st (st i).curr (by omega)
    exact ⟨_, h3, by simp only; omega, by simp [Mem.out, h2]⟩

/-- Undisturbed, the writes append their texts. -/
theorem writes_exec (i : Nat) (l : List (List Nat)) : ∀ st : Nat → Mem, (st i).curr ≤ (st i).mem.length →
    ∃ x, (writes i l).exec st = (set st i x, true) ∧ x.curr ≤ x.mem.length ∧ x.out = (st i).out ++ l.flatten := by
  induction l with
  | nil => intro st h; exact ⟨st i, by rw [set_self]; rfl, h, by simp⟩
  | cons bs l ih =>
    intro st h
    obtain ⟨x, e, hx, ho⟩ := writeThen_exec i bs (writes i l) st h
    obtain ⟨y, e2, hy, ho2⟩ := ih (set st i x) (by rw [set_same]; exact hx)
    rw [set_same] at ho2
    rw [set_set] at e2
    exact ⟨y, by rw [writes, e, e2], hy, by rw [ho2, ho]; simp⟩

end Verif.Conc
