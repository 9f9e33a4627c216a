import Mathlib.Data.List.Basic
import Verif.Conc.Model
/-!
# Undisturbed calls stay within their streams, and the invariant of parallel executions
-/
namespace Verif.Conc
variable {S R : Type} {n : Nat}

theorem set_same (st : Nat → S) (i : Nat) (x : S) : set st i x i = x := by simp [set]

theorem set_ne (st : Nat → S) {i j : Nat} (x : S) (h : j ≠ i) : set st i x j = st j := by simp [set, h]

theorem put_same {α : Type} (f : Fin n → α) (t : Fin n) (x : α) : put f t x t = x := by simp [put]

theorem put_ne {α : Type} (f : Fin n → α) {t u : Fin n} (x : α) (h : u ≠ t) : put f t x u = f u := by simp [put, h]

/-- A call leaves the streams it does not access alone. -/
theorem exec_frame {P : Nat → Prop} (b : Body S R) (h : b.Only P) : ∀ (st : Nat → S) (i : Nat), ¬ P i →
    (b.exec st).1 i = st i := by
  induction b with
  | ret r => intro st i _; rfl
  | act j f k ih =>
    intro st i hi
    have hj : i ≠ j := fun e => hi (e ▸ h.1)
    rw [Body.exec, ih _ (h.2 _) _ _ hi, set_ne _ _ hj]

/-- A call depends only on the streams it accesses. -/
theorem exec_local {P : Nat → Prop} (b : Body S R) (h : b.Only P) : ∀ (st st' : Nat → S), (∀ i, P i → st i = st' i) →
    (b.exec st).2 = (b.exec st').2 ∧ ∀ i, P i → (b.exec st).1 i = (b.exec st').1 i := by
  induction b with
  | ret r => intro st st' e; exact ⟨rfl, e⟩
  | act j f k ih =>
    intro st st' e
    rw [Body.exec, Body.exec, e j h.1]
    apply ih _ (h.2 _)
    intro i hi
    by_cases hj : i = j
    · subst hj; rw [set_same, set_same]
    · rw [set_ne _ _ hj, set_ne _ _ hj]; exact e i hi

theorem Only.mono {P Q : Nat → Prop} (b : Body S R) (h : b.Only P) (pq : ∀ i, P i → Q i) : b.Only Q := by
  induction b with
  | ret r => trivial
  | act j f k ih => exact ⟨pq _ h.1, fun s => ih s (h.2 s)⟩

/-- The call accesses a stream only while holding the mutex that belongs to it. -/
def Call.Safe (prot : Nat → Nat) (c : Call S R) : Prop := c.body.Only fun i => prot i ∈ c.locks

/-- All calls of the program do so. -/
def Prog.Safe (prot : Nat → Nat) : Prog S R → Prop
  | .stop => True
  | .call c k => c.Safe prot ∧ ∀ r, (k r).Safe prot

/-- The program `p` makes the calls of `l`, gets their results, and is then at `q`. -/
inductive Follows : Prog S R → List (Call S R × R) → Prog S R → Prop
  | nil (p) : Follows p [] p
  | cons {c k r l q} : Follows (k r) l q → Follows (.call c k) ((c, r) :: l) q

theorem Follows.snoc {p : Prog S R} {l : List (Call S R × R)} {c : Call S R} {k : R → Prog S R} (h : Follows p l (.call c k))
    (r : R) : Follows p (l ++ [(c, r)]) (k r) := by
  generalize hq : Prog.call c k = q at h
  induction h with
  | nil p => subst hq; exact .cons (.nil _)
  | cons _ ih => exact .cons (ih hq)

/-- What the log says of thread `t`. -/
def mine (log : List (Fin n × Call S R × R)) (t : Fin n) : List (Call S R × R) :=
  (log.filter fun e => e.1 = t).map Prod.snd

theorem mine_snoc_same (log : List (Fin n × Call S R × R)) (t : Fin n) (c : Call S R) (r : R) :
    mine (log ++ [(t, c, r)]) t = mine log t ++ [(c, r)] := by simp [mine]

theorem mine_snoc_ne (log : List (Fin n × Call S R × R)) {t u : Fin n} (h : u ≠ t) (c : Call S R) (r : R) :
    mine (log ++ [(t, c, r)]) u = mine log u := by
  have : ¬ t = u := fun e => h e.symm
  simp [mine, this]

/-- The log with the unlocked operations in place of the calls. -/
def bodies (log : List (Fin n × Call S R × R)) : List (Fin n × Body S R × R) := log.map fun e => (e.1, e.2.1.body, e.2.2)

theorem Serial.snoc {A : Type} {st st1 st2 : Nat → S} {l : List (A × Body S R × R)} {a : A} {b : Body S R} {r : R}
    (h : Serial st l st1) (e : b.exec st1 = (st2, r)) : Serial st (l ++ [(a, b, r)]) st2 := by
  induction h with
  | nil st => exact .cons e (.nil _)
  | cons e' _ ih => exact .cons e' (ih e)

/-- Where a thread is, its guards and its program agree. -/
def Thread.Fine (prot : Nat → Nat) (p0 : Prog S R) (l : List (Call S R × R)) (x : Thread S R) : Prop :=
  match x.code with
  | .idle p => x.held = [] ∧ p.Safe prot ∧ Follows p0 l p
  | .enter c0 c k => c0.locks = x.held.reverse ++ c.locks ∧ c.body = c0.body ∧ c0.Safe prot ∧ (∀ r, (k r).Safe prot) ∧
      Follows p0 l (.call c0 k)
  | .run c0 b k => c0.locks = x.held.reverse ∧ (b.Only fun i => prot i ∈ x.held) ∧ c0.Safe prot ∧
      (∀ r, (k r).Safe prot) ∧ Follows p0 l (.call c0 k)
  | .leave r k => (∀ r, (k r).Safe prot) ∧ Follows p0 l (k r)

/-- The thread is inside the unlocked operation of `c0`, with `b` still to do. -/
def Thread.Runs (x : Thread S R) (c0 : Call S R) (b : Body S R) : Prop := ∃ k, x.code = .run c0 b k

/-- The invariant; `base` is the result of the finished calls one after another. -/
structure Inv (prot : Nat → Nat) (st0 : Nat → S) (p0 : Fin n → Prog S R) (s : Sys n S R) (base : Nat → S) : Prop where
  serial : Serial st0 (bodies s.log) base
  fine : ∀ t, (s.th t).Fine prot (p0 t) (mine s.log t)
  excl : ∀ t u m, m ∈ (s.th t).held → m ∈ (s.th u).held → t = u
  rest : ∀ i, (∀ t c0 b, (s.th t).Runs c0 b → prot i ∉ (s.th t).held) → s.st i = base i
  busy : ∀ t c0 b, (s.th t).Runs c0 b → (b.exec s.st).2 = (c0.body.exec base).2 ∧
    ∀ i, prot i ∈ (s.th t).held → (b.exec s.st).1 i = (c0.body.exec base).1 i

theorem inv_start {prot : Nat → Nat} {st0 : Nat → S} {p0 : Fin n → Prog S R} (h : ∀ t, (p0 t).Safe prot) :
    Inv prot st0 p0 (start st0 p0) st0 where
  serial := .nil _
  fine := fun t => ⟨rfl, h t, .nil _⟩
  excl := fun t u m hm => by simp [start] at hm
  rest := fun _ _ => rfl
  busy := fun t c0 b ⟨k, hk⟩ => by simp [start] at hk

theorem free_iff {recur : Nat → Bool} {th : Fin n → Thread S R} {t : Fin n} {m : Nat} :
    free recur th t m = true ↔ ∀ u, m ∈ (th u).held → u = t ∧ recur m = true := by
  simp only [free, List.all_eq_true, List.mem_finRange, forall_true_left]
  refine forall_congr' fun u => ?_
  simp only [Bool.or_eq_true, Bool.not_eq_true', Bool.and_eq_true, decide_eq_true_eq, List.contains_eq_mem,
    decide_eq_false_iff_not]
  tauto

/-- A step that neither touches the streams nor the log, and takes thread `t` neither into nor out of an operation. -/
theorem inv_move {prot : Nat → Nat} {st0 : Nat → S} {p0 : Fin n → Prog S R} {s : Sys n S R} {base : Nat → S}
    (I : Inv prot st0 p0 s base) (t : Fin n) (x : Thread S R) (hf : x.Fine prot (p0 t) (mine s.log t))
    (hx : ∀ u m, m ∈ x.held → m ∈ (s.th u).held → u = t)
    (hr : ∀ c0 b, ¬ x.Runs c0 b) (hr' : ∀ c0 b, ¬ (s.th t).Runs c0 b) :
    Inv prot st0 p0 { s with th := put s.th t x } base where
  serial := I.serial
  fine := fun u => by
    by_cases h : u = t
    · subst h; simp only [put_same]; exact hf
    · simp only [put_ne _ _ h]; exact I.fine u
  excl := fun u v m hu hv => by
    by_cases h : u = t
    · subst h
      by_cases h' : v = u
      · exact h'.symm
      · simp only [put_same, put_ne _ _ h'] at hu hv; exact (hx v m hu hv).symm
    · simp only [put_ne _ _ h] at hu
      by_cases h' : v = t
      · subst h'; simp only [put_same] at hv; exact hx u m hv hu
      · simp only [put_ne _ _ h'] at hv; exact I.excl u v m hu hv
  rest := fun i h => I.rest i fun u c0 b hb => by
    have hu : u ≠ t := fun e => hr' c0 b (e ▸ hb)
    have := h u c0 b
    simp only [put_ne _ _ hu] at this
    exact this hb
  busy := fun u c0 b hb => by
    by_cases h : u = t
    · subst h; simp only [put_same] at hb; exact absurd hb (hr c0 b)
    · simp only [put_ne _ _ h] at hb ⊢; exact I.busy u c0 b hb

end Verif.Conc
