import Verif.Conc.Progress
import Verif.Conc.Micro
import Verif.Print.Props
/-!
# C77: streams with a mutex shared between threads

`prot i` is the mutex that belongs to the data of stream `i`; a program is `Safe` if it accesses stream `i` only inside calls
that take `prot i`. Whatever the threads do and however they are interleaved, access by access, such programs see their
calls made one after another.
-/
namespace Verif.Conc
variable {S R : Type} {n : Nat}

/-! ## The calls of the library are safe -/

/-- The mutexes of a stream, from the outside to the inside. -/
def Stm.locks : Stm → List Nat
  | .raw _ => []
  | .locked m s => m :: s.locks

theorem opCall_locks (body : Nat → Body S R) (s : Stm) : (opCall body s).locks = s.locks := by
  induction s with
  | raw i => rfl
  | locked m s ih => simp [opCall, Call.locks, Stm.locks, ih]

theorem opCall_body (body : Nat → Body S R) (s : Stm) : (opCall body s).body = body s.base := by
  induction s with
  | raw i => rfl
  | locked m s ih => simp [opCall, Call.body, Stm.base, ih]

theorem printCall_body (line empty : Bool) (u : R) (body : Nat → Body S R) (s : Stm) :
    (printCall line empty u body s).body = if empty && !line then .ret u else body s.base := by
  induction s with
  | raw i => simp only [printCall, Stm.base]; split <;> rfl
  | locked m s ih =>
    simp only [printCall, Stm.base]
    split
    · rfl
    · rename_i h; rw [Call.body, ih, if_neg h]

theorem printCall_locks (line empty : Bool) (u : R) (body : Nat → Body S R) (s : Stm) :
    (printCall line empty u body s).locks = if empty && !line then [] else s.locks := by
  induction s with
  | raw i => simp only [printCall, Stm.locks]; split <;> simp [Call.locks]
  | locked m s ih =>
    simp only [printCall, Stm.locks]
    split
    · rfl
    · rename_i h; rw [Call.locks, ih, if_neg h]

theorem transmitCall_locks (body : Nat → Nat → Body S R) (o i : Stm) :
    (transmitCall body o i).locks = i.locks ++ o.locks := by
  induction i with
  | raw i => simp [transmitCall, opCall_locks, Stm.locks]
  | locked m s ih => simp [transmitCall, Call.locks, Stm.locks, ih]

theorem transmitCall_body (body : Nat → Nat → Body S R) (o i : Stm) :
    (transmitCall body o i).body = body o.base i.base := by
  induction i with
  | raw i => simp [transmitCall, opCall_body, Stm.base]
  | locked m s ih => simp [transmitCall, Call.body, Stm.base, ih]

/-- **C77, what is locked.** `print`, `println`, `scan`, `read`, `write`, `flush`, `reopen` and `transmit` on streams with a mutex
reach the data of a stream only while its mutex is held (the unlocked operation being one that uses only the streams it is
given). -/
theorem c77_locked (prot : Nat → Nat) :
    (∀ (line empty : Bool) (u : R) (body : Nat → Body S R) (s : Stm), (body s.base).Only (· = s.base) → prot s.base ∈ s.locks →
      (printCall line empty u body s).Safe prot) ∧
    (∀ (body : Nat → Body S R) (s : Stm), (body s.base).Only (· = s.base) → prot s.base ∈ s.locks →
      (opCall body s).Safe prot) ∧
    ∀ (body : Nat → Nat → Body S R) (o i : Stm), (body o.base i.base).Only (fun j => j = o.base ∨ j = i.base) →
      prot o.base ∈ o.locks → prot i.base ∈ i.locks → (transmitCall body o i).Safe prot := by
  refine ⟨fun line empty u body s h1 h2 => ?_, fun body s h1 h2 => ?_, fun body o i h1 h2 h3 => ?_⟩
  · unfold Call.Safe
    rw [printCall_body, printCall_locks]
    split
    · trivial
    · exact Only.mono _ h1 fun j hj => hj ▸ h2
  · unfold Call.Safe
    rw [opCall_body, opCall_locks]
    exact Only.mono _ h1 fun j hj => hj ▸ h2
  · unfold Call.Safe
    rw [transmitCall_body, transmitCall_locks]
    refine Only.mono _ h1 fun j hj => ?_
    rcases hj with rfl | rfl
    · exact List.mem_append_right _ h2
    · exact List.mem_append_left _ h3

/-- **C77, what is done under the lock.** Undisturbed, these calls do to the wrapped streams what the unlocked operation does to
the streams themselves, and return what it returns; `print` without arguments and without line feed does nothing and takes no
mutex; `transmit` keeps input and output apart. -/
theorem c77_same_operation (st : Nat → S) :
    (∀ (line empty : Bool) (u : R) (body : Nat → Body S R) (s : Stm), (line = true ∨ empty = false) →
      (printCall line empty u body s).body.exec st = (body s.base).exec st) ∧
    (∀ (u : R) (body : Nat → Body S R) (s : Stm), printCall false true u body s = .plain (.ret u)) ∧
    (∀ (body : Nat → Body S R) (s : Stm), (opCall body s).body.exec st = (body s.base).exec st) ∧
    ∀ (body : Nat → Nat → Body S R) (out inp : Stm),
      (transmitCall body out inp).body.exec st = (body out.base inp.base).exec st := by
  refine ⟨fun line empty u body s h => ?_, fun u body s => ?_, fun body s => ?_, fun body o i => ?_⟩
  · rw [printCall_body, if_neg]
    rcases h with rfl | rfl <;> simp
  · cases s <;> rfl
  · rw [opCall_body]
  · rw [transmitCall_body]

example : ((transmitCall (fun o i => (.act i (fun _ => []) fun s => .act o (fun d => d ++ s) fun _ => .ret true : Body (List Nat) Bool))
    (.locked 1 (.raw 1)) (.locked 0 (.raw 0))).body.exec (fun i => if i = 0 then [97] else [98])).1 1 = [98, 97] := by
  decide +kernel

/-! ## One after another -/

/-- **C77, one after another.** Whatever the schedule: the calls finished so far have returned the results, and left the streams in
the state, of the same calls made one after another in the order `log`; every thread has made the calls of its program in its
order and got these results; a stream whose mutex nobody holds is in exactly that state; and a mutex is held by one thread. -/
theorem c77_serial (recur : Nat → Bool) (prot : Nat → Nat) (st : Nat → S) (p : Fin n → Prog S R) (hp : ∀ t, (p t).Safe prot)
    (l : List (Fin n)) :
    let s := sched recur (start st p) l
    ∃ st', Serial st (s.log.map fun e => (e.1, e.2.1.body, e.2.2)) st' ∧
      (∀ i, (∀ t, prot i ∉ (s.th t).held) → s.st i = st' i) ∧
      (∀ t, ∃ q, Follows (p t) (mine s.log t) q ∧ ((s.th t).code = .idle .stop → q = .stop)) ∧
      ∀ t u m, m ∈ (s.th t).held → m ∈ (s.th u).held → t = u := by
  obtain ⟨⟨base, I⟩, _⟩ := inv_sched recur l (inv_start (st0 := st) hp)
  refine ⟨base, I.serial, fun i h => I.rest i fun t _ _ _ => h t, fun t => ?_, I.excl⟩
  have := I.fine t
  unfold Thread.Fine at this
  split at this
  · rename_i q hq
    exact ⟨q, this.2.2, fun h => by rw [hq] at h; exact Code.idle.inj h⟩
  · rename_i hq
    exact ⟨_, this.2.2.2.2, fun h => by rw [hq] at h; cases h⟩
  · rename_i hq
    exact ⟨_, this.2.2.2.2, fun h => by rw [hq] at h; cases h⟩
  · rename_i hq
    exact ⟨_, this.2, fun h => by rw [hq] at h; cases h⟩

/-- **C77, real time.** What happens later is put behind what was finished before: the order of the finished calls only grows at
its end (so a call that had returned before another began precedes it). -/
theorem c77_real_time (recur : Nat → Bool) (prot : Nat → Nat) (st : Nat → S) (p : Fin n → Prog S R) (hp : ∀ t, (p t).Safe prot)
    (l l' : List (Fin n)) :
    ∃ more, (sched recur (start st p) (l ++ l')).log = (sched recur (start st p) l).log ++ more := by
  obtain ⟨⟨base, I⟩, _⟩ := inv_sched recur l (inv_start (st0 := st) hp)
  rw [sched_append]
  exact (inv_sched recur l' I).2

/-- **C77, nobody waits forever.** If every call takes its mutexes in a fixed order, then under every fair schedule all threads
finish, and no mutex stays locked. -/
theorem c77_completes (recur : Nat → Bool) (rank : Nat → Nat) (prot : Nat → Nat) (st : Nat → S) (p : Fin n → Prog S R)
    (hp : ∀ t, (p t).Safe prot) (ho : ∀ t, (p t).Ordered recur rank) (σ : Nat → Fin n) (hσ : Fair σ) :
    ∃ K, ∀ t, let x := (sched recur (start st p) ((List.range K).map σ)).th t
      x.code = .idle .stop ∧ x.held = [] := by
  obtain ⟨K, hK⟩ := fair_ends (recur := recur) (rank := rank) (prot := prot) (start st p) (fun t => ⟨rfl, ho t⟩)
    ⟨st, inv_start hp⟩ σ hσ
  refine ⟨K, fun t => ?_⟩
  rw [along_sched] at hK
  refine ⟨hK t, ?_⟩
  obtain ⟨⟨base, I⟩, _⟩ := inv_sched recur ((List.range K).map σ) (inv_start (st0 := st) hp)
  have := I.fine t
  rw [Thread.Fine, hK t] at this
  exact this.1

/-! ## Texts -/

theorem pull {B X : Type} (f : B → X) (log : List (Fin n × X)) : ∀ pre : Fin n → List B,
    (∀ t, (log.filter fun e => e.1 = t).map Prod.snd = (pre t).map f) →
    ∃ order : List (Fin n × B), order.map (fun p => (p.1, f p.2)) = log ∧ Interleaves pre order := by
  induction log with
  | nil =>
    intro pre h
    refine ⟨[], rfl, fun t => ?_⟩
    have := h t
    simp only [List.filter_nil, List.map_nil] at this ⊢
    exact (List.map_eq_nil_iff.1 this.symm).symm
  | cons e log ih =>
    obtain ⟨t, x⟩ := e
    intro pre h
    have ht := h t
    simp only [List.filter_cons, decide_true, if_true, List.map_cons] at ht
    match hb : pre t, ht with
    | b :: rest, ht =>
      simp only [List.map_cons, List.cons.injEq] at ht
      obtain ⟨order, h1, h2⟩ := ih (put pre t rest) fun u => by
        by_cases hu : u = t
        · subst hu; rw [put_same]; exact ht.2
        · rw [put_ne _ _ hu, ← h u]
          have : ¬ t = u := fun e => hu e.symm
          simp [this]
      refine ⟨(t, b) :: order, by simp [h1, ht.1], fun u => ?_⟩
      have := h2 u
      by_cases hu : u = t
      · subst hu
        rw [put_same] at this
        simp [this, hb]
      · rw [put_ne _ _ hu] at this
        have hn : ¬ t = u := fun e => hu e.symm
        simp [hn, this]

theorem follows_seq (q : Prog S R) (l : List (Call S R)) : ∀ {h : List (Call S R × R)}, Follows (Prog.seq l) h q →
    ∃ a b, l = a ++ b ∧ h.map Prod.fst = a ∧ q = Prog.seq b := by
  induction l with
  | nil =>
    intro h hf
    cases hf with
    | nil => exact ⟨[], [], rfl, rfl, rfl⟩
  | cons c l ih =>
    intro h hf
    cases hf with
    | nil => exact ⟨[], c :: l, rfl, rfl, rfl⟩
    | cons hf =>
      obtain ⟨a, b, h1, h2, h3⟩ := ih hf
      exact ⟨c :: a, b, by rw [h1]; rfl, by simp [h2], h3⟩

theorem seq_stop {l : List (Call S R)} (h : Prog.seq l = .stop) : l = [] := by
  cases l with
  | nil => rfl
  | cons c l => cases h

theorem serial_texts {A B : Type} {i : Nat} {out : S → List Nat} {G : S → Prop} {text : B → List Nat} {body : B → Body S R}
    (happ : ∀ b (st : Nat → S), G (st i) → G (((body b).exec st).1 i) ∧ out (((body b).exec st).1 i) = out (st i) ++ text b) :
    ∀ (order : List (A × B)) (log : List (A × Body S R × R)) (st st' : Nat → S), Serial st log st' →
    order.map (fun p => (p.1, body p.2)) = log.map (fun e => (e.1, e.2.1)) → G (st i) →
    G (st' i) ∧ out (st' i) = out (st i) ++ texts text order := by
  intro order
  induction order with
  | nil =>
    intro log st st' hs he hG
    cases hs with
    | nil => exact ⟨hG, by simp [texts]⟩
    | cons => simp at he
  | cons p order ih =>
    intro log st st' hs he hG
    cases hs with
    | nil => simp at he
    | cons e hs =>
      simp only [List.map_cons, List.cons.injEq, Prod.mk.injEq] at he
      obtain ⟨⟨_, hb⟩, he⟩ := he
      have := happ p.2 st hG
      rw [hb, e] at this
      obtain ⟨g1, g2⟩ := ih _ _ _ hs he this.1
      exact ⟨g1, by rw [g2, this.2]; simp [texts]⟩

/-- **C77, whole texts.** Threads write pieces of work to one stream, each piece by a call that, undisturbed, appends its text.
Whatever the schedule and however finely the calls are interleaved: whenever nobody holds the stream's mutex, the stream
contains whole texts only, each once, in an order that keeps the order of every thread; and when all threads have finished,
all texts are there. -/
theorem c77_text {B : Type} (recur : Nat → Bool) (prot : Nat → Nat) (i : Nat) (out : S → List Nat) (G : S → Prop)
    (text : B → List Nat) (call : B → Call S R) (hsafe : ∀ b, (call b).Safe prot)
    (happ : ∀ b (st : Nat → S), G (st i) →
      G (((call b).body.exec st).1 i) ∧ out (((call b).body.exec st).1 i) = out (st i) ++ text b)
    (work : Fin n → List B) (st : Nat → S) (hG : G (st i)) (l : List (Fin n)) :
    let s := sched recur (start st fun t => Prog.seq ((work t).map call)) l
    (∀ t, prot i ∉ (s.th t).held) →
    ∃ (done : Fin n → List B) (order : List (Fin n × B)), (∀ t, done t <+: work t) ∧ Interleaves done order ∧
      out (s.st i) = out (st i) ++ texts text order ∧ ((∀ t, (s.th t).code = .idle .stop) → done = work) := by
  intro s hfree
  have hp : ∀ t, (Prog.seq ((work t).map call)).Safe prot := fun t => by
    generalize work t = w
    induction w with
    | nil => trivial
    | cons b w ih => exact ⟨hsafe b, fun _ => ih⟩
  obtain ⟨st', h1, h2, h3, _⟩ := c77_serial recur prot st _ hp l
  have hd : ∀ t, ∃ d, d <+: work t ∧ (mine s.log t).map Prod.fst = d.map call ∧ ((s.th t).code = .idle .stop → d = work t) := by
    intro t
    obtain ⟨q, hq, hstop⟩ := h3 t
    obtain ⟨a, b, e1, e2, e3⟩ := follows_seq q _ hq
    obtain ⟨x, y, hxy, rfl, rfl⟩ := List.map_eq_append_iff.1 e1
    refine ⟨x, ⟨y, hxy.symm⟩, e2, fun hc => ?_⟩
    have := seq_stop (e3.symm.trans (hstop hc))
    rw [hxy, List.map_eq_nil_iff.1 this, List.append_nil]
  choose done hd1 hd2 hd3 using hd
  obtain ⟨order, ho1, ho2⟩ := pull call (s.log.map fun e => (e.1, e.2.1)) done fun t => by
    rw [← hd2 t, mine, List.filter_map, List.map_map, List.map_map]
    rfl
  refine ⟨done, order, hd1, ho2, ?_, fun h => funext fun t => hd3 t (h t)⟩
  rw [h2 i hfree]
  refine (serial_texts (body := fun b => (call b).body) happ order _ st st' h1 ?_ hG).2
  have := congrArg (List.map fun e : Fin n × Call S R => (e.1, e.2.body)) ho1
  simpa [List.map_map, Function.comp_def] using this

/-! ## print -/

open Verif.Print in
/-- **C77, print.** Threads print — any arguments, with and without line feed — to one buffered file behind a mutex. Each unlocked
`print` is an arbitrary sequence of accesses to the stream's memory (`body`, with `view` reading the stream off the memory)
that does, undisturbed, what the print dispatcher does. Then under every fair schedule all threads finish, and the file and
its buffer together contain exactly the texts of all calls, whole, in an order that keeps the order of every thread. -/
theorem c77_print {cfg : IoBuf.Cfg} (hb : 1 ≤ cfg.bfs) (opt : Bool) (recur : Nat → Bool) (i m : Nat) (view : S → IoBuf.St)
    (body : Bool × List Item → Nat → Body S Bool) (hbody : ∀ p j, (body p j).Only (· = j))
    (hdoes : ∀ p (st : Nat → S) s', printBuffered opt (fileStream cfg) p.1 (view (st i)) p.2 = .ok s' →
      view (((body p i).exec st).1 i) = s')
    (work : Fin n → List (Bool × List Item)) (hr : ∀ t, ∀ p ∈ work t, (∀ a ∈ p.2, a.Honest) ∧ p.2.length < 2 ^ 53)
    (st : Nat → S) (hs : IoBuf.Inv cfg (view (st i))) (hd : ∀ a ∈ (view (st i)).dev.script, a = IoBuf.Answer.full)
    (σ : Nat → Fin n) (hσ : Fair σ) :
    ∃ K, ∃ order : List (Fin n × (Bool × List Item)), Interleaves work order ∧
      let s := sched recur (start st fun t => Prog.seq ((work t).map fun p =>
        printCall p.1 p.2.isEmpty true (body p) (.locked m (.raw i)))) ((List.range K).map σ)
      (∀ t, (s.th t).code = .idle .stop ∧ (s.th t).held = []) ∧
      (view (s.st i)).dev.got ++ (view (s.st i)).held =
        (view (st i)).dev.got ++ (view (st i)).held ++ texts (fun p => expected p.1 p.2) order := by
  -- pieces of work with their promises
  let W := { p : Bool × List Item // (∀ a ∈ p.2, a.Honest) ∧ p.2.length < 2 ^ 53 }
  let call : W → Call S Bool := fun p => printCall p.1.1 p.1.2.isEmpty true (body p.1) (.locked m (.raw i))
  let work' : Fin n → List W := fun t => (work t).attach.map fun p => ⟨p.1, hr t p.1 p.2⟩
  have hw : ∀ t, (work' t).map Subtype.val = work t := fun t => by
    simp only [work', List.map_map, Function.comp_def]
    exact List.attach_map_subtype_val _
  have hprog : (fun t => Prog.seq ((work t).map fun p => printCall p.1 p.2.isEmpty true (body p) (.locked m (.raw i)))) =
      fun t => Prog.seq ((work' t).map call) := by
    funext t
    rw [← hw t, List.map_map]
    rfl
  have hsafe : ∀ b, (call b).Safe fun _ => m := fun b =>
    (c77_locked fun _ => m).1 _ _ _ _ _ (hbody _ _) (by simp [Stm.locks])
  have hp : ∀ t, (Prog.seq ((work' t).map call)).Safe fun _ => m := fun t => by
    generalize work' t = w
    induction w with
    | nil => trivial
    | cons b w ih => exact ⟨hsafe b, fun _ => ih⟩
  have hord : ∀ t, (Prog.seq ((work' t).map call)).Ordered recur id := fun t => by
    generalize work' t = w
    induction w with
    | nil => trivial
    | cons b w ih =>
      refine ⟨?_, fun _ => ih⟩
      show Ascend recur id (printCall _ _ _ _ _).locks
      rw [printCall_locks]
      split <;> simp [Ascend, Stm.locks]
  have happ : ∀ (b : W) (st : Nat → S),
      (IoBuf.Inv cfg (view (st i)) ∧ ∀ a ∈ (view (st i)).dev.script, a = IoBuf.Answer.full) →
      (IoBuf.Inv cfg (view (((call b).body.exec st).1 i)) ∧
        ∀ a ∈ (view (((call b).body.exec st).1 i)).dev.script, a = IoBuf.Answer.full) ∧
      (view (((call b).body.exec st).1 i)).dev.got ++ (view (((call b).body.exec st).1 i)).held =
        (view (st i)).dev.got ++ (view (st i)).held ++ expected b.1.1 b.1.2 := by
    rintro ⟨⟨line, items⟩, hr1, hr2⟩ st hG
    have e : (call ⟨⟨line, items⟩, hr1, hr2⟩).body = if items.isEmpty && !line then .ret true else body (line, items) i :=
      printCall_body ..
    rw [e]
    split
    · rename_i h0
      simp only [Bool.and_eq_true, List.isEmpty_iff, Bool.not_eq_true'] at h0
      obtain ⟨rfl, rfl⟩ := h0
      exact ⟨hG, by simp [Body.exec, expected]⟩
    · have := printBuffered_ok (file_lawful hb) opt line items (s := view (st i)) ⟨hG.1, hG.2⟩ hr1
        (fun a _ => by simp [Fits, fileStream]) hr2
      match hm : printBuffered opt (fileStream cfg) line (view (st i)) items, this with
      | .ok s', this =>
        rw [hdoes (line, items) st s' hm]
        exact ⟨⟨this.1.1, this.1.2⟩, this.2⟩
      | .error .stop, this => exact this.elim
      | .error .ub, this => exact this.elim
  obtain ⟨K, hK⟩ := c77_completes recur id (fun _ => m) st _ hp hord σ hσ
  obtain ⟨done, order, h1, h2, h3, h4⟩ := c77_text recur (fun _ => m) i
    (fun x => (view x).dev.got ++ (view x).held)
    (fun x => IoBuf.Inv cfg (view x) ∧ ∀ a ∈ (view x).dev.script, a = IoBuf.Answer.full)
    (fun p : W => expected p.1.1 p.1.2) call hsafe happ work' st ⟨hs, hd⟩ ((List.range K).map σ) (fun t => by rw [(hK t).2]; simp)
  have hdone := h4 fun t => (hK t).1
  subst hdone
  refine ⟨K, order.map fun p => (p.1, p.2.1), fun t => ?_, ?_⟩
  · rw [← hw t, ← h2 t, List.filter_map, List.map_map, List.map_map]; rfl
  · rw [hprog]
    refine ⟨hK, h3.trans ?_⟩
    simp [texts, Function.comp_def]

open Verif.Print in
/-- An unlocked `print` as a single access, for the example. -/
def wholePrint (p : Bool × List Item) (j : Nat) : Body IoBuf.St Bool :=
  .act j (fun s => match printBuffered true (fileStream ⟨4, false⟩) p.1 s p.2 with | .ok s' => s' | .error _ => s)
    fun _ => .ret true

open Verif.Print in
/-- Two threads printing the sample arguments of C63, one with and one without line feed. -/
example : ∃ K, ∃ order : List (Fin 2 × (Bool × List Item)), Interleaves (fun t => [(decide (t = 0), sample), (true, [])]) order ∧
    let s := sched (fun _ => false) (start (fun _ => (⟨none, ⟨[], []⟩⟩ : IoBuf.St)) fun t => Prog.seq
      ([(decide (t = 0), sample), (true, [])].map fun p => printCall p.1 p.2.isEmpty true (wholePrint p)
        (.locked 7 (.raw 0)))) ((List.range K).map fun k => (if k % 2 = 0 then 0 else 1 : Fin 2))
    (∀ t, (s.th t).code = .idle .stop ∧ (s.th t).held = []) ∧
    (s.st 0).dev.got ++ (s.st 0).held = texts (fun p => expected p.1 p.2) order := by
  refine c77_print (cfg := ⟨4, false⟩) (by decide) true (fun _ => false) 0 7 id wholePrint (fun p j => ⟨rfl, fun _ => trivial⟩)
    (fun p st s' h => ?_) (fun t => [(decide (t = 0), sample), (true, [])]) (fun t p hp => ?_) _ ?_ ?_ _ ?_
  · simp only [id] at h
    simp [wholePrint, Body.exec, set_same, h]
  · simp only [List.mem_cons, List.not_mem_nil, or_false] at hp
    rcases hp with rfl | rfl
    · exact ⟨sample_honest, by simp [sample]⟩
    · exact ⟨by simp, by decide⟩
  · simp [IoBuf.Inv]
  · simp
  · intro t N
    rcases (by omega : t = 0 ∨ t = 1) with rfl | rfl
    · exact ⟨2 * N, by omega, by simp⟩
    · exact ⟨2 * N + 1, by omega, by simp [Nat.add_mod]⟩

/-! ### The same, access by access -/

/-- **C77, buffered writes in memory.** Threads each make calls consisting of several buffered writes (`writes`: reading the
pointers, storing the characters one by one, writing the pointer back, handing the buffer to the device) to one stream behind
a mutex. Under every fair schedule they finish, and the stream contains the texts of all calls, whole, in an order that
keeps the order of every thread. -/
theorem c77_writes (recur : Nat → Bool) (i m : Nat) (work : Fin n → List (List (List Nat))) (st : Nat → Mem)
    (hs : (st i).curr ≤ (st i).mem.length) (σ : Nat → Fin n) (hσ : Fair σ) :
    ∃ K, ∃ order : List (Fin n × List (List Nat)), Interleaves work order ∧
      let s := sched recur (start st fun t => Prog.seq ((work t).map fun l => opCall (fun j => writes j l) (.locked m (.raw i))))
        ((List.range K).map σ)
      (∀ t, (s.th t).code = .idle .stop ∧ (s.th t).held = []) ∧
      (s.st i).out = (st i).out ++ texts List.flatten order := by
  have hsafe : ∀ l : List (List Nat), (opCall (fun j => writes j l) (.locked m (.raw i))).Safe fun _ => m := fun l =>
    (c77_locked fun _ => m).2.1 _ _ (writes_only _ _) (by simp [Stm.locks])
  have hp : ∀ t, (Prog.seq ((work t).map fun l => opCall (fun j => writes j l) (.locked m (.raw i)))).Safe fun _ => m :=
    fun t => by
      generalize work t = w
      induction w with
      | nil => trivial
      | cons b w ih => exact ⟨hsafe b, fun _ => ih⟩
  have hord : ∀ t, (Prog.seq ((work t).map fun l => opCall (fun j => writes j l) (.locked m (.raw i)))).Ordered recur id :=
    fun t => by
      generalize work t = w
      induction w with
      | nil => trivial
      | cons b w ih => exact ⟨by simp [opCall, Call.locks, Ascend], fun _ => ih⟩
  obtain ⟨K, hK⟩ := c77_completes recur id (fun _ => m) st _ hp hord σ hσ
  obtain ⟨done, order, h1, h2, h3, h4⟩ := c77_text recur (fun _ => m) i Mem.out (fun x => x.curr ≤ x.mem.length)
    List.flatten (fun l => opCall (fun j => writes j l) (.locked m (.raw i))) hsafe (fun l st hG => by
      rw [opCall_body]
      obtain ⟨x, e, hx, ho⟩ := writes_exec i l st hG
      simp only [Stm.base, e, set_same]
      exact ⟨hx, ho⟩) work st hs ((List.range K).map σ) (fun t => by rw [(hK t).2]; simp)
  have hdone := h4 fun t => (hK t).1
  subst hdone
  exact ⟨K, order, h2, hK, h3⟩

/-- A fair schedule for two threads. -/
theorem fair_two : Fair fun k : Nat => (if k % 2 = 0 then 0 else 1 : Fin 2) := by
  intro t N
  rcases (by omega : t = 0 ∨ t = 1) with rfl | rfl
  · exact ⟨2 * N, by omega, by simp⟩
  · exact ⟨2 * N + 1, by omega, by simp [Nat.add_mod]⟩

/-- Two threads, each writing `ab`,`c` and `de`,`f` to a stream with a buffer of four characters. -/
def twoWriters (s : Stm) : Sys 2 Mem Bool :=
  start (fun _ => ⟨[0, 0, 0, 0], 0, []⟩) fun t =>
    Prog.seq [opCall (fun j => writes j (if t = 0 then [[97, 98], [99]] else [[100, 101], [102]])) s]

example : ((sched (fun _ => false) (twoWriters (.locked 7 (.raw 0))) ((List.range 60).map fun k => if k % 2 = 0 then 0 else 1)).st 0).out =
    [97, 98, 99, 100, 101, 102] := by decide +kernel

example : ((sched (fun _ => false) (twoWriters (.locked 7 (.raw 0))) ((List.range 60).map fun k => if k % 2 = 0 then 1 else 0)).st 0).out =
    [100, 101, 102, 97, 98, 99] := by decide +kernel

example : ∃ K, ∃ order : List (Fin 2 × List (List Nat)),
    Interleaves (fun t => [if t = 0 then [[97, 98], [99]] else [[100, 101], [102]]]) order ∧
    let s := sched (fun _ => false) (start (fun _ => (⟨[0, 0, 0, 0], 0, []⟩ : Mem)) fun t => Prog.seq
      ([if t = 0 then [[97, 98], [99]] else [[100, 101], [102]]].map fun l => opCall (fun j => writes j l) (.locked 7 (.raw 0))))
      ((List.range K).map fun k => (if k % 2 = 0 then 0 else 1 : Fin 2))
    (∀ t, (s.th t).code = .idle .stop ∧ (s.th t).held = []) ∧ (s.st 0).out = texts List.flatten order :=
  c77_writes (fun _ => false) 0 7 _ _ (by simp) _ fair_two

/-- **C77, without a mutex.** The same two threads on the stream itself: characters of one call overwrite those of the other, and
text is lost. -/
theorem c77_unlocked_violated :
    ((sched (fun _ => false) (twoWriters (.raw 0)) ((List.range 60).map fun k => if k % 2 = 0 then 0 else 1)).st 0).out =
      [100, 101, 102] := by decide +kernel

/-! ## Reading -/

/-- **C77, reading.** Threads take data from one stream behind a mutex, each call returning, undisturbed, the next part of the
text (as much as it likes); what a thread does next may depend on what it got. Whatever the schedule: whenever nobody holds
the mutex, what has been delivered, in the order of the calls, followed by what is left in the stream, is the text —
every character goes to exactly one call, and in order. -/
theorem c77_read (recur : Nat → Bool) (prot : Nat → Nat) (i : Nat) (left : S → List Nat) (G : S → Prop)
    (st : Nat → S) (hG : G (st i)) (p : Fin n → Prog S (List Nat)) (hp : ∀ t, (p t).Safe prot) (P : Call S (List Nat) → Prop)
    (htake : ∀ c, P c → ∀ st : Nat → S, G (st i) → G ((c.body.exec st).1 i) ∧
      left (st i) = (c.body.exec st).2 ++ left ((c.body.exec st).1 i))
    (hall : ∀ t l q, Follows (p t) l q → ∀ e ∈ l, P e.1) (l : List (Fin n)) :
    let s := sched recur (start st p) l
    (∀ t, prot i ∉ (s.th t).held) →
    left (st i) = (s.log.map fun e => e.2.2).flatten ++ left (s.st i) := by
  intro s hfree
  obtain ⟨st', h1, h2, h3, _⟩ := c77_serial recur prot st p hp l
  rw [h2 i hfree]
  have hP : ∀ e ∈ s.log, P e.2.1 := fun e he => by
    obtain ⟨q, hq, _⟩ := h3 e.1
    exact hall e.1 _ q hq e.2 (List.mem_map.2 ⟨e, by simp [he, s], rfl⟩)
  have : ∀ (log : List (Fin n × Call S (List Nat) × List Nat)) (st : Nat → S), (∀ e ∈ log, P e.2.1) → G (st i) →
      Serial st (log.map fun e => (e.1, e.2.1.body, e.2.2)) st' →
      left (st i) = (log.map fun e => e.2.2).flatten ++ left (st' i) := by
    intro log
    induction log with
    | nil => intro st _ _ hs; cases hs; simp
    | cons e log ih =>
      intro st hl hg hs
      cases hs with
      | cons he hs =>
        have := htake e.2.1 (hl e (by simp)) st hg
        rw [he] at this
        have h4 := ih _ (fun e he => hl e (List.mem_cons_of_mem _ he)) this.1 hs
        rw [this.2, h4]
        simp
  exact this s.log st hP hG h1

/-- `read` of up to `k` characters, one at a time. -/
def takeBody (i : Nat) : Nat → List Nat → Body (List Nat) (List Nat)
  | 0, acc => .ret acc
  | k + 1, acc => .act i List.tail fun s => match s with
    | [] => .ret acc
    | c :: _ => takeBody i k (acc ++ [c])

theorem takeBody_only (i k : Nat) : ∀ acc, (takeBody i k acc).Only (· = i) := by
  induction k with
  | zero => intro acc; trivial
  | succ k ih =>
    intro acc
    refine ⟨rfl, fun s => ?_⟩
    cases s with
    | nil => trivial
    | cons c s => exact ih _

theorem takeBody_exec (i k : Nat) : ∀ acc (st : Nat → List Nat),
    acc ++ st i = ((takeBody i k acc).exec st).2 ++ ((takeBody i k acc).exec st).1 i := by
  induction k with
  | zero => intro acc st; rfl
  | succ k ih =>
    intro acc st
    rw [takeBody, Body.exec]
    match h : st i with
    | [] => simp [Body.exec, set_same]
    | c :: s =>
      have := ih (acc ++ [c]) (set st i (List.tail (c :: s)))
      rw [set_same] at this
      simpa using this

/-- Two threads reading up to 2 and up to 3 characters. -/
def twoReaders : Fin 2 → Prog (List Nat) (List Nat) := fun t =>
  Prog.seq [opCall (fun j => takeBody j (if t = 0 then 2 else 3) []) (.locked 7 (.raw 0))]

example (l : List (Fin 2)) (st : Nat → List Nat)
    (h : ∀ t, 7 ∉ ((sched (fun _ => false) (start st twoReaders) l).th t).held) :
    st 0 = ((sched (fun _ => false) (start st twoReaders) l).log.map fun e => e.2.2).flatten ++
      (sched (fun _ => false) (start st twoReaders) l).st 0 := by
  refine c77_read (fun _ => false) (fun _ => 7) 0 id (fun _ => True) st trivial twoReaders
    (fun t => ⟨(c77_locked fun _ => 7).2.1 _ _ (takeBody_only _ _ _) (by simp [Stm.locks]), fun _ => trivial⟩)
    (fun c => ∃ k, c.body = takeBody 0 k []) (fun c hc st _ => ?_) (fun t l q hf => ?_) l h
  · obtain ⟨k, hk⟩ := hc
    rw [hk]
    exact ⟨trivial, by simpa using takeBody_exec 0 k [] st⟩
  · obtain ⟨a, b, h1, h2, _⟩ := follows_seq q _ hf
    intro e he
    have : e.1 ∈ a := h2 ▸ List.mem_map_of_mem he
    have := h1 ▸ List.mem_append_left b this
    simp only [List.mem_singleton] at this
    exact ⟨_, by rw [this]; rfl⟩

example : let s := sched (fun _ => false) (start (fun _ => [1, 2, 3, 4, 5]) twoReaders) ((List.range 40).map fun k => if k % 2 = 0 then 1 else 0);
    s.log.map (fun e => (e.1, e.2.2)) = [(1, [1, 2, 3]), (0, [4, 5])] ∧ s.st 0 = [] := by decide +kernel

/-! ## Transmitting -/

/-- The unlocked transmission of a text kept in a list: everything is read, then written. -/
def moveBody (o i : Nat) : Body (List Nat) Bool :=
  .act i (fun _ => []) fun s => .act o (fun d => d ++ s) fun _ => .ret true

/-- A thread transmits from stream 0 to stream 1, another from stream 1 to stream 0, both behind a mutex. -/
def crossing : Sys 2 (List Nat) Bool :=
  start (fun i => if i = 0 then [97] else [98]) fun t =>
    if t = 0 then Prog.seq [transmitCall moveBody (.locked 1 (.raw 1)) (.locked 0 (.raw 0))]
    else Prog.seq [transmitCall moveBody (.locked 0 (.raw 0)) (.locked 1 (.raw 1))]

/-- **C77, transmit may wait forever.** Transmissions between two streams behind mutexes take the input's first: two threads
transmitting in opposite directions can end up waiting for each other (nobody has finished and nobody can move); and
transmitting from a stream to itself waits forever for the mutex the thread itself holds, unless it is recursive. -/
theorem c77_transmit_deadlock_violated :
    (let s := sched (fun _ => false) crossing [0, 0, 1, 1]
      ∀ t, step (fun _ => false) s t = none ∧ (s.th t).code ≠ .idle .stop) ∧
    let s := sched (n := 1) (fun _ => false) (start (fun _ => [97]) fun _ =>
      Prog.seq [transmitCall moveBody (.locked 0 (.raw 0)) (.locked 0 (.raw 0))]) [0, 0]
    step (fun _ => false) s 0 = none ∧ (s.th 0).code ≠ .idle .stop := by
  refine ⟨?_, ?_⟩
  · intro s t
    rcases (by omega : t = 0 ∨ t = 1) with rfl | rfl <;> exact ⟨rfl, fun h => by cases h⟩
  · exact ⟨rfl, fun h => by cases h⟩

/-- The mutexes of a `transmit` are taken in the order of `rank` if those of the input come before those of the output. -/
theorem c77_transmit_ordered_partial (recur : Nat → Bool) (rank : Nat → Nat) (body : Nat → Nat → Body S R) (o i mo mi : Nat)
    (h : rank mi < rank mo ∨ mi = mo ∧ recur mi = true) (k : R → Prog S R) (hk : ∀ r, (k r).Ordered recur rank) :
    (Prog.call (transmitCall body (.locked mo (.raw o)) (.locked mi (.raw i))) k).Ordered recur rank := by
  refine ⟨?_, hk⟩
  rw [transmitCall_locks]
  simpa [Ascend, Stm.locks] using h

example : (Prog.call (transmitCall moveBody (.locked 1 (.raw 1)) (.locked 0 (.raw 0))) fun _ => .stop).Ordered
    (fun _ => false) id := c77_transmit_ordered_partial _ _ _ _ _ _ _ (.inl (by decide)) _ fun _ => trivial

end Verif.Conc
