import Verif.Flock.Model
import Mathlib.Tactic.SplitIfs
import Mathlib.Tactic.NormNum
/-! # C84: locks on files -/
namespace Verif.Flock

/-- The numbers of the request fit its type. -/
def Fits (intBits : Nat) (r : Request) : Prop :=
  -(2 ^ (intBits - 1)) ≤ r.start ∧ r.start < 2 ^ (intBits - 1) ∧ -(2 ^ (intBits - 1)) ≤ r.len ∧ r.len < 2 ^ (intBits - 1)

theorem wrap_id {n : Nat} (hn : 0 < n) {v : Int} (h1 : -(2 ^ (n - 1)) ≤ v) (h2 : v < 2 ^ (n - 1)) : wrap n v = v := by
  have e : (2 : Int) ^ n = 2 * 2 ^ (n - 1) := by
    obtain ⟨m, rfl⟩ := Nat.exists_eq_add_of_lt hn
    simp [Int.pow_succ]; omega
  unfold wrap
  rw [Int.emod_eq_of_lt (by omega) (by omega)]; omega

theorem nativeOf_some {offBits intBits : Nat} (ho : 0 < offBits) {r : Request} (hf : Fits intBits r) {f : Native}
    (h : nativeOf offBits intBits r = some f) : f = ⟨r.kind, whenceOf r.whence, r.start, r.len⟩ := by
  unfold nativeOf at h
  split_ifs at h with hc
  cases h
  have key : -(2 ^ (offBits - 1)) ≤ r.start ∧ r.start < 2 ^ (offBits - 1) ∧ -(2 ^ (offBits - 1)) ≤ r.len ∧ r.len < 2 ^ (offBits - 1) := by
    by_cases hlt : offBits < intBits
    · omega
    · have : (2 : Int) ^ (intBits - 1) ≤ 2 ^ (offBits - 1) := by exact_mod_cast Nat.pow_le_pow_right (n := 2) (by omega) (show intBits - 1 ≤ offBits - 1 by omega)
      unfold Fits at hf
      omega
  rw [wrap_id ho key.1 key.2.1, wrap_id ho key.2.2.1 key.2.2.2]
  cases r with
  | mk k w s l => cases k <;> rfl

theorem range_covers {r : Request} {w : Place} {lo hi : Nat} (h : range w ⟨r.kind, whenceOf r.whence, r.start, r.len⟩ = some (lo, hi)) (b : Nat)
    (hb : b ≤ offMax) : Covers r w b ↔ lo ≤ b ∧ b < hi := by
  have hbase : (if whenceOf r.whence = 0 then some 0 else if whenceOf r.whence = 1 then some w.pos else if whenceOf r.whence = 2 then some w.size else none) =
      some (w.base r.whence) := by cases r.whence <;> rfl
  simp only [range, hbase, Option.bind_some] at h
  unfold Covers
  simp only
  generalize w.base r.whence = base at *
  split_ifs at h with h1 h2 h3 h4 h5
  all_goals
    simp only [Option.some.injEq, Prod.mk.injEq] at h
    obtain ⟨e1, e2⟩ := h
    omega

/-- A lock that returns. -/
theorem lock_inv {offBits intBits p : Nat} {w : Place} {r : Request} {t t' : Table} (ho : 0 < offBits) (hf : Fits intBits r)
    (h : Lock offBits intBits p w r t true t') : ∃ lo hi, range w ⟨r.kind, whenceOf r.whence, r.start, r.len⟩ = some (lo, hi) ∧
      ¬ Conflict t p r.kind lo hi ∧ t' = put t p r.kind lo hi := by
  cases h with
  | call f d t' h1 h2 =>
    have := nativeOf_some ho hf h1
    subst this
    cases h2 with
    | done lo hi h3 h4 => exact ⟨lo, hi, h3, h4, rfl⟩

theorem range_le {w : Place} {f : Native} {lo hi : Nat} (h : range w f = some (lo, hi)) : hi ≤ offMax + 1 := by
  simp only [range, Option.bind_eq_some_iff] at h
  obtain ⟨base, _, h⟩ := h
  split_ifs at h
  all_goals
    simp only [Option.some.injEq, Prod.mk.injEq] at h
    omega

theorem put_safe {t : Table} {p lo hi : Nat} {k : Kind} (h : Safe t) (hc : ¬ Conflict t p k lo hi) : Safe (put t p k lo hi) := by
  intro a b x hab ha
  unfold put at *
  by_cases h1 : a = p ∧ lo ≤ x ∧ x < hi
  · rw [if_pos h1] at ha
    split_ifs at ha with hk
    have hk' : k = .exclusive := by cases ha; rfl
    rw [if_neg (fun e => hab (h1.1.trans e.1.symm))]
    by_contra hb
    exact hc ⟨b, x, fun e => hab (h1.1.trans e.symm), h1.2.1, h1.2.2, Or.inl ⟨hk', hb⟩⟩
  · rw [if_neg h1] at ha
    by_cases h2 : b = p ∧ lo ≤ x ∧ x < hi
    · rw [if_pos h2]
      cases k with
      | unlock => rfl
      | shared => exact absurd ⟨a, x, fun e => hab (e.trans h2.1.symm), h2.2.1, h2.2.2, Or.inr ⟨rfl, ha⟩⟩ hc
      | exclusive => exact absurd ⟨a, x, fun e => hab (e.trans h2.1.symm), h2.2.1, h2.2.2, Or.inl ⟨rfl, by rw [ha]; simp⟩⟩ hc
    · rw [if_neg h2]; exact h a b x hab ha

/-- C84: `lock` that returns has given the process exactly the lock it asked for on exactly the bytes of the request; its other locks and those
of other processes are as before, and locks still exclude each other. This holds for requests in every integer type and every size of `off_t`. -/
theorem c84_lock (offBits intBits p : Nat) (w : Place) (r : Request) (t t' : Table) (ho : 0 < offBits) (hf : Fits intBits r)
    (h : Lock offBits intBits p w r t true t') :
    (∀ b ≤ offMax, Covers r w b → t' p b = if r.kind = .unlock then none else some r.kind) ∧
    (∀ q b, q ≠ p ∨ b ≤ offMax ∧ ¬ Covers r w b → t' q b = t q b) ∧ (Safe t → Safe t') := by
  obtain ⟨lo, hi, h1, h2, rfl⟩ := lock_inv ho hf h
  refine ⟨?_, ?_, fun hs => put_safe hs h2⟩
  · intro b hb hc
    unfold put
    rw [if_pos ⟨rfl, (range_covers h1 b hb).mp hc⟩]
  · intro q b hq
    unfold put
    rw [if_neg]
    rintro ⟨e, hr⟩
    rcases hq with hq | ⟨hb, hc⟩
    · exact hq e
    · exact hc ((range_covers h1 b hb).mpr hr)

/-- C84: `lock` that throws has changed nothing. -/
theorem c84_lock_throws (offBits intBits p : Nat) (w : Place) (r : Request) (t t' : Table) (h : Lock offBits intBits p w r t false t') : t' = t := by
  cases h with
  | refused => rfl
  | call f d t' h1 h2 => cases h2; rfl

/-- C84: `lock` can return as soon as nobody else holds a lock on these bytes that excludes it, for every range inside of what files can have, if
the numbers fit `off_t`. -/
theorem c84_lock_returns (offBits intBits p : Nat) (w : Place) (r : Request) (t : Table) (ho : 0 < offBits) (hf : Fits intBits r)
    (hoff : Fits offBits r) (hlo : 0 ≤ (w.base r.whence : Int) + r.start) (hlo' : 0 ≤ (w.base r.whence : Int) + r.start + r.len)
    (hhi : (w.base r.whence : Int) + r.start ≤ offMax) (hhi' : (w.base r.whence : Int) + r.start + r.len ≤ offMax + 1)
    (hfree : ∀ q b, q ≠ p → Covers r w b → t q b = none) : ∃ t', Lock offBits intBits p w r t true t' := by
  have hn : ∃ f, nativeOf offBits intBits r = some f := by
    unfold nativeOf
    rw [if_neg]
    · exact ⟨_, rfl⟩
    · unfold Fits at hoff; omega
  obtain ⟨f, hn⟩ := hn
  have hfe := nativeOf_some ho hf hn
  have hbase : (if whenceOf r.whence = 0 then some 0 else if whenceOf r.whence = 1 then some w.pos else if whenceOf r.whence = 2 then some w.size else none) =
      some (w.base r.whence) := by cases r.whence <;> rfl
  have hr : ∃ lo hi, range w f = some (lo, hi) := by
    subst hfe
    simp only [range, hbase, Option.bind_some]
    generalize w.base r.whence = base at *
    rw [if_neg (by omega)]
    split_ifs
    · omega
    · exact ⟨_, _, rfl⟩
    · omega
    · exact ⟨_, _, rfl⟩
    · exact ⟨_, _, rfl⟩
  obtain ⟨lo, hi, hr⟩ := hr
  refine ⟨_, .call f _ _ hn (.done lo hi hr ?_)⟩
  subst hfe
  rintro ⟨q, b, hq, h1, h2, h3⟩
  have hb : b ≤ offMax := by have := range_le hr; omega
  have := hfree q b hq ((range_covers hr b hb).mpr ⟨h1, h2⟩)
  rw [this] at h3
  rcases h3 with h3 | h3 <;> simp at h3

/-- C84 (partial: the request says `unlock`): afterwards the process holds no lock on these bytes, unless the system refused. -/
theorem c84_unlock_partial (offBits intBits p : Nat) (w : Place) (r : Request) (t t' : Table) (ho : 0 < offBits) (hf : Fits intBits r)
    (hk : r.kind = .unlock) (h : Unlock offBits intBits p w r t t') : t' = t ∨
    ((∀ b ≤ offMax, Covers r w b → t' p b = none) ∧ ∀ q b, q ≠ p ∨ b ≤ offMax ∧ ¬ Covers r w b → t' q b = t q b) := by
  cases h with
  | refused => exact Or.inl rfl
  | call f d t' h1 h2 =>
    cases d with
    | false => cases h2; exact Or.inl rfl
    | true =>
      obtain ⟨e1, e2, _⟩ := c84_lock offBits intBits p w r t t' ho hf (.call f true t' h1 h2)
      exact Or.inr ⟨fun b hb hc => by rw [e1 b hb hc, if_pos hk], e2⟩

theorem setlkw_others {p : Nat} {w : Place} {f : Native} {t t' : Table} {d : Bool} (h : Setlkw p w f t d t') (q : Nat) (hq : q ≠ p) : t' q = t q := by
  cases h with
  | done lo hi h1 h2 => funext b; unfold put; rw [if_neg (fun e => hq e.1)]
  | fail => rfl

theorem setlkw_safe {p : Nat} {w : Place} {f : Native} {t t' : Table} {d : Bool} (h : Setlkw p w f t d t') (hs : Safe t) : Safe t' := by
  cases h with
  | done lo hi h1 h2 => exact put_safe hs h2
  | fail => exact hs

theorem unlock_inv {offBits intBits p : Nat} {w : Place} {r : Request} {t t' : Table} (h : Unlock offBits intBits p w r t t') :
    (∀ q, q ≠ p → t' q = t q) ∧ (Safe t → Safe t') := by
  cases h with
  | refused => exact ⟨fun _ _ => rfl, id⟩
  | call f d t' h1 h2 => exact ⟨setlkw_others h2, setlkw_safe h2⟩

theorem reach_inv {offBits intBits : Nat} (ho : 0 < offBits) {s : Sys} (h : Reach offBits intBits s) :
    Safe s.table ∧ ∀ p r w, s.inside p = some (r, w) → Fits intBits r → r.kind ≠ .unlock ∧ ∀ b ≤ offMax, Covers r w b → s.table p b = some r.kind := by
  induction h with
  | start => refine ⟨fun _ _ _ _ h => (by cases h), fun _ _ _ h => (by cases h)⟩
  | step s s' _ hs ih =>
    obtain ⟨i1, i2⟩ := ih
    cases hs with
    | enter p r w t' h1 h2 h3 =>
      have hsafe : Safe t' ∧ ∀ q, q ≠ p → t' q = s.table q := by
        cases h3 with
        | call f d t' h4 h5 => exact ⟨setlkw_safe h5 i1, setlkw_others h5⟩
      refine ⟨hsafe.1, ?_⟩
      intro q r' w' hq hfit
      simp only at hq
      split_ifs at hq with e
      · simp only [Option.some.injEq, Prod.mk.injEq] at hq
        obtain ⟨rfl, rfl⟩ := hq
        subst e
        refine ⟨h2, fun b hb hc => ?_⟩
        show t' q b = _
        rw [(c84_lock offBits intBits q w r _ _ ho hfit h3).1 b hb hc, if_neg h2]
      · refine ⟨(i2 q r' w' hq hfit).1, fun b hb hc => ?_⟩
        show t' q b = _
        rw [hsafe.2 q e]; exact (i2 q r' w' hq hfit).2 b hb hc
    | throws p r w t' h1 h2 =>
      have := c84_lock_throws _ _ _ _ _ _ _ h2
      subst this
      exact ⟨i1, i2⟩
    | leave p r w t' h1 h2 =>
      obtain ⟨u1, u2⟩ := unlock_inv h2
      refine ⟨u2 i1, ?_⟩
      intro q r' w' hq hfit
      simp only at hq
      split_ifs at hq with e
      refine ⟨(i2 q r' w' hq hfit).1, fun b hb hc => ?_⟩
      show t' q b = _
      rw [u1 q e]; exact (i2 q r' w' hq hfit).2 b hb hc

/-- C84: whatever any number of processes do, two of them are between their `lock` and `unlock` of a common byte at the same time only if both
locks are shared. -/
theorem c84_mutual_exclusion (offBits intBits : Nat) (ho : 0 < offBits) (s : Sys) (h : Reach offBits intBits s) (p q : Nat)
    (hpq : p ≠ q) (r r' : Request) (w w' : Place) (hp : s.inside p = some (r, w)) (hq : s.inside q = some (r', w')) (hf : Fits intBits r)
    (hf' : Fits intBits r') (b : Nat) (hb : b ≤ offMax) (hc : Covers r w b) (hc' : Covers r' w' b) : r.kind = .shared ∧ r'.kind = .shared := by
  obtain ⟨i1, i2⟩ := reach_inv ho h
  obtain ⟨k1, k2⟩ := i2 p r w hp hf
  obtain ⟨k1', k2'⟩ := i2 q r' w' hq hf'
  have e := k2 b hb hc
  have e' := k2' b hb hc'
  constructor
  · cases hk : r.kind with
    | shared => rfl
    | unlock => exact absurd hk k1
    | exclusive =>
      rw [hk] at e
      have := i1 p q b hpq e
      rw [e'] at this; cases this
  · cases hk : r'.kind with
    | shared => rfl
    | unlock => exact absurd hk k1'
    | exclusive =>
      rw [hk] at e'
      have := i1 q p b hpq.symm e'
      rw [e] at this; cases this

/-- The default request of `flock_request_l64` with a kind and a start: 10 bytes from byte 5 on. -/
def sample (k : Kind) (wh : Whence) : Request := ⟨k, wh, 5, 10⟩

theorem range_sample : range ⟨0, 0⟩ ⟨.exclusive, 0, 5, 10⟩ = some (5, 15) ∧ range ⟨0, 0⟩ ⟨.shared, 0, 5, 10⟩ = some (5, 15) ∧
    range ⟨0, 0⟩ ⟨.unlock, 0, 5, 10⟩ = some (5, 15) := by decide +kernel

theorem native_sample (k : Kind) : nativeOf 64 64 (sample k .beg) = some ⟨k, 0, 5, 10⟩ := by cases k <;> decide +kernel

theorem sample_lock (t : Table) (p : Nat) (k : Kind) (hc : ¬ Conflict t p k 5 15) :
    Lock 64 64 p ⟨0, 0⟩ (sample k .beg) t true (put t p k 5 15) :=
  .call _ _ _ (native_sample k) (.done 5 15 (by cases k <;> decide +kernel) hc)

/-- The hypotheses are met: two processes inside with shared locks on common bytes. -/
example : ∃ s, Reach 64 64 s ∧ s.inside 0 = some (sample .shared .beg, ⟨0, 0⟩) ∧ s.inside 1 = some (sample .shared .beg, ⟨0, 0⟩) ∧
    Fits 64 (sample .shared .beg) ∧ Covers (sample .shared .beg) ⟨0, 0⟩ 7 := by
  have l1 := sample_lock (fun _ _ => none) 0 .shared (by rintro ⟨q, b, _, _, _, h | h⟩ <;> simp at h)
  have s1 := Reach.step _ _ .start (.enter (offBits := 64) (intBits := 64) _ 0 _ _ _ rfl (by decide) l1)
  have l2 := sample_lock (put (fun _ _ => none) 0 .shared 5 15) 1 .shared (by
    rintro ⟨q, b, _, _, _, ⟨h, _⟩ | ⟨_, h⟩⟩
    · cases h
    · unfold put at h; split_ifs at h <;> simp_all)
  have s2 := Reach.step _ _ s1 (.enter _ 1 _ _ _ (by simp) (by decide) l2)
  exact ⟨_, s2, by simp, by simp, by unfold Fits sample; norm_num, by unfold Covers sample Place.base; norm_num⟩

/-- C84 violated: `unlock` with the request given to `lock` - what the destructor of `file_lock_guard` does - keeps the lock: whatever the system
answers, the process still holds it, and another process that wants these bytes waits (or fails) for ever. -/
theorem c84_guard_violated (t : Table) (h : ∀ b, 5 ≤ b → b < 15 → t 0 b = some .exclusive) (t' : Table)
    (hu : Unlock 64 64 0 ⟨0, 0⟩ (sample .exclusive .beg) t t') :
    (∀ b, 5 ≤ b → b < 15 → t' 0 b = some .exclusive) ∧ ∀ t'', ¬ Lock 64 64 1 ⟨0, 0⟩ (sample .shared .beg) t' true t'' := by
  have h1 : ∀ b, 5 ≤ b → b < 15 → t' 0 b = some .exclusive := by
    intro b hb hb'
    cases hu with
    | refused => exact h b hb hb'
    | call f d t' h1 h2 =>
      rw [native_sample, Option.some.injEq] at h1
      subst h1
      cases h2 with
      | done lo hi h3 h4 =>
        rw [range_sample.1] at h3
        cases h3
        unfold put; rw [if_pos ⟨rfl, hb, hb'⟩]; rfl
      | fail => exact h b hb hb'
  refine ⟨h1, fun t'' hl => ?_⟩
  obtain ⟨lo, hi, e1, e2, _⟩ := lock_inv (by decide) (by unfold Fits sample; norm_num) hl
  have : range ⟨0, 0⟩ ⟨.shared, 0, 5, 10⟩ = some (lo, hi) := e1
  rw [range_sample.2.1] at this
  cases this
  exact e2 ⟨0, 5, by decide, by decide, by decide, Or.inr ⟨rfl, h1 5 (by decide) (by decide)⟩⟩

/-- C84 violated: by default requests count from the position of the file; after 100 bytes have been written, even a request to `unlock` releases
other bytes than those locked. -/
theorem c84_position_violated (t : Table) (h : ∀ b, 5 ≤ b → b < 15 → t 0 b = some .exclusive) (t' : Table)
    (hu : Unlock 64 64 0 ⟨100, 100⟩ (sample .unlock .cur) t t') : ∀ b, 5 ≤ b → b < 15 → t' 0 b = some .exclusive := by
  intro b hb hb'
  rcases c84_unlock_partial 64 64 0 _ _ t t' (by decide) (by unfold Fits sample; norm_num) rfl hu with e | ⟨_, e⟩
  · rw [e]; exact h b hb hb'
  · rw [e 0 b (Or.inr ⟨by unfold offMax; omega, by unfold Covers sample Place.base; simp; omega⟩)]; exact h b hb hb'

/-- C84 violated: `try_lock` does not return while another process has the lock, except by an exception. -/
theorem c84_try_lock_violated (t : Table) (h : t 0 7 = some .exclusive) (t' : Table) (d : Bool)
    (hl : TryLock 64 64 1 ⟨0, 0⟩ (sample .exclusive .beg) t d t') : d = false := by
  cases d with
  | false => rfl
  | true =>
    obtain ⟨lo, hi, e1, e2, _⟩ := lock_inv (by decide) (by unfold Fits sample; norm_num) hl
    have : range ⟨0, 0⟩ ⟨.exclusive, 0, 5, 10⟩ = some (lo, hi) := e1
    rw [range_sample.1] at this
    cases this
    exact absurd ⟨0, 7, by decide, by decide, by decide, Or.inl ⟨rfl, by rw [h]; simp⟩⟩ e2

end Verif.Flock
