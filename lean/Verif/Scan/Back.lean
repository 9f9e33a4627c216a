import Verif.Scan.Numbers
/-! Helper lemmas: the position of the device behind a buffer, and sequences of arguments. -/
namespace Verif.Scan
open Verif Verif.IntScan Verif.IoBuf Verif.Line

/-- What is in the buffer is what the device delivered last. -/
def Back (bfs : Nat) (s : ISt) : Prop := ∀ av, s.avail = some av → av.length ≤ bfs ∧ av.length ≤ s.dev.pos ∧
  s.dev.file.drop (s.dev.pos - av.length) = av ++ s.dev.rest

theorem back_nil {bfs : Nat} {s : ISt} (h : ∀ av, s.avail = some av → av = []) : Back bfs s := by
  intro av hav
  rw [h av hav]
  simp [IDev.rest]

theorem back_suffix {bfs : Nat} {s s' : ISt} {av r : List Nat} (hb : Back bfs s) (hav : s.avail = some av) (hr : r <:+ av) (hd : s'.dev = s.dev)
    (hav' : s'.avail = some r) : Back bfs s' := by
  obtain ⟨h1, h2, h3⟩ := hb av hav
  obtain ⟨a, rfl⟩ := hr
  intro x hx
  rw [hav'] at hx
  cases hx
  simp only [List.length_append] at h1 h2 h3
  rw [hd]
  refine ⟨by omega, by omega, ?_⟩
  have : s.dev.pos - r.length = s.dev.pos - (a.length + r.length) + a.length := by omega
  rw [this, ← List.drop_drop, h3]
  simp

theorem devRead_pos (d : IDev) (n : Nat) : (devRead d n).1.pos = d.pos + ((devRead d n).2.getD []).length := by
  unfold devRead
  split <;> simp [IDev.deliver]

/-- After a read into the buffer. -/
theorem back_fill {bfs n : Nat} {d : IDev} {l : List Nat} (h : (devRead d n).2 = some l) (hn : n ≤ bfs) (i : Nat) :
    Back bfs ⟨some l, some i, (devRead d n).1⟩ := by
  have hok := devRead_ok d n
  have hp := devRead_pos d n
  rw [h] at hp
  have hr := hok.rest
  have hl := hok.len
  rw [h] at hr hl
  simp only [Option.getD_some] at hp hr hl
  have h0 : Back bfs ⟨some l, some 0, (devRead d n).1⟩ := by
    intro av hav
    have : av = l := by simpa [ISt.avail] using hav.symm
    subst this
    refine ⟨by omega, by show _ ≤ (devRead d n).1.pos; omega, ?_⟩
    show (devRead d n).1.file.drop ((devRead d n).1.pos - _) = _
    rw [hok.file, hp, Nat.add_sub_cancel]
    exact hr
  by_cases hi : i ≤ l.length
  · exact back_suffix h0 (av := l) (by simp [ISt.avail]) (r := l.drop i) (List.drop_suffix i l) rfl (by simp [ISt.avail, hi])
  · intro av hav
    simp [ISt.avail, hi] at hav

theorem back_advance {bfs : Nat} {s : ISt} (hb : Back bfs s) (k : Nat) : Back bfs (advance s k) := by
  intro x hx
  cases hm : s.mem with
  | none =>
    cases hc : s.curr <;> simp [advance, ISt.avail, hm, hc] at hx
    subst hx
    simp [advance, IDev.rest]
  | some l =>
    cases hc : s.curr with
    | none => simp [advance, ISt.avail, hm, hc] at hx
    | some i =>
      by_cases hi : i + k ≤ l.length
      · have hav : s.avail = some (l.drop i) := by simp [ISt.avail, hm, hc]; omega
        have hx' : (advance s k).avail = some (l.drop (i + k)) := by simp [advance, ISt.avail, hm, hc, hi]
        exact back_suffix (s' := advance s k) hb hav (r := l.drop (i + k)) (by rw [← List.drop_drop]; exact List.drop_suffix _ _) rfl hx' x hx
      · simp [advance, ISt.avail, hm, hc, hi] at hx

theorem back_underflow {bfs : Nat} {s : ISt} (hb : Back bfs s) : Back bfs (underflow bfs s).1 := by
  have ha : ∀ d : IDev, d.pos = s.dev.pos → d.file = s.dev.file → Back bfs { allocate s with dev := d } := by
    intro d h1 h2 av h
    cases hm : s.mem with
    | none =>
      have : av = [] := by simpa [allocate, ISt.avail, hm] using h.symm
      subst this
      simp [IDev.rest]
    | some l =>
      have hal : allocate s = s := by simp [allocate, hm]
      rw [hal] at h
      obtain ⟨a, b, c⟩ := hb av h
      simp only [IDev.rest, h1, h2] at c ⊢
      exact ⟨a, b, c⟩
  have hdev : (allocate s).dev = s.dev := by unfold allocate; split <;> rfl
  unfold underflow
  simp only
  match h : devRead (allocate s).dev bfs with
  | (d, some l) =>
    have h2 : (devRead (allocate s).dev bfs).2 = some l := by rw [h]
    have := back_fill (bfs := bfs) (n := bfs) h2 (Nat.le_refl _) 0
    rw [h] at this
    exact this
  | (d, none) =>
    have h1 := devRead_pos (allocate s).dev bfs
    have h2 := (devRead_ok (allocate s).dev bfs).file
    rw [h, hdev] at h1 h2
    exact ha d (by simpa using h1) h2

theorem back_read {bfs : Nat} {s s' : ISt} {n : Nat} {r : IoBuf.Res} (hb : Back bfs s) (h : IoBuf.read bfs s n = some (s', r)) : Back bfs s' := by
  unfold IoBuf.read at h
  obtain ⟨av, hav, h⟩ := Option.map_eq_some_iff.mp h
  by_cases hlt : av.length < n
  · rw [if_pos hlt] at h
    have hs' : s' = (readUnhappy bfs s av n).1 := by rw [h]
    rw [hs']
    have hd : ∀ (s : ISt) (m : Nat), (∀ d x, { s with dev := d }.avail = some x → x = []) →
        (∀ d x, ({ mem := some [], curr := s.curr, dev := d } : ISt).avail = some x → x = []) → Back bfs (readUnhappyDecay bfs s m).1 := by
      intro s m h1 h2
      unfold readUnhappyDecay
      by_cases hm : bfs ≤ m
      · rw [if_pos hm]
        match hr : devRead s.dev m with
        | (d, some l) => exact back_nil (h1 d)
        | (d, none) => exact back_nil (h1 d)
      · rw [if_neg hm]
        simp only
        have key : ∀ s' : ISt, (∀ d x, { s' with dev := d }.avail = some x → x = []) → Back bfs (match devRead s'.dev bfs with
            | (d, some l) => ((⟨some l, some (min m l.length), d⟩, ⟨l.take (min m l.length), false⟩) : ISt × IoBuf.Res)
            | (d, none) => ({ s' with dev := d }, ⟨[], true⟩)).1 := by
          intro s' hs'
          match hr : devRead s'.dev bfs with
          | (d, some l) =>
            have h2 : (devRead s'.dev bfs).2 = some l := by rw [hr]
            have := back_fill (bfs := bfs) (n := bfs) h2 (Nat.le_refl _) (min m l.length)
            rw [hr] at this
            exact this
          | (d, none) => exact back_nil (hs' d)
        cases hm : s.mem with
        | none => exact key { s with mem := some [] } h2
        | some l => exact key s h1
    unfold readUnhappy
    simp only
    cases hm : s.mem with
    | none =>
      apply hd
      · intro d x hx
        cases hc : s.curr <;> simp [ISt.avail, hm, hc] at hx
        exact hx
      · intro d x hx
        cases hc : s.curr with
        | none => simp [ISt.avail, hc] at hx
        | some i =>
          simp only [ISt.avail, hc] at hx
          split at hx
          · simpa using hx.symm
          · cases hx
    | some l =>
      apply hd
      · intro d x hx
        simp [ISt.avail, hm] at hx
        exact hx
      · intro d x hx
        simp only [ISt.avail] at hx
        split at hx
        · simpa using hx.symm
        · cases hx
  · rw [if_neg hlt] at h
    simp only [Prod.mk.injEq] at h
    rw [← h.1]
    have hadv := avail_upto hav (r := av.drop n) (List.drop_suffix n av)
    have hn' : av.length - (av.drop n).length = n := by simp; omega
    rw [hn'] at hadv
    exact back_suffix hb hav (List.drop_suffix n av) (by rfl) hadv.1

theorem back_readAllCold {bfs fuel : Nat} : ∀ {n : Nat} {s s' : ISt} {x : List Nat × AllRes}, Back bfs s →
    readAllCold bfs fuel s n = some (s', x) → Back bfs s' := by
  induction fuel with
  | zero =>
    intro n s s' x hb h
    cases n with
    | zero => simp only [readAllCold, Option.some.injEq, Prod.mk.injEq] at h; rw [← h.1]; exact hb
    | succ n => simp [readAllCold] at h
  | succ fuel ih =>
    intro n s s' x hb h
    cases n with
    | zero => simp only [readAllCold, Option.some.injEq, Prod.mk.injEq] at h; rw [← h.1]; exact hb
    | succ n =>
      simp only [readAllCold] at h
      obtain ⟨⟨s1, r⟩, hr, h⟩ := Option.bind_eq_some_iff.mp h
      have h1 := back_read hb hr
      simp only at h
      split at h
      · simp only [Option.some.injEq, Prod.mk.injEq] at h; rw [← h.1]; exact h1
      · split at h
        · simp only [Option.some.injEq, Prod.mk.injEq] at h; rw [← h.1]; exact h1
        · obtain ⟨q, hq, h⟩ := Option.map_eq_some_iff.mp h
          simp only [Prod.mk.injEq] at h
          rw [← h.1]
          exact ih (s' := q.1) (x := q.2) h1 hq

theorem back_scanCtx {P : Plat} {w : What} {bfs fuel : Nat} : ∀ {s s' : ISt} {st : St} {v : Val} {x : Val × Res}, Back bfs s →
    scanCtx P w bfs fuel s st v = some (s', x) → Back bfs s' := by
  induction fuel with
  | zero => intro s s' st v x _ h; simp [scanCtx] at h
  | succ fuel ih =>
    intro s s' st v x hb h
    simp only [scanCtx] at h
    obtain ⟨av, _, h⟩ := Option.bind_eq_some_iff.mp h
    obtain ⟨r, _, h⟩ := Option.bind_eq_some_iff.mp h
    have h1 := back_advance hb (av.length - r.rest.length)
    by_cases c1 : r.code = .ok
    · rw [if_pos c1] at h
      simp only [Option.some.injEq, Prod.mk.injEq] at h; rw [← h.1]; exact h1
    rw [if_neg c1] at h
    by_cases c2 : r.code ≠ .part
    · rw [if_pos c2] at h
      simp only [Option.some.injEq, Prod.mk.injEq] at h; rw [← h.1]; exact h1
    rw [if_neg c2] at h
    have h2 := back_underflow h1
    match hu : underflow bfs (advance s (av.length - r.rest.length)) with
    | (s2, some true) => rw [hu] at h h2; exact ih h2 h
    | (s2, none) =>
      rw [hu] at h h2
      simp only [Option.some.injEq, Prod.mk.injEq] at h; rw [← h.1]; exact h2
    | (s2, some false) =>
      rw [hu] at h h2
      simp only [atEof] at h
      obtain ⟨e, _, h⟩ := Option.map_eq_some_iff.mp h
      have : s' = s2 := by
        split at h
        · simp only [Prod.mk.injEq] at h; exact h.1.symm
        · split at h <;> (simp only [Prod.mk.injEq] at h; exact h.1.symm)
      rw [this]; exact h2

theorem back_scanSingle {P : Plat} {w : What} {bfs fuel : Nat} {s s' : ISt} {v : Val} {x : Val × Res} (hb : Back bfs s)
    (h : scanSingle P w bfs fuel s v = some (s', x)) : Back bfs s' := by
  cases w with
  | fixed n f =>
    simp only [scanSingle, scanFixed] at h
    obtain ⟨av, _, h⟩ := Option.bind_eq_some_iff.mp h
    split at h
    · obtain ⟨q, hq, h⟩ := Option.map_eq_some_iff.mp h
      have := back_readAllCold hb (s' := q.1) (x := q.2) hq
      have e : s' = q.1 := by
        split at h <;> (simp only [Prod.mk.injEq] at h; exact h.1.symm)
      rw [e]; exact this
    · simp only [Option.some.injEq, Prod.mk.injEq] at h; rw [← h.1]; exact back_advance hb n
  | int bits signed noskipws skipzero base =>
    simp only [scanSingle, scanInt] at h
    obtain ⟨av, _, h⟩ := Option.bind_eq_some_iff.mp h
    obtain ⟨o, _, h⟩ := Option.bind_eq_some_iff.mp h
    split at h
    · exact back_scanCtx hb h
    · simp only [Option.some.injEq, Prod.mk.injEq] at h; rw [← h.1]; exact back_advance hb _
  | word => exact back_scanCtx hb h
  | token => exact back_scanCtx hb h
  | line => exact back_scanCtx hb h
  | whole => exact back_scanCtx hb h
  | chars n => exact back_scanCtx hb h

theorem back_scanAll {P : Plat} {bfs fuel : Nat} : ∀ {args : List (What × Val)} {s s' : ISt} {x : List Val × Res}, Back bfs s →
    scanAll P bfs fuel s args = some (s', x) → Back bfs s'
  | [], s, s', x, hb, h => by
    simp only [scanAll, Option.some.injEq, Prod.mk.injEq] at h; rw [← h.1]; exact hb
  | (w, v) :: args, s, s', x, hb, h => by
    simp only [scanAll] at h
    obtain ⟨r, hr, h⟩ := Option.bind_eq_some_iff.mp h
    have h1 := back_scanSingle hb (s' := r.1) (x := r.2) hr
    split at h
    · obtain ⟨q, hq, h⟩ := Option.map_eq_some_iff.mp h
      simp only [Prod.mk.injEq] at h
      rw [← h.1]
      exact back_scanAll h1 (x := q.2) hq
    · simp only [Option.some.injEq, Prod.mk.injEq] at h; rw [← h.1]; exact h1

/-! ### Sequences of arguments -/

/-- `Safe` for each argument at the place where it is read. -/
def SafeAll (P : Plat) : List What → List Nat → Prop
  | [], _ => True
  | w :: ws, T => Safe P w T ∧ ∀ r v, Reads w T ⟨r, .ok, some v⟩ → SafeAll P ws r

theorem viewRes_true {c : Code} (h : viewRes c = .ret true) : c = .ok := by
  unfold viewRes at h
  split at h
  · assumption
  · split at h <;> simp at h

/-- What a completed `scan` guarantees. -/
def ScanOk (args : List (What × Val)) (T rest : List Nat) (vars : List Val) (res : Res) : Prop :=
  ∃ vs e, ReadAll (args.map (·.1)) T vs e rest ∧ (res = match e with | none => .ret true | some c => viewRes c) ∧
    vs <+: vars ∧ vars.length = args.length ∧ vars.drop (vs.length + 1) = (args.map (·.2)).drop (vs.length + 1)

theorem scanAll_ok {P : Plat} (hP : PlatOk P) {bfs fuel : Nat} (hb : 1 ≤ bfs) : ∀ {args : List (What × Val)} {s : ISt}, s.avail.isSome = true →
    Eager s.dev.script → (NoFail s.dev.script ∨ s.mem ≠ none) → s.ahead.length < fuel → SafeAll P (args.map (·.1)) s.ahead →
    ∃ s' vars res, scanAll P bfs fuel s args = some (s', vars, res) ∧ s'.avail.isSome = true ∧
      (NoFail s.dev.script → res ≠ .device) ∧ (res ≠ .device → ScanOk args s.ahead s'.ahead vars res)
  | [], s, hwf, _, _, _, _ => ⟨s, [], .ret true, rfl, hwf, fun _ => by simp, fun _ => ⟨[], none, .done _, rfl, by simp, rfl, rfl⟩⟩
  | (w, v) :: args, s, hwf, hea, hn, hf, hs => by
    obtain ⟨s1, v1, r1, e1, h1⟩ := scanSingle_ok hP hb hwf hea hn hf hs.1 v
    simp only [scanAll, e1, Option.bind_some]
    by_cases ht : r1 = .ret true
    · rw [if_pos ht]
      obtain ⟨c, x, hr, hc, hx⟩ := h1.reads (by rw [ht]; simp)
      have hok : c = .ok := viewRes_true (hc.symm.trans ht)
      have := hx hok
      subst this hok
      obtain ⟨s2, vars, res, e2, hwf2, hnf2, h2⟩ := scanAll_ok hP hb (args := args) (fuel := fuel) h1.wf h1.eager
        (by rcases hn with h | h; exacts [.inl (h1.nofail h).1, .inr (h1.alloc h)])
        (lt_of_le_of_lt h1.size hf) (hs.2 _ _ hr)
      refine ⟨s2, v1 :: vars, res, by rw [e2]; rfl, hwf2, fun h => hnf2 (h1.nofail h).1, fun h => ?_⟩
      obtain ⟨vs, e, hra, hres, hpre, hlen, hdrop⟩ := h2 h
      refine ⟨v1 :: vs, e, .more hr hra, hres, ?_, by simp [hlen], by simpa using hdrop⟩
      obtain ⟨t, rfl⟩ := hpre
      exact ⟨t, rfl⟩
    · rw [if_neg ht]
      refine ⟨s1, _, r1, rfl, h1.wf, fun h => (h1.nofail h).2, fun h => ?_⟩
      obtain ⟨c, x, hr, hc, hx⟩ := h1.reads h
      refine ⟨[], some c, .stop hr ?_, hc, by simp, by simp, by simp⟩
      rintro rfl
      exact ht hc

/-- Where scanning from a contiguous stream is exact: as `Safe`, but blocks do not matter; a lone sign is accepted by mistake, and
arguments of fixed size at the end of the input take nothing (in the specification they take what is left). -/
def SafeView (P : Plat) : What → List Nat → Prop
  | .word, T => CodeUnits P.cw T ∧ SpacePlain P T
  | .token, T => CodeUnits P.cw T
  | .line, T => CodeUnits P.cw T
  | .int bits signed noskipws skipzero base, T =>
    Valid (P.cfg bits signed noskipws skipzero base) ∧ Clean (P.cfg bits signed noskipws skipzero base) T ∧
    (noskipws = false → SpacePlain P T) ∧ SseSafe (P.cfg bits signed noskipws skipzero base) T ∧
    NoLoneSign (P.cfg bits signed noskipws skipzero base) T
  | .fixed n _, T => n ≤ T.length
  | _, _ => True

theorem ctx_view {P : Plat} {w : What} {T : List Nat} {Inv Inv' : St → Val → List Nat → Prop} (hR : CtxRight P w T Inv Inv') (v : Val) :
    ∃ r, ((define P w {} v T).bind fun r =>
      if r.code = .ok then some (r.rest, r.var, Res.ret true)
      else if r.code ≠ .part then some (r.rest, r.var, .thrown r.code)
      else (eofDefine P w r.st r.var).map fun e => (r.rest, e.2, viewRes e.1)) = some r ∧
    ∃ c x, Reads w T ⟨r.1, c, x⟩ ∧ r.2.2 = viewRes c ∧ (c = .ok → x = some r.2.1) := by
  obtain ⟨r, hr, hcase⟩ := hR.step {} v [] T [] (by simp) (hR.init v) (.inr rfl)
  simp only [hr, Option.bind_some]
  rcases hcase with ⟨hc, hrest, hinv⟩ | ⟨hc, hsuf, x, hreads, hok, hneof⟩
  · rw [if_neg (by rw [hc]; simp), if_neg (by simp [hc])]
    obtain ⟨e, he, hpart, x, hreads, hok⟩ := hR.fin _ _ hinv
    rw [he]
    exact ⟨_, rfl, e.1, x, by simp only [hrest]; exact hreads, rfl, hok⟩
  · simp only [List.append_nil] at hreads
    by_cases h1 : r.code = .ok
    · rw [if_pos h1]
      exact ⟨_, rfl, r.code, x, hreads, by simp [viewRes, h1], hok⟩
    · rw [if_neg h1, if_pos hc]
      exact ⟨_, rfl, r.code, x, hreads, by simp [viewRes, h1, hneof], hok⟩

theorem scanView_ok {P : Plat} (hP : PlatOk P) {w : What} {T : List Nat} (hs : SafeView P w T) (v : Val) :
    ∃ r, scanView P w T v = some r ∧ ∃ c x, Reads w T ⟨r.1, c, x⟩ ∧ r.2.2 = viewRes c ∧ (c = .ok → x = some r.2.1) := by
  cases w with
  | word => exact ctx_view (word_right hP hs.1 hs.2) v
  | token => exact ctx_view (token_right hP hs) v
  | line => exact ctx_view (line_right hP hs) v
  | whole => exact ctx_view (whole_right P _) v
  | chars n => exact ctx_view (chars_right P n _) v
  | int bits signed noskipws skipzero base =>
    obtain ⟨hv, hcl, hsp, hsse, hls⟩ := hs
    obtain ⟨o, h1, h2⟩ := c06_scan_partial _ hv T hcl (fun hn h _ => ⟨hsp hn h, fun hp => absurd hp (by simp [Plat.cfg, hP.ptestm])⟩) hsse hls
    refine ⟨_, by simp only [scanView, h1, Option.map_some]; rfl, o.code, o.value.map .num, ⟨_, h2, rfl⟩, rfl, fun hok => ?_⟩
    obtain ⟨i, hi⟩ := spec_ok_value h2 hok
    simp [hi]
  | fixed n f =>
    have h : n ≤ T.length := hs
    simp only [scanView]
    rw [if_neg (by omega)]
    exact ⟨_, rfl, .ok, some (f (T.take n)), .inr ⟨T.take n, T.drop n, by simp, by simp; omega, rfl⟩, rfl, fun _ => rfl⟩

/-- `SafeView` for each argument at the place where it is read. -/
def SafeViewAll (P : Plat) : List What → List Nat → Prop
  | [], _ => True
  | w :: ws, T => SafeView P w T ∧ ∀ r v, Reads w T ⟨r, .ok, some v⟩ → SafeViewAll P ws r

theorem scanViewAll_ok {P : Plat} (hP : PlatOk P) : ∀ {args : List (What × Val)} {T : List Nat}, SafeViewAll P (args.map (·.1)) T →
    ∃ rest vars res, scanViewAll P T args = some (rest, vars, res) ∧ ScanOk args T rest vars res
  | [], T, _ => ⟨T, [], .ret true, rfl, ⟨[], none, .done _, rfl, by simp, rfl, rfl⟩⟩
  | (w, v) :: args, T, hs => by
    obtain ⟨⟨rest, v1, r1⟩, e1, c, x, hr, hc, hx⟩ := scanView_ok hP hs.1 v
    simp only [scanViewAll, e1, Option.bind_some]
    simp only at hr hc hx
    by_cases ht : r1 = .ret true
    · rw [if_pos ht]
      have hok : c = .ok := viewRes_true (hc.symm.trans ht)
      have := hx hok
      subst this hok
      obtain ⟨rest2, vars, res, e2, vs, e, hra, hres, hpre, hlen, hdrop⟩ := scanViewAll_ok hP (args := args) (hs.2 _ _ hr)
      refine ⟨rest2, v1 :: vars, res, by rw [e2]; rfl, v1 :: vs, e, .more hr hra, hres, ?_, by simp [hlen], by simpa using hdrop⟩
      obtain ⟨t, rfl⟩ := hpre
      exact ⟨t, rfl⟩
    · rw [if_neg ht]
      refine ⟨rest, _, r1, rfl, [], some c, .stop hr ?_, hc, by simp, by simp, by simp⟩
      rintro rfl
      exact ht hc

end Verif.Scan
