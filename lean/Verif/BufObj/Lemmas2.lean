import Verif.BufObj.Lemmas
/-! The invariant of buffered stream objects, and what preserves it. -/
namespace Verif.BufObj
open Verif.IoBuf (Answer Out Cfg)

/-- The characters held back. -/
def chars (o : Obj) : List Nat := (o.ob.map Prod.snd).getD []

/-- The block of the input (`true`) or output (`false`) buffer. -/
def blk (o : Obj) (k : Bool) : Option Nat := if k then o.ib.map Prod.fst else o.ob.map Prod.fst

/-- The block owned by the buffer `k` of the object in `x`. -/
def slot (objs : Nat → Option Obj) (x : Nat) (k : Bool) : Option Nat := (objs x).bind fun o => blk o k

/-- What always holds; `fl`: all devices take everything. -/
structure J (cfg : Cfg) (fl : Prop) (s : St) : Prop where
  inj : ∀ x k y k' b, slot s.objs x k = some b → slot s.objs y k' = some b → x = y ∧ k = k'
  heap : ∀ b n, s.heap b = some n ↔ n = cfg.bfs ∧ ∃ x k, slot s.objs x k = some b
  lt : ∀ b, s.heap b ≠ none → b < s.next
  room : ∀ x o, s.objs x = some o → (chars o).length ≤ cfg.bfs
  tag : ∀ x y o p, s.objs x = some o → s.objs y = some p → o.tag = p.tag → x = y
  tagLt : ∀ x o, s.objs x = some o → o.tag < s.nextTag
  wLt : ∀ w ∈ s.written, w.tag < s.nextTag
  sub : ∀ x o, s.objs x = some o → (chars o).Sublist (wrote o.tag o.file s.written)
  log : ∀ f p, p ∈ s.files f → p.2.Sublist (wrote p.1 (some f) s.written) ∧ p.1 < s.nextTag
  full : fl → ∀ a ∈ s.script, a = .full
  live : fl → ∀ x o f, s.objs x = some o → o.file = some f → received o.tag (s.files f) ++ chars o = wrote o.tag (some f) s.written
  rest : fl → ∀ t f, (∀ x o, s.objs x = some o → o.tag = t → o.file ≠ some f) → received t (s.files f) = wrote t (some f) s.written

theorem upd_upd {α : Type} (f : Nat → α) (x : Nat) (v w : α) : upd (upd f x v) x w = upd f x w := by
  funext y; by_cases h : y = x <;> simp [upd, h]

theorem upd_self {α : Type} (f : Nat → α) (x : Nat) (v : α) (h : f x = v) : upd f x v = f := by
  funext y; by_cases h' : y = x <;> simp [upd, h', h]

theorem upd_some {objs : Nat → Option Obj} {x y : Nat} {o p : Obj} (h : upd objs x (some o) y = some p) :
    (y = x ∧ p = o) ∨ (y ≠ x ∧ objs y = some p) := by
  by_cases hy : y = x
  · subst hy; simp at h; exact .inl ⟨rfl, h.symm⟩
  · rw [upd_ne _ _ hy] at h; exact .inr ⟨hy, h⟩

theorem slot_upd (objs : Nat → Option Obj) (x : Nat) (v : Option Obj) (y : Nat) (k : Bool) :
    slot (upd objs x v) y k = if y = x then v.bind (fun o => blk o k) else slot objs y k := by
  by_cases h : y = x
  · subst h; simp [slot]
  · simp [slot, upd_ne _ _ h, h]

theorem received_append (t : Nat) (a b : List (Nat × List Nat)) : received t (a ++ b) = received t a ++ received t b := by
  simp [received]

theorem received_single (t u : Nat) (l : List Nat) : received t [(u, l)] = if u = t then l else [] := by
  by_cases h : u = t <;> simp [received, h]

theorem wrote_append (t : Nat) (f : Option Nat) (a b : List Written) : wrote t f (a ++ b) = wrote t f a ++ wrote t f b := by
  simp [wrote]

theorem wrote_single (t : Nat) (f : Option Nat) (w : Written) : wrote t f [w] = if w.tag = t ∧ w.file = f then w.bs else [] := by
  by_cases h : w.tag = t ∧ w.file = f <;> simp [wrote, h]

theorem wrote_none {t : Nat} {f : Option Nat} {h : List Written} (hn : ∀ w ∈ h, w.tag ≠ t) : wrote t f h = [] := by
  unfold wrote
  rw [List.filter_eq_nil_iff.2]
  · rfl
  · intro w hw; simp [hn w hw]

theorem received_none {t : Nat} {h : List (Nat × List Nat)} (hn : ∀ w ∈ h, w.1 ≠ t) : received t h = [] := by
  unfold received
  rw [List.filter_eq_nil_iff.2]
  · rfl
  · intro w hw; simp [hn w hw]

/-! ## Output -/

/-- The effect of an operation on the output buffer. -/
structure Eff (cfg : Cfg) (data : List Nat) (s : St) (o : Obj) (r : Obj × St × Out) : Prop where
  ib : r.1.ib = o.ib
  file : r.1.file = o.file
  tag : r.1.tag = o.tag
  objs : r.2.1.objs = s.objs
  nextTag : r.2.1.nextTag = s.nextTag
  written : r.2.1.written = s.written
  room : (chars r.1).length ≤ cfg.bfs
  heap : (r.1.ob.map Prod.fst = o.ob.map Prod.fst ∧ r.2.1.heap = s.heap ∧ r.2.1.next = s.next) ∨
    (o.ob = none ∧ r.1.ob.map Prod.fst = some s.next ∧ r.2.1.heap = upd s.heap s.next (some cfg.bfs) ∧ r.2.1.next = s.next + 1)
  none : o.file = none → r.2.1.files = s.files ∧ r.2.1.script = s.script
  sub : (chars r.1).Sublist (chars o ++ data)
  some : ∀ f, o.file = some f → ∃ got, r.2.1.files = upd s.files f (s.files f ++ [(o.tag, got)]) ∧ got.Sublist (chars o ++ data) ∧
    ((∀ a ∈ s.script, a = .full) → got ++ chars r.1 = chars o ++ data ∧ r.2.2 = .ok ∧ ∀ a ∈ r.2.1.script, a = .full)

theorem setOut_eff (cfg : Cfg) (s : St) (o : Obj) (b : Option (List Nat)) (h : o.ob ≠ none → b ≠ none) (hl : (b.getD []).length ≤ cfg.bfs) :
    (setOut cfg s o b).1.ib = o.ib ∧ (setOut cfg s o b).1.file = o.file ∧ (setOut cfg s o b).1.tag = o.tag ∧ chars (setOut cfg s o b).1 = b.getD [] ∧
    (setOut cfg s o b).2.objs = s.objs ∧ (setOut cfg s o b).2.nextTag = s.nextTag ∧ (setOut cfg s o b).2.written = s.written ∧
    (setOut cfg s o b).2.files = s.files ∧ (setOut cfg s o b).2.script = s.script ∧
    (((setOut cfg s o b).1.ob.map Prod.fst = o.ob.map Prod.fst ∧ (setOut cfg s o b).2.heap = s.heap ∧ (setOut cfg s o b).2.next = s.next) ∨
    (o.ob = none ∧ (setOut cfg s o b).1.ob.map Prod.fst = some s.next ∧ (setOut cfg s o b).2.heap = upd s.heap s.next (some cfg.bfs) ∧
      (setOut cfg s o b).2.next = s.next + 1)) := by
  cases b with
  | none =>
    have : o.ob = none := by by_contra hc; exact h hc rfl
    simp [setOut, this, chars]
  | some l =>
    cases ho : o.ob with
    | none => simp [setOut, ho, chars, alloc]
    | some p => simp [setOut, ho, chars]

theorem output_eff {cfg : Cfg} {data : List Nat} {op : IoBuf.St → Option (IoBuf.St × Out)} (C : Contract cfg data op) (s : St) (o : Obj)
    (hr : (chars o).length ≤ cfg.bfs) : ∃ r, output cfg s o op = some r ∧ Eff cfg data s o r := by
  have hinv : ∀ d, IoBuf.Inv cfg ⟨o.ob.map Prod.snd, d⟩ := by
    intro d l hl
    simp only at hl
    simpa [chars, hl] using hr
  have hheld : ∀ d, IoBuf.St.held ⟨o.ob.map Prod.snd, d⟩ = chars o := fun d => rfl
  have hk : ∀ {r : IoBuf.St × Out} {d}, op ⟨o.ob.map Prod.snd, d⟩ = some r → o.ob ≠ none → r.1.buf ≠ none := by
    intro r d e h
    exact C.keeps _ _ e (by simpa using h)
  cases hf : o.file with
  | none =>
    obtain ⟨r, e, hi⟩ := C.safe _ (hinv ⟨[], [.fail 0, .fail 0]⟩)
    have hs := C.sub _ _ rfl e
    have hl : (r.1.buf.getD []).length ≤ cfg.bfs := by
      cases hb : r.1.buf with
      | none => simp
      | some l => exact hi l hb
    obtain ⟨h1, h2, h3, h4, h5, h6, h7, h8, h9, h10⟩ := setOut_eff cfg s o r.1.buf (hk e) hl
    refine ⟨((setOut cfg s o r.1.buf).1, (setOut cfg s o r.1.buf).2, r.2), by simp [output, device, hf, e], ?_⟩
    exact ⟨h1, h2, h3, h5, h6, h7, by rw [h4]; exact hl, h10, fun _ => ⟨h8, h9⟩, by rw [h4]; exact hs.2, by rw [hf]; rintro f ⟨⟩⟩
  | some f =>
    obtain ⟨r, e, hi⟩ := C.safe _ (hinv ⟨[], s.script⟩)
    have hs := C.sub _ _ rfl e
    have hl : (r.1.buf.getD []).length ≤ cfg.bfs := by
      cases hb : r.1.buf with
      | none => simp
      | some l => exact hi l hb
    let s1 : St := { s with script := r.1.dev.script, files := upd s.files f (s.files f ++ [(o.tag, r.1.dev.got)]) }
    obtain ⟨h1, h2, h3, h4, h5, h6, h7, h8, h9, h10⟩ := setOut_eff cfg s1 o r.1.buf (hk e) hl
    refine ⟨((setOut cfg s1 o r.1.buf).1, (setOut cfg s1 o r.1.buf).2, r.2), by simp [output, device, hf, e, s1], ?_⟩
    refine ⟨h1, h2, h3, h5, h6, h7, by rw [h4]; exact hl, h10, by rw [hf]; rintro ⟨⟩, by rw [h4]; exact hs.2, ?_⟩
    rw [hf]
    rintro f' ⟨⟩
    refine ⟨r.1.dev.got, h8, hs.1, ?_⟩
    intro hfull
    obtain ⟨g1, g2, g3⟩ := C.full _ _ (hinv ⟨[], s.script⟩) hfull e
    refine ⟨by rw [h4]; exact g1, g2, ?_⟩
    rw [h9]; exact g3

/-! ## What preserves the invariant -/

section
variable {cfg : Cfg} {fl : Prop} {s : St}

/-- An operation on the output buffer. -/
theorem J.out (hj : J cfg fl s) {x : Nat} {o : Obj} (hx : s.objs x = some o) {data : List Nat} {r : Obj × St × Out} (he : Eff cfg data s o r)
    {w : List Written} (hw : (w = [] ∧ data = []) ∨ w = [⟨o.tag, o.file, data⟩]) :
    J cfg fl { r.2.1 with objs := upd s.objs x (some r.1), written := s.written ++ w } := by
  have hwo : ∀ t f, wrote t f w = if o.tag = t ∧ o.file = f then data else [] := by
    intro t f
    rcases hw with ⟨rfl, rfl⟩ | rfl
    · simp [wrote]
    · rw [wrote_single]
  have hmono : ∀ t f, (wrote t f s.written).Sublist (wrote t f (s.written ++ w)) := by
    intro t f; rw [wrote_append]; exact List.sublist_append_left _ _
  have hwr : wrote o.tag o.file (s.written ++ w) = wrote o.tag o.file s.written ++ data := by
    rw [wrote_append, hwo, if_pos ⟨rfl, rfl⟩]
  have hblk1 : blk r.1 true = blk o true := by simp [blk, he.ib]
  refine ⟨?_, ?_, ?_, ?_, ?_, ?_, ?_, ?_, ?_, ?_, ?_, ?_⟩
  · -- inj
    intro y k y' k' b h1 h2
    rcases he.heap with ⟨hb, _, _⟩ | ⟨hn, hb, _, _⟩
    · have hs : ∀ y k, slot (upd s.objs x (some r.1)) y k = slot s.objs y k := by
        intro y k
        rw [slot_upd]
        by_cases h : y = x
        · subst h
          rw [if_pos rfl]
          simp only [slot, hx, Option.bind_some]
          cases k
          · simp [blk, hb]
          · exact hblk1
        · rw [if_neg h]
      exact hj.inj y k y' k' b (by rw [← hs]; exact h1) (by rw [← hs]; exact h2)
    · have hs : ∀ y k, slot (upd s.objs x (some r.1)) y k = some b → (y = x ∧ k = false ∧ b = s.next) ∨ (slot s.objs y k = some b ∧ b ≠ s.next) := by
        intro y k h
        have hold : slot s.objs y k = some b → b ≠ s.next := by
          intro h' hc
          have := hj.lt b (by rw [(hj.heap b cfg.bfs).2 ⟨rfl, y, k, h'⟩]; simp)
          omega
        rw [slot_upd] at h
        by_cases hy : y = x
        · subst hy
          rw [if_pos rfl] at h
          cases k with
          | false => simp only [Option.bind_some, blk, Bool.false_eq_true, if_false, hb, Option.some.injEq] at h; exact .inl ⟨rfl, rfl, h.symm⟩
          | true =>
            have h' : slot s.objs y true = some b := by simp only [slot, hx, Option.bind_some]; rw [← hblk1]; exact h
            exact .inr ⟨h', hold h'⟩
        · rw [if_neg hy] at h
          exact .inr ⟨h, hold h⟩
      rcases hs _ _ h1 with ⟨a1, a2, a3⟩ | ⟨a1, a2⟩ <;> rcases hs _ _ h2 with ⟨b1, b2, b3⟩ | ⟨b1, b2⟩
      · exact ⟨a1.trans b1.symm, a2.trans b2.symm⟩
      · exact absurd a3 b2
      · exact absurd b3 a2
      · exact hj.inj _ _ _ _ _ a1 b1
  · -- heap
    intro b n
    rcases he.heap with ⟨hb, hh, _⟩ | ⟨hn, hb, hh, _⟩
    · have hs : ∀ y k, slot (upd s.objs x (some r.1)) y k = slot s.objs y k := by
        intro y k
        rw [slot_upd]
        by_cases h : y = x
        · subst h
          rw [if_pos rfl]
          simp only [slot, hx, Option.bind_some]
          cases k
          · simp [blk, hb]
          · exact hblk1
        · rw [if_neg h]
      simp only [hh, hs]
      exact hj.heap b n
    · simp only [hh]
      by_cases hbn : b = s.next
      · subst hbn
        simp only [upd_same, Option.some.injEq]
        constructor
        · rintro rfl
          exact ⟨rfl, x, false, by rw [slot_upd, if_pos rfl]; simp [blk, hb]⟩
        · rintro ⟨rfl, _⟩; rfl
      · rw [upd_ne _ _ hbn, hj.heap b n]
        refine and_congr_right fun _ => ⟨?_, ?_⟩
        · rintro ⟨y, k, h⟩
          refine ⟨y, k, ?_⟩
          rw [slot_upd]
          by_cases hy : y = x
          · subst hy
            rw [if_pos rfl]
            simp only [slot, hx, Option.bind_some] at h
            cases k with
            | false => simp [blk, hn] at h
            | true => simp only [Option.bind_some]; rw [hblk1]; exact h
          · rw [if_neg hy]; exact h
        · rintro ⟨y, k, h⟩
          refine ⟨y, k, ?_⟩
          rw [slot_upd] at h
          by_cases hy : y = x
          · subst hy
            rw [if_pos rfl] at h
            cases k with
            | false =>
              simp only [Option.bind_some, blk, Bool.false_eq_true, if_false, hb, Option.some.injEq] at h
              exact absurd h.symm hbn
            | true => simp only [slot, hx, Option.bind_some]; rw [← hblk1]; exact h
          · rw [if_neg hy] at h; exact h
  · -- lt
    intro b hb
    rcases he.heap with ⟨_, hh, hn⟩ | ⟨_, _, hh, hn⟩
    · simp only [hh, hn] at hb ⊢; exact hj.lt b hb
    · simp only [hh, hn] at hb ⊢
      by_cases h : b = s.next
      · omega
      · rw [upd_ne _ _ h] at hb; have := hj.lt b hb; omega
  · intro y p hy
    rcases upd_some hy with ⟨rfl, rfl⟩ | ⟨_, h⟩
    · exact he.room
    · exact hj.room y p h
  · intro y y' p p' h1 h2 ht
    rcases upd_some h1 with ⟨rfl, rfl⟩ | ⟨a1, a2⟩ <;> rcases upd_some h2 with ⟨rfl, rfl⟩ | ⟨b1, b2⟩
    · rfl
    · exact hj.tag _ _ _ _ hx b2 (by rw [← he.tag]; exact ht)
    · exact hj.tag _ _ _ _ a2 hx (by rw [← he.tag]; exact ht)
    · exact hj.tag _ _ _ _ a2 b2 ht
  · intro y p hy
    simp only [he.nextTag]
    rcases upd_some hy with ⟨rfl, rfl⟩ | ⟨_, h⟩
    · rw [he.tag]; exact hj.tagLt y o hx
    · exact hj.tagLt y p h
  · intro v hv
    simp only [he.nextTag]
    simp only [List.mem_append] at hv
    rcases hv with hv | hv
    · exact hj.wLt v hv
    · rcases hw with ⟨rfl, _⟩ | rfl
      · cases hv
      · simp only [List.mem_singleton] at hv; subst hv; exact hj.tagLt x o hx
  · intro y p hy
    rcases upd_some hy with ⟨rfl, rfl⟩ | ⟨_, h⟩
    · rw [he.tag, he.file]
      simp only
      rw [hwr]
      exact he.sub.trans ((hj.sub y o hx).append (List.Sublist.refl _))
    · exact (hj.sub y p h).trans (hmono _ _)
  · intro f p hp
    simp only [he.nextTag]
    simp only at hp
    cases hf : o.file with
    | none =>
      rw [(he.none hf).1] at hp
      exact ⟨(hj.log f p hp).1.trans (hmono _ _), (hj.log f p hp).2⟩
    | some g =>
      obtain ⟨got, h1, h2, _⟩ := he.some g hf
      rw [h1] at hp
      by_cases hg : f = g
      · subst hg
        rw [upd_same, List.mem_append, List.mem_singleton] at hp
        rcases hp with hp | rfl
        · exact ⟨(hj.log f p hp).1.trans (hmono _ _), (hj.log f p hp).2⟩
        · refine ⟨?_, hj.tagLt x o hx⟩
          simp only
          rw [← hf, hwr]
          exact h2.trans ((hj.sub x o hx).append (List.Sublist.refl _))
      · rw [upd_ne _ _ hg] at hp
        exact ⟨(hj.log f p hp).1.trans (hmono _ _), (hj.log f p hp).2⟩
  · intro h
    simp only
    cases hf : o.file with
    | none => rw [(he.none hf).2]; exact hj.full h
    | some g => obtain ⟨got, _, _, h3⟩ := he.some g hf; exact (h3 (hj.full h)).2.2
  · -- live
    intro h y p f hy hpf
    simp only
    rcases upd_some hy with ⟨rfl, rfl⟩ | ⟨hne, hy'⟩
    · rw [he.file] at hpf
      obtain ⟨got, h1, h2, h3⟩ := he.some f hpf
      rw [he.tag, h1, upd_same, received_append, received_single, if_pos rfl, ← hpf, hwr, List.append_assoc, (h3 (hj.full h)).1, ← List.append_assoc, hpf,
        hj.live h y o f hx hpf]
    · have hpt : p.tag ≠ o.tag := fun hc => hne (hj.tag _ _ _ _ hy' hx hc)
      rw [wrote_append, hwo, if_neg (fun hc => hpt hc.1.symm), List.append_nil, ← hj.live h y p f hy' hpf]
      congr 1
      cases hf : o.file with
      | none => rw [(he.none hf).1]
      | some g =>
        obtain ⟨got, h1, _⟩ := he.some g hf
        rw [h1]
        by_cases hg : f = g
        · subst hg; rw [upd_same, received_append, received_single, if_neg (Ne.symm hpt), List.append_nil]
        · rw [upd_ne _ _ hg]
  · -- rest
    intro h t f hno
    simp only at hno ⊢
    have hx' : ¬ (o.tag = t ∧ o.file = some f) := by
      rintro ⟨h1, h2⟩
      exact hno x r.1 (by simp) (by rw [he.tag]; exact h1) (by rw [he.file]; exact h2)
    rw [wrote_append, hwo, if_neg hx', List.append_nil, ← hj.rest h t f ?_]
    · cases hf : o.file with
      | none => rw [(he.none hf).1]
      | some g =>
        obtain ⟨got, h1, _⟩ := he.some g hf
        rw [h1]
        by_cases hg : f = g
        · subst hg
          rw [upd_same, received_append, received_single, if_neg (fun hc => hx' ⟨hc, hf⟩), List.append_nil]
        · rw [upd_ne _ _ hg]
    · intro y p hy hpt
      by_cases hyx : y = x
      · subst hyx
        rw [hx] at hy
        simp only [Option.some.injEq] at hy
        subst hy
        exact fun hc => hx' ⟨hpt, hc⟩
      · exact hno y p (by rw [upd_ne _ _ hyx]; exact hy) hpt

/-- Replacing an object by one with the same identity and blocks. -/
theorem J.set (hj : J cfg fl s) {x : Nat} {o o' : Obj} (hx : s.objs x = some o) (hb : ∀ k, blk o' k = blk o k) (ht : o'.tag = o.tag)
    (hc : (o'.file = o.file ∧ chars o' = chars o) ∨ (chars o' = [] ∧ (fl → o.file ≠ none → chars o = []))) :
    J cfg fl { s with objs := upd s.objs x (some o') } := by
  have hs : ∀ y k, slot (upd s.objs x (some o')) y k = slot s.objs y k := by
    intro y k
    rw [slot_upd]
    by_cases h : y = x
    · subst h; rw [if_pos rfl]; simp [slot, hx, hb]
    · rw [if_neg h]
  refine ⟨?_, ?_, hj.lt, ?_, ?_, ?_, hj.wLt, ?_, hj.log, hj.full, ?_, ?_⟩
  · simp only [hs]; exact hj.inj
  · simp only [hs]; exact hj.heap
  · intro y p hy
    rcases upd_some hy with ⟨rfl, rfl⟩ | ⟨_, h⟩
    · rcases hc with ⟨_, h⟩ | ⟨h, _⟩
      · rw [h]; exact hj.room y o hx
      · simp [h]
    · exact hj.room y p h
  · intro y y' p p' h1 h2 ht'
    rcases upd_some h1 with ⟨rfl, rfl⟩ | ⟨a1, a2⟩ <;> rcases upd_some h2 with ⟨rfl, rfl⟩ | ⟨b1, b2⟩
    · rfl
    · exact hj.tag _ _ _ _ hx b2 (by rw [← ht]; exact ht')
    · exact hj.tag _ _ _ _ a2 hx (by rw [← ht]; exact ht')
    · exact hj.tag _ _ _ _ a2 b2 ht'
  · intro y p hy
    rcases upd_some hy with ⟨rfl, rfl⟩ | ⟨_, h⟩
    · rw [ht]; exact hj.tagLt y o hx
    · exact hj.tagLt y p h
  · intro y p hy
    rcases upd_some hy with ⟨rfl, rfl⟩ | ⟨_, h⟩
    · rcases hc with ⟨h1, h2⟩ | ⟨h1, _⟩
      · rw [h1, h2, ht]; exact hj.sub y o hx
      · rw [h1]; exact List.nil_sublist _
    · exact hj.sub y p h
  · intro h y p f hy hpf
    rcases upd_some hy with ⟨rfl, rfl⟩ | ⟨_, hy'⟩
    · rcases hc with ⟨h1, h2⟩ | ⟨h1, h2⟩
      · rw [h2, ht]; exact hj.live h y o f hx (by rw [← h1]; exact hpf)
      · rw [h1, ht]
        by_cases hof : o.file = some f
        · have := hj.live h y o f hx hof
          rw [h2 h (by simp [hof])] at this
          exact this
        · rw [List.append_nil]
          refine hj.rest h o.tag f ?_
          intro y' p' hy'' ht'
          have := hj.tag _ _ _ _ hy'' hx ht'
          subst this
          rw [hx] at hy''
          simp only [Option.some.injEq] at hy''
          subst hy''
          exact hof
    · exact hj.live h y p f hy' hpf
  · intro h t f hno
    by_cases hof : o.tag = t ∧ o.file = some f
    · obtain ⟨rfl, h2⟩ := hof
      have hl := hj.live h x o f hx h2
      rcases hc with ⟨h3, h4⟩ | ⟨h3, h4⟩
      · exact absurd (by rw [h3]; exact h2) (hno x o' (by simp) ht)
      · rw [h4 h (by simp [h2]), List.append_nil] at hl
        exact hl
    · refine hj.rest h t f ?_
      intro y p hy hpt
      by_cases hyx : y = x
      · subst hyx
        rw [hx] at hy
        simp only [Option.some.injEq] at hy
        subst hy
        exact fun hc => hof ⟨hpt, hc⟩
      · exact hno y p (by simp only; rw [upd_ne _ _ hyx]; exact hy) hpt

/-- A new object without buffers. -/
theorem J.new (hj : J cfg fl s) {x : Nat} (hx : s.objs x = none) (f : Option Nat) :
    J cfg fl { s with objs := upd s.objs x (some { file := f, tag := s.nextTag }), nextTag := s.nextTag + 1 } := by
  have hs : ∀ y k, slot (upd s.objs x (some { file := f, tag := s.nextTag })) y k = slot s.objs y k := by
    intro y k
    rw [slot_upd]
    by_cases h : y = x
    · subst h; rw [if_pos rfl]; simp [slot, hx, blk]
    · rw [if_neg h]
  have hw : ∀ g, wrote s.nextTag g s.written = [] := fun g => wrote_none fun w hw => (hj.wLt w hw).ne
  have hr : ∀ g, received s.nextTag (s.files g) = [] := fun g => received_none fun p hp => (hj.log g p hp).2.ne
  refine ⟨?_, ?_, hj.lt, ?_, ?_, ?_, ?_, ?_, ?_, hj.full, ?_, ?_⟩
  · simp only [hs]; exact hj.inj
  · simp only [hs]; exact hj.heap
  · intro y p hy
    rcases upd_some hy with ⟨rfl, rfl⟩ | ⟨_, h⟩
    · simp [chars]
    · exact hj.room y p h
  · intro y y' p p' h1 h2 ht
    rcases upd_some h1 with ⟨rfl, rfl⟩ | ⟨a1, a2⟩ <;> rcases upd_some h2 with ⟨rfl, rfl⟩ | ⟨b1, b2⟩
    · rfl
    · exact absurd ht.symm (hj.tagLt _ _ b2).ne
    · exact absurd ht (hj.tagLt _ _ a2).ne
    · exact hj.tag _ _ _ _ a2 b2 ht
  · intro y p hy
    rcases upd_some hy with ⟨rfl, rfl⟩ | ⟨_, h⟩
    · exact Nat.lt_succ_self _
    · exact Nat.lt_succ_of_lt (hj.tagLt y p h)
  · intro w hw'; exact Nat.lt_succ_of_lt (hj.wLt w hw')
  · intro y p hy
    rcases upd_some hy with ⟨rfl, rfl⟩ | ⟨_, h⟩
    · exact List.nil_sublist _
    · exact hj.sub y p h
  · intro g p hp; exact ⟨(hj.log g p hp).1, Nat.lt_succ_of_lt (hj.log g p hp).2⟩
  · intro h y p g hy hpf
    rcases upd_some hy with ⟨rfl, rfl⟩ | ⟨_, hy'⟩
    · simp [chars, hw, hr]
    · exact hj.live h y p g hy' hpf
  · intro h t g hno
    by_cases ht : t = s.nextTag
    · subst ht; simp [hw, hr]
    · refine hj.rest h t g ?_
      intro y p hy hpt
      have hyx : y ≠ x := by rintro rfl; rw [hx] at hy; cases hy
      exact hno y p (by simp only; rw [upd_ne _ _ hyx]; exact hy) hpt

/-- Destroying an object without buffers. -/
theorem J.del (hj : J cfg fl s) {x : Nat} {o : Obj} (hx : s.objs x = some o) (h1 : o.ob = none) (h2 : o.ib = none) :
    J cfg fl { s with objs := upd s.objs x none } := by
  have hs : ∀ y k, slot (upd s.objs x none) y k = slot s.objs y k := by
    intro y k
    rw [slot_upd]
    by_cases h : y = x
    · subst h; rw [if_pos rfl]; cases k <;> simp [slot, hx, blk, h1, h2]
    · rw [if_neg h]
  have hu : ∀ y p, upd s.objs x none y = some p → s.objs y = some p := by
    intro y p hy
    by_cases h : y = x
    · subst h; simp at hy
    · rw [upd_ne _ _ h] at hy; exact hy
  refine ⟨?_, ?_, hj.lt, fun y p hy => hj.room y p (hu y p hy), fun y y' p p' a b => hj.tag y y' p p' (hu y p a) (hu y' p' b),
    fun y p hy => hj.tagLt y p (hu y p hy), hj.wLt, fun y p hy => hj.sub y p (hu y p hy), hj.log, hj.full,
    fun h y p f hy => hj.live h y p f (hu y p hy), ?_⟩
  · simp only [hs]; exact hj.inj
  · simp only [hs]; exact hj.heap
  · intro h t f hno
    by_cases hof : o.tag = t ∧ o.file = some f
    · obtain ⟨rfl, h3⟩ := hof
      have := hj.live h x o f hx h3
      simpa [chars, h1] using this
    · refine hj.rest h t f ?_
      intro y p hy hpt
      by_cases hyx : y = x
      · subst hyx
        rw [hx] at hy
        simp only [Option.some.injEq] at hy
        subst hy
        exact fun hc => hof ⟨hpt, hc⟩
      · exact hno y p (by simp only; rw [upd_ne _ _ hyx]; exact hy) hpt

/-- Swapping two objects. -/
theorem J.swap (hj : J cfg fl s) {x y : Nat} {o p : Obj} (hx : s.objs x = some o) (hy : s.objs y = some p) :
    J cfg fl { s with objs := upd (upd s.objs x (some p)) y (some o) } := by
  let e : Nat ≃ Nat := Equiv.swap x y
  have ho : upd (upd s.objs x (some p)) y (some o) = fun z => s.objs (e z) := by
    funext z
    by_cases h1 : z = y
    · subst h1; simp [e, hx]
    · rw [upd_ne _ _ h1]
      by_cases h2 : z = x
      · subst h2; simp [e, hy]
      · rw [upd_ne _ _ h2, show e z = z from Equiv.swap_apply_of_ne_of_ne h2 h1]
  rw [ho]
  have hs : ∀ z k, slot (fun z => s.objs (e z)) z k = slot s.objs (e z) k := fun _ _ => rfl
  refine ⟨?_, ?_, hj.lt, fun z q hz => hj.room (e z) q hz, ?_, fun z q hz => hj.tagLt (e z) q hz, hj.wLt, fun z q hz => hj.sub (e z) q hz, hj.log, hj.full,
    fun h z q f hz => hj.live h (e z) q f hz, ?_⟩
  · intro z k z' k' b h1 h2
    obtain ⟨h3, h4⟩ := hj.inj _ _ _ _ _ h1 h2
    exact ⟨e.injective h3, h4⟩
  · intro b n
    rw [hj.heap b n]
    refine and_congr_right fun _ => ⟨?_, ?_⟩
    · rintro ⟨z, k, h⟩; exact ⟨e.symm z, k, by rw [hs]; simpa using h⟩
    · rintro ⟨z, k, h⟩; exact ⟨e z, k, h⟩
  · intro z z' q q' h1 h2 ht; exact e.injective (hj.tag _ _ _ _ h1 h2 ht)
  · intro h t f hno
    refine hj.rest h t f ?_
    intro z q hz hq
    exact hno (e.symm z) q (by simpa using hz) hq

/-- Allocating the input buffer. -/
theorem J.allocIn (hj : J cfg fl s) {x : Nat} {o : Obj} (hx : s.objs x = some o) (hi : o.ib = none) (l : List Nat) :
    J cfg fl { (alloc cfg s).2 with objs := upd s.objs x (some { o with ib := some ((alloc cfg s).1, l) }) } := by
  have hold : ∀ y k b, slot s.objs y k = some b → b ≠ s.next := by
    intro y k b h' hc
    have := hj.lt b (by rw [(hj.heap b cfg.bfs).2 ⟨rfl, y, k, h'⟩]; simp)
    omega
  have hs : ∀ y k, slot (upd s.objs x (some { o with ib := some (s.next, l) })) y k = if y = x ∧ k = true then some s.next else slot s.objs y k := by
    intro y k
    rw [slot_upd]
    by_cases h : y = x
    · subst h; cases k <;> simp [slot, hx, blk]
    · simp [h]
  have hsn : slot s.objs x true = none := by simp [slot, hx, blk, hi]
  refine ⟨?_, ?_, ?_, ?_, ?_, ?_, hj.wLt, ?_, hj.log, hj.full, ?_, ?_⟩
  · intro y k y' k' b h1 h2
    simp only [alloc] at h1 h2
    rw [hs] at h1 h2
    by_cases c1 : y = x ∧ k = true <;> by_cases c2 : y' = x ∧ k' = true
    · exact ⟨c1.1.trans c2.1.symm, c1.2.trans c2.2.symm⟩
    · rw [if_pos c1, Option.some.injEq] at h1; rw [if_neg c2] at h2; exact absurd h1.symm (hold _ _ _ h2)
    · rw [if_neg c1] at h1; rw [if_pos c2, Option.some.injEq] at h2; exact absurd h2.symm (hold _ _ _ h1)
    · rw [if_neg c1] at h1; rw [if_neg c2] at h2; exact hj.inj _ _ _ _ _ h1 h2
  · intro b n
    simp only [alloc]
    by_cases hb : b = s.next
    · subst hb
      simp only [upd_same, Option.some.injEq]
      constructor
      · rintro rfl; exact ⟨rfl, x, true, by rw [hs, if_pos ⟨rfl, rfl⟩]⟩
      · rintro ⟨rfl, _⟩; rfl
    · rw [upd_ne _ _ hb, hj.heap b n]
      refine and_congr_right fun _ => ⟨?_, ?_⟩
      · rintro ⟨y, k, h⟩
        refine ⟨y, k, ?_⟩
        rw [hs, if_neg]; exact h
        rintro ⟨rfl, rfl⟩; rw [hsn] at h; cases h
      · rintro ⟨y, k, h⟩
        rw [hs] at h
        by_cases c : y = x ∧ k = true
        · rw [if_pos c, Option.some.injEq] at h; exact absurd h.symm hb
        · rw [if_neg c] at h; exact ⟨y, k, h⟩
  · intro b hb
    simp only [alloc] at hb ⊢
    by_cases h : b = s.next
    · omega
    · rw [upd_ne _ _ h] at hb; have := hj.lt b hb; omega
  · intro y p hy
    rcases upd_some hy with ⟨rfl, rfl⟩ | ⟨_, h⟩
    · exact hj.room y o hx
    · exact hj.room y p h
  · intro y y' p p' h1 h2 ht'
    rcases upd_some h1 with ⟨rfl, rfl⟩ | ⟨a1, a2⟩ <;> rcases upd_some h2 with ⟨rfl, rfl⟩ | ⟨b1, b2⟩
    · rfl
    · exact hj.tag _ _ _ _ hx b2 ht'
    · exact hj.tag _ _ _ _ a2 hx ht'
    · exact hj.tag _ _ _ _ a2 b2 ht'
  · intro y p hy
    rcases upd_some hy with ⟨rfl, rfl⟩ | ⟨_, h⟩
    · exact hj.tagLt y o hx
    · exact hj.tagLt y p h
  · intro y p hy
    rcases upd_some hy with ⟨rfl, rfl⟩ | ⟨_, h⟩
    · exact hj.sub y o hx
    · exact hj.sub y p h
  · intro h y p f hy hpf
    rcases upd_some hy with ⟨rfl, rfl⟩ | ⟨_, hy'⟩
    · exact hj.live h y o f hx hpf
    · exact hj.live h y p f hy' hpf
  · intro h t f hno
    refine hj.rest h t f ?_
    intro y p hy hpt
    by_cases hyx : y = x
    · subst hyx
      rw [hx] at hy
      simp only [Option.some.injEq] at hy
      subst hy
      exact hno y { o with ib := some (s.next, l) } (by simp [alloc]) hpt
    · exact hno y p (by simp only; rw [upd_ne _ _ hyx]; exact hy) hpt

/-- Freeing one buffer of an object. -/
theorem J.free (hj : J cfg fl s) {x : Nat} {o o' : Obj} (hx : s.objs x = some o) {k : Bool} {b : Nat} (hb : blk o k = some b)
    (hk : blk o' k = none) (hk' : blk o' (!k) = blk o (!k)) (ht : o'.tag = o.tag) (hf : o'.file = o.file) (hc : chars o' = chars o) :
    s.heap b = some cfg.bfs ∧ J cfg fl { s with heap := upd s.heap b none, objs := upd s.objs x (some o') } := by
  have hsb : slot s.objs x k = some b := by simp [slot, hx, hb]
  have hs : ∀ y j, slot (upd s.objs x (some o')) y j = if y = x ∧ j = k then none else slot s.objs y j := by
    intro y j
    rw [slot_upd]
    by_cases h : y = x
    · subst h
      by_cases hjk : j = k
      · subst hjk; simp [hk]
      · have : j = !k := by cases j <;> cases k <;> simp_all
        subst this
        simp [slot, hx, hk']
    · simp [h]
  refine ⟨(hj.heap b cfg.bfs).2 ⟨rfl, x, k, hsb⟩, ?_, ?_, ?_, ?_, ?_, ?_, hj.wLt, ?_, hj.log, hj.full, ?_, ?_⟩
  · intro y j y' j' c h1 h2
    simp only at h1 h2
    rw [hs] at h1 h2
    by_cases c1 : y = x ∧ j = k
    · rw [if_pos c1] at h1; cases h1
    · by_cases c2 : y' = x ∧ j' = k
      · rw [if_pos c2] at h2; cases h2
      · rw [if_neg c1] at h1; rw [if_neg c2] at h2; exact hj.inj _ _ _ _ _ h1 h2
  · intro c n
    simp only
    by_cases hcb : c = b
    · subst hcb
      simp only [upd_same]
      constructor
      · rintro ⟨⟩
      · rintro ⟨_, y, j, h⟩
        rw [hs] at h
        by_cases c1 : y = x ∧ j = k
        · rw [if_pos c1] at h; cases h
        · rw [if_neg c1] at h; exact absurd (hj.inj _ _ _ _ _ h hsb) c1
    · rw [upd_ne _ _ hcb, hj.heap c n]
      refine and_congr_right fun _ => ⟨?_, ?_⟩
      · rintro ⟨y, j, h⟩
        refine ⟨y, j, ?_⟩
        rw [hs, if_neg]; exact h
        rintro ⟨rfl, rfl⟩; rw [hsb, Option.some.injEq] at h; exact hcb h.symm
      · rintro ⟨y, j, h⟩
        rw [hs] at h
        by_cases c1 : y = x ∧ j = k
        · rw [if_pos c1] at h; cases h
        · rw [if_neg c1] at h; exact ⟨y, j, h⟩
  · intro c hc'
    simp only at hc' ⊢
    by_cases h : c = b
    · subst h; simp at hc'
    · rw [upd_ne _ _ h] at hc'; exact hj.lt c hc'
  · intro y p hy
    rcases upd_some hy with ⟨rfl, rfl⟩ | ⟨_, h⟩
    · rw [hc]; exact hj.room y o hx
    · exact hj.room y p h
  · intro y y' p p' h1 h2 ht'
    rcases upd_some h1 with ⟨rfl, rfl⟩ | ⟨a1, a2⟩ <;> rcases upd_some h2 with ⟨rfl, rfl⟩ | ⟨b1, b2⟩
    · rfl
    · exact hj.tag _ _ _ _ hx b2 (by rw [← ht]; exact ht')
    · exact hj.tag _ _ _ _ a2 hx (by rw [← ht]; exact ht')
    · exact hj.tag _ _ _ _ a2 b2 ht'
  · intro y p hy
    rcases upd_some hy with ⟨rfl, rfl⟩ | ⟨_, h⟩
    · rw [ht]; exact hj.tagLt y o hx
    · exact hj.tagLt y p h
  · intro y p hy
    rcases upd_some hy with ⟨rfl, rfl⟩ | ⟨_, h⟩
    · rw [ht, hf, hc]; exact hj.sub y o hx
    · exact hj.sub y p h
  · intro h y p f hy hpf
    rcases upd_some hy with ⟨rfl, rfl⟩ | ⟨_, hy'⟩
    · rw [hc, ht]; exact hj.live h y o f hx (by rw [← hf]; exact hpf)
    · exact hj.live h y p f hy' hpf
  · intro h t f hno
    refine hj.rest h t f ?_
    intro y p hy hpt
    by_cases hyx : y = x
    · subst hyx
      rw [hx] at hy
      simp only [Option.some.injEq] at hy
      subst hy
      rw [← hf]
      exact hno y o' (by simp) (by rw [ht]; exact hpt)
    · exact hno y p (by simp only; rw [upd_ne _ _ hyx]; exact hy) hpt

end

end Verif.BufObj
