import Verif.Deco.Lemmas
/-!
# Converting output streams
-/
namespace Verif.Deco
open Verif Verif.Utf Verif.IoBuf

/-- A device that never takes a part of the data only without reporting it. -/
def NoShort (script : List Answer) : Prop := ∀ a ∈ script, a = .full ∨ ∃ k, a = .fail k

/-- A device that takes everything. -/
def AllFull (script : List Answer) : Prop := ∀ a ∈ script, a = .full

/-- `q` is the state after an attempt to convert and send `bs`. -/
structure Sent {σ : Type} (R : σ → List Nat → List Nat → Prop) (g0 h bs : List Nat) (s : OSt σ) (q : OSt σ × IoBuf.Out) : Prop where
  buf : q.1.buf = s.buf
  script : ∀ a ∈ q.1.dev.script, a ∈ s.dev.script
  good : q.2 = .ok → ∃ out, R q.1.deco (h ++ bs) out ∧ q.1.dev.got = g0 ++ out
  bad : ∃ h' out, h' <+: h ++ bs ∧ R q.1.deco h' out ∧ q.1.dev.got <+: g0 ++ out
  full : AllFull s.dev.script → q.2 = .ok

theorem devWrite_spec (d : Dev) (l : List Nat) (hs : NoShort d.script) :
    (∀ a ∈ (devWrite d l).1.script, a ∈ d.script) ∧ ((devWrite d l).2 = .ok → (devWrite d l).1.got = d.got ++ l) ∧
    (devWrite d l).1.got <+: d.got ++ l ∧ (AllFull d.script → (devWrite d l).2 = .ok) := by
  unfold devWrite
  split
  · rename_i h; simp [h]
  · rename_i t h; refine ⟨fun a ha => by rw [h]; exact List.mem_cons_of_mem _ ha, ?_⟩; simp
  · rename_i k t h
    rcases hs (.short k) (by rw [h]; simp) with h1 | ⟨k, h1⟩ <;> simp at h1
  · rename_i k t h
    refine ⟨fun a ha => by rw [h]; exact List.mem_cons_of_mem _ ha, by simp, ?_, ?_⟩
    · simpa using List.take_prefix k l
    · intro hf; have := hf (.fail k) (by rw [h]; simp); simp at this

variable {σ : Type} {D : Deco σ} {bfs : Nat} {ok : List Nat → Prop} {R : σ → List Nat → List Nat → Prop}

theorem writeLoop_spec (L : Lawful D bfs ok R) (hb : 1 ≤ bfs) {cap : Nat} (hc : D.size bfs = some cap) : ∀ (fuel : Nat) (bs : List Nat), bs.length ≤ fuel →
    ∀ (s : OSt σ) (g0 h out : List Nat), NoShort s.dev.script → R s.deco h out → s.dev.got = g0 ++ out → ok (h ++ bs) →
    ∃ q, writeLoop D bfs cap fuel s bs = some q ∧ q.1.ext = s.ext ∧ Sent R g0 h bs s q
  | fuel, [], _, s, g0, h, out, _, hr, hg, _ => by
    refine ⟨(s, .ok), by unfold writeLoop; rfl, rfl, rfl, fun _ h => h, fun _ => ⟨out, by simpa using hr, hg⟩,
      ⟨h, out, by simp, hr, by rw [hg]; exact List.prefix_rfl⟩, fun _ => rfl⟩
  | 0, b :: bs, hf, _, _, _, _, _, _, _, _ => by simp at hf
  | fuel + 1, b :: bs, hf, s, g0, h, out, hs, hr, hg, hok => by
    have hk : (if (b :: bs).length < bfs then (b :: bs).length else bfs) = min bfs (b :: bs).length := by
      split_ifs <;> omega
    obtain ⟨k, hk'⟩ : ∃ k, k = min bfs (b :: bs).length := ⟨_, rfl⟩
    have hk1 : 1 ≤ k ∧ k ≤ bfs ∧ k ≤ (b :: bs).length := by simp only [List.length_cons] at *; omega
    have hsplit : (b :: bs).take k ++ (b :: bs).drop k = b :: bs := List.take_append_drop _ _
    have hlen : ((b :: bs).take k).length = k := by rw [List.length_take]; omega
    have hok1 : ok (h ++ (b :: bs).take k) := L.left _ ((b :: bs).drop k) (by rw [List.append_assoc, hsplit]; exact hok)
    obtain ⟨st', o, e1, e2, e3, _⟩ := L.step s.deco h out _ hr hok1 (by omega)
    have hcap := e3 bfs cap (by omega) hc
    obtain ⟨w1, w2, w3, w4⟩ := devWrite_spec s.dev o hs
    have hstep : writeLoop D bfs cap (fuel + 1) s (b :: bs) =
        if (devWrite s.dev o).2 = .ok then writeLoop D bfs cap fuel { s with deco := st', dev := (devWrite s.dev o).1 } ((b :: bs).drop k)
        else some ({ s with deco := st', dev := (devWrite s.dev o).1 }, (devWrite s.dev o).2) := by
      rw [writeLoop]
      · rw [hk, ← hk']
        simp only [e1, Option.bind_some]
        rw [if_neg (by omega)]
      · simp
    rw [hstep]
    by_cases hw : (devWrite s.dev o).2 = .ok
    · rw [if_pos hw]
      have hdl : ((b :: bs).drop k).length ≤ fuel := by rw [List.length_drop]; omega
      obtain ⟨q, f1, f2, f3⟩ := writeLoop_spec L hb hc fuel ((b :: bs).drop k) hdl
        { s with deco := st', dev := (devWrite s.dev o).1 } g0 (h ++ (b :: bs).take k) (out ++ o) (fun a ha => hs a (w1 a ha)) e2
        (by change (devWrite s.dev o).1.got = _; rw [w2 hw, hg, List.append_assoc]) (by rw [List.append_assoc, hsplit]; exact hok)
      have e : h ++ (b :: bs).take k ++ (b :: bs).drop k = h ++ (b :: bs) := by rw [List.append_assoc, hsplit]
      refine ⟨q, f1, f2, f3.buf, fun a ha => w1 a (f3.script a ha), fun hq => ?_, ?_, fun hfu => f3.full (fun a ha => hfu a (w1 a ha))⟩
      · rw [← e]; exact f3.good hq
      · rw [← e]; exact f3.bad
    · rw [if_neg hw]
      refine ⟨_, rfl, rfl, rfl, w1, fun h => absurd h hw, ?_, fun hfu => absurd (w4 hfu) hw⟩
      refine ⟨h ++ (b :: bs).take k, out ++ o, ?_, e2, ?_⟩
      · exact (List.prefix_append_right_inj _).2 (List.take_prefix _ _)
      · rw [← List.append_assoc, ← hg]; exact w3

theorem writeDeco_spec (L : Lawful D bfs ok R) (hb : 1 ≤ bfs) (bs : List Nat) (s : OSt σ) (g0 h out : List Nat) (hs : NoShort s.dev.script)
    (he : ∀ cap, s.ext = some cap → D.size bfs = some cap) (hr : R s.deco h out) (hg : s.dev.got = g0 ++ out) (hok : ok (h ++ bs)) :
    ∃ q, writeDeco D bfs s bs = some q ∧ (∀ cap, q.1.ext = some cap → D.size bfs = some cap) ∧ Sent R g0 h bs s q := by
  unfold writeDeco
  cases hx : s.ext with
  | some cap =>
    obtain ⟨q, f1, f2, f3⟩ := writeLoop_spec L hb (he cap hx) bs.length bs (le_refl _) s g0 h out hs hr hg hok
    exact ⟨q, f1, by rw [f2]; exact he, f3⟩
  | none =>
    obtain ⟨cap, hc⟩ := L.size bfs (le_refl _)
    obtain ⟨q, f1, f2, f3⟩ := writeLoop_spec L hb hc bs.length bs (le_refl _) { s with ext := some cap } g0 h out hs hr hg hok
    refine ⟨q, by simp only [hc, Option.bind_some]; exact f1, ?_, f3.buf, f3.script, f3.good, f3.bad, f3.full⟩
    intro c h; rw [f2] at h; simp at h; rw [← h]; exact hc

/-- The stream after the program has written `w` without an exception. -/
structure Inv (D : Deco σ) (bfs : Nat) (R : σ → List Nat → List Nat → Prop) (direct : Bool) (g0 w : List Nat) (s : OSt σ) : Prop where
  ext : ∀ cap, s.ext = some cap → D.size bfs = some cap
  len : ∀ l, s.buf = some l → l.length ≤ bfs
  dir : direct = true → s.buf = none
  main : ∃ h out, R s.deco h out ∧ s.dev.got = g0 ++ out ∧ w = h ++ s.buf.getD []

/-- What one operation that writes `bs` does. -/
structure Step (D : Deco σ) (bfs : Nat) (R : σ → List Nat → List Nat → Prop) (direct : Bool) (g0 w bs : List Nat) (s : OSt σ) (q : OSt σ × IoBuf.Out) : Prop where
  script : ∀ a ∈ q.1.dev.script, a ∈ s.dev.script
  good : q.2 = .ok → Inv D bfs R direct g0 (w ++ bs) q.1
  bad : ∃ h out, h <+: w ++ bs ∧ R q.1.deco h out ∧ q.1.dev.got <+: g0 ++ out
  full : AllFull s.dev.script → q.2 = .ok

theorem quiet {direct : Bool} {g0 w bs : List Nat} {s s' : OSt σ} (hi : Inv D bfs R direct g0 w s) (hd : s'.dev = s.dev) (hx : s'.ext = s.ext)
    (hc : s'.deco = s.deco) (hl : ∀ l, s'.buf = some l → l.length ≤ bfs) (hdir : direct = true → s'.buf = none)
    (hb : s'.buf.getD [] = s.buf.getD [] ++ bs) : Step D bfs R direct g0 w bs s (s', .ok) := by
  obtain ⟨h, out, hr, hg, hw⟩ := hi.main
  refine ⟨fun a ha => by rw [← hd]; exact ha, fun _ => ⟨by rw [hx]; exact hi.ext, hl, hdir, h, out, by rw [hc]; exact hr, by rw [hd]; exact hg, ?_⟩, ?_,
    fun _ => rfl⟩
  · rw [hw, hb, List.append_assoc]
  · refine ⟨h, out, ?_, by rw [hc]; exact hr, by change s'.dev.got <+: _; rw [hd, hg]; exact List.prefix_rfl⟩
    rw [hw, List.append_assoc]; exact List.prefix_append _ _

theorem keep_ok {s : OSt σ} {l : List Nat} (h : l.length ≤ bfs) : keep bfs s l = some ({ s with buf := some l }, .ok) := if_pos h

theorem noalloc_spec (L : Lawful D bfs ok R) (hb : 1 ≤ bfs) {g0 w : List Nat} {s : OSt σ} (hi : Inv D bfs R false g0 w s) (l bs : List Nat)
    (hl : s.buf = some l) (hlong : bfs - l.length < bs.length) (hs : NoShort s.dev.script) (hok : ok (w ++ bs)) :
    ∃ q, unhappyNoAlloc D bfs s l bs = some q ∧ Step D bfs R false g0 w bs s q := by
  obtain ⟨h, out, hr, hg, hw⟩ := hi.main
  rw [hl, Option.getD_some] at hw
  have hll := hi.len l hl
  have hsplit : bs.take (bfs - l.length) ++ bs.drop (bfs - l.length) = bs := List.take_append_drop _ _
  have e0 : h ++ (l ++ bs.take (bfs - l.length)) ++ bs.drop (bfs - l.length) = w ++ bs := by
    conv_rhs => rw [← hsplit, hw]
    simp
  have hok1 : ok (h ++ (l ++ bs.take (bfs - l.length))) := L.left _ (bs.drop (bfs - l.length)) (by rw [e0]; exact hok)
  obtain ⟨q, f1, f2, f3⟩ := writeDeco_spec L hb _ s g0 h out hs hi.ext hr hg hok1
  have hpre : h ++ (l ++ bs.take (bfs - l.length)) <+: w ++ bs := by rw [← e0]; exact List.prefix_append _ _
  unfold unhappyNoAlloc
  simp only [f1, Option.bind_some]
  by_cases hq : q.2 = .ok
  · rw [if_pos hq]
    obtain ⟨out', r1, r2⟩ := f3.good hq
    by_cases hlen : bfs < (bs.drop (bfs - l.length)).length
    · rw [if_pos hlen]
      obtain ⟨q2, g1, g2, g3⟩ := writeDeco_spec L hb (bs.drop (bfs - l.length)) { q.1 with buf := some [] } g0 _ out'
        (fun a ha => hs a (f3.script a ha)) f2 r1 r2 (by rw [e0]; exact hok)
      refine ⟨q2, g1, fun a ha => f3.script a (g3.script a ha), fun hq2 => ⟨g2, fun l' hl' => ?_, by simp, ?_⟩, ?_, fun hf => g3.full (fun a ha => hf a (f3.script a ha))⟩
      · rw [g3.buf] at hl'; simp at hl'; subst hl'; simp
      · obtain ⟨out2, t1, t2⟩ := g3.good hq2
        refine ⟨_, out2, t1, t2, ?_⟩
        rw [e0, g3.buf]; simp
      · rw [← e0]; exact g3.bad
    · rw [if_neg hlen, keep_ok (by rw [List.length_drop] at hlen ⊢; omega)]
      refine ⟨_, rfl, f3.script, fun _ => ⟨f2, ?_, by simp, ?_⟩, ?_, fun _ => rfl⟩
      · intro l' hl'
        simp at hl'
        subst hl'
        rw [List.length_drop] at hlen ⊢; omega
      · exact ⟨_, out', r1, r2, by rw [Option.getD_some, e0]⟩
      · exact ⟨_, out', hpre, r1, by change q.1.dev.got <+: _; rw [r2]; exact List.prefix_rfl⟩
  · rw [if_neg hq]
    refine ⟨q, rfl, f3.script, fun h => absurd h hq, ?_, fun hf => absurd (f3.full hf) hq⟩
    obtain ⟨h', out', p1, p2, p3⟩ := f3.bad
    exact ⟨h', out', p1.trans hpre, p2, p3⟩

theorem flush_spec (L : Lawful D bfs ok R) (hb : 1 ≤ bfs) {g0 w : List Nat} {s : OSt σ} (hi : Inv D bfs R false g0 w s) (hs : NoShort s.dev.script) (hok : ok w) :
    ∃ q, flush D bfs s = some q ∧ Step D bfs R false g0 w [] s q ∧ (q.2 = .ok → q.1.buf.getD [] = [] ∧ (s.buf ≠ none → q.1.buf = some [])) := by
  obtain ⟨h, out, hr, hg, hw⟩ := hi.main
  unfold flush
  have hq := quiet (s' := s) (bs := []) hi rfl rfl rfl hi.len hi.dir (by simp)
  split
  · rename_i h0; exact ⟨_, rfl, hq, fun _ => by simp [h0]⟩
  · rename_i h0; exact ⟨_, rfl, hq, fun _ => by simp [h0]⟩
  · rename_i l h0 hl
    rw [hl, Option.getD_some] at hw
    obtain ⟨q, f1, f2, f3⟩ := writeDeco_spec L hb l s g0 h out hs hi.ext hr hg (by rw [← hw]; exact hok)
    rw [f1, Option.map_some]
    by_cases hq : q.2 = .ok
    · rw [if_pos hq]
      refine ⟨_, rfl, ⟨f3.script, fun _ => ⟨f2, by simp, by simp, ?_⟩, ?_, fun _ => rfl⟩, fun _ => ⟨rfl, fun _ => rfl⟩⟩
      · obtain ⟨out', r1, r2⟩ := f3.good hq
        exact ⟨_, out', r1, r2, by simp [hw]⟩
      · rw [List.append_nil, hw]; exact f3.bad
    · rw [if_neg hq]
      refine ⟨_, rfl, ⟨f3.script, fun h => absurd h hq, ?_, fun hf => absurd (f3.full hf) hq⟩, fun h => absurd h hq⟩
      rw [List.append_nil, hw]; exact f3.bad

theorem write_spec (L : Lawful D bfs ok R) (hb : 1 ≤ bfs) {direct : Bool} {g0 w : List Nat} {s : OSt σ} (hi : Inv D bfs R direct g0 w s) (bs : List Nat)
    (hs : NoShort s.dev.script) (hok : ok (w ++ bs)) :
    ∃ q, write D bfs direct s bs = some q ∧ Step D bfs R direct g0 w bs s q := by
  obtain ⟨h, out, hr, hg, hw⟩ := hi.main
  unfold write
  cases direct with
  | true =>
    rw [if_pos rfl]
    have hn := hi.dir rfl
    rw [hn] at hw
    simp only [Option.getD_none, List.append_nil] at hw
    subst hw
    obtain ⟨q, f1, f2, f3⟩ := writeDeco_spec L hb bs s g0 w out hs hi.ext hr hg hok
    refine ⟨q, f1, f3.script, fun hq => ⟨f2, ?_, ?_, ?_⟩, f3.bad, f3.full⟩
    · intro l hl; rw [f3.buf, hn] at hl; simp at hl
    · intro _; rw [f3.buf, hn]
    · obtain ⟨out', r1, r2⟩ := f3.good hq
      exact ⟨_, out', r1, r2, by rw [f3.buf, hn]; simp⟩
  | false =>
    rw [if_neg (by simp)]
    by_cases hroom : room bfs s < bs.length
    · rw [if_pos hroom]
      unfold unhappy
      cases hx : s.buf with
      | none =>
        rw [hx] at hw
        simp only [Option.getD_none, List.append_nil] at hw
        subst hw
        by_cases hlen : bs.length < bfs
        · simp only [if_pos hlen]
          rw [keep_ok (by omega)]
          refine ⟨_, rfl, quiet hi rfl rfl rfl ?_ (by simp) (by simp [hx])⟩
          intro l hl; simp at hl; subst hl; omega
        · simp only [if_neg hlen]
          obtain ⟨q, f1, f2, f3⟩ := writeDeco_spec L hb bs s g0 w out hs hi.ext hr hg hok
          refine ⟨q, f1, f3.script, fun hq => ⟨f2, ?_, by simp, ?_⟩, f3.bad, f3.full⟩
          · intro l hl; rw [f3.buf, hx] at hl; simp at hl
          · obtain ⟨out', r1, r2⟩ := f3.good hq
            exact ⟨_, out', r1, r2, by rw [f3.buf, hx]; simp⟩
      | some l =>
        refine noalloc_spec L hb hi l bs hx ?_ hs hok
        simpa [room, hx] using hroom
    · rw [if_neg hroom]
      cases hx : s.buf with
      | none =>
        have : bs = [] := by
          have : bs.length ≤ room bfs s := by omega
          simpa [room, hx] using this
        subst this
        exact ⟨_, rfl, quiet hi rfl rfl rfl hi.len (by simp) (by simp)⟩
      | some l =>
        have h1 := hi.len l hx
        have h2 : bs.length ≤ bfs - l.length := by simpa [room, hx] using hroom
        have h3 : (l ++ bs).length ≤ bfs := by rw [List.length_append]; omega
        simp only
        rw [keep_ok h3]
        refine ⟨_, rfl, quiet hi rfl rfl rfl ?_ (by simp) (by simp [hx])⟩
        intro l' hl'
        simp at hl'
        subst hl'
        exact h3

theorem put_spec (L : Lawful D bfs ok R) (hb : 1 ≤ bfs) {g0 w : List Nat} {s : OSt σ} (hi : Inv D bfs R false g0 w s) (c : Nat)
    (hs : NoShort s.dev.script) (hok : ok (w ++ [c])) :
    ∃ q, put D bfs s c = some q ∧ Step D bfs R false g0 w [c] s q := by
  unfold put
  by_cases hroom : room bfs s = 0
  · rw [if_pos hroom]
    cases hx : s.buf with
    | none =>
      simp only
      rw [keep_ok (by simpa using hb)]
      refine ⟨_, rfl, quiet hi rfl rfl rfl ?_ (by simp) (by simp [hx])⟩
      intro l hl; simp at hl; subst hl; simpa using hb
    | some l =>
      simp only
      obtain ⟨q, f1, f2, f3⟩ := flush_spec L hb hi hs (L.left _ _ hok)
      rw [f1, Option.bind_some]
      by_cases hq : q.2 = .ok
      · rw [if_pos hq]
        have hbuf : q.1.buf = some [] := (f3 hq).2 (by simp [hx])
        rw [hbuf]
        simp only [List.nil_append]
        rw [keep_ok (by simpa using hb)]
        have hi2 := f2.good hq
        have := quiet (bs := [c]) (s' := { q.1 with buf := some [c] }) hi2 rfl rfl rfl (by intro l hl; simp at hl; subst hl; simpa using hb) (by simp) (by simp [hbuf])
        rw [List.append_nil] at this
        exact ⟨_, rfl, fun a ha => f2.script a (this.script a ha), this.good, this.bad, fun _ => rfl⟩
      · rw [if_neg hq]
        refine ⟨_, rfl, f2.script, fun h => absurd h hq, ?_, fun hf => absurd (f2.full hf) hq⟩
        obtain ⟨h', out', p1, p2, p3⟩ := f2.bad
        rw [List.append_nil] at p1
        exact ⟨h', out', p1.trans (List.prefix_append _ _), p2, p3⟩
  · rw [if_neg hroom]
    cases hx : s.buf with
    | none => simp [room, hx] at hroom
    | some l =>
      have h2 : bfs - l.length ≠ 0 := by simpa [room, hx] using hroom
      have h3 : (l ++ [c]).length ≤ bfs := by rw [List.length_append]; simp; omega
      simp only
      rw [keep_ok h3]
      refine ⟨_, rfl, quiet hi rfl rfl rfl ?_ (by simp) (by simp [hx])⟩
      intro l' hl'
      simp at hl'
      subst hl'
      exact h3

/-- The characters an operation writes. -/
def OOp.text : OOp → List Nat
  | .write bs => bs
  | .put c => [c]

/-- The characters a program writes. -/
def written (ops : List OOp) : List Nat := ops.flatMap OOp.text

theorem ostep_spec (L : Lawful D bfs ok R) (hb : 1 ≤ bfs) {direct : Bool} {g0 w : List Nat} {s : OSt σ} (hi : Inv D bfs R direct g0 w s) (op : OOp)
    (hs : NoShort s.dev.script) (hok : ok (w ++ op.text)) :
    ∃ q, ostep D bfs direct s op = some q ∧ Step D bfs R direct g0 w op.text s q := by
  cases op with
  | write bs => exact write_spec L hb hi bs hs hok
  | put c =>
    cases direct with
    | true => exact write_spec L hb hi [c] hs hok
    | false => exact put_spec L hb hi c hs hok

theorem orun_spec (L : Lawful D bfs ok R) (hb : 1 ≤ bfs) {direct : Bool} {g0 : List Nat} : ∀ (ops : List OOp) {w : List Nat} {s : OSt σ},
    Inv D bfs R direct g0 w s → NoShort s.dev.script → ok (w ++ written ops) →
    ∃ q, orun D bfs direct s ops = some q ∧ Step D bfs R direct g0 w (written ops) s q
  | [], w, s, hi, hs, hok => ⟨_, rfl, quiet hi rfl rfl rfl hi.len hi.dir (by simp [written])⟩
  | op :: ops, w, s, hi, hs, hok => by
    have e : written (op :: ops) = op.text ++ written ops := by simp [written]
    rw [e, ← List.append_assoc] at hok
    obtain ⟨q, f1, f2⟩ := ostep_spec L hb hi op hs (L.left _ _ hok)
    rw [orun, f1, Option.bind_some, e]
    by_cases hq : q.2 = .ok
    · rw [if_pos hq]
      obtain ⟨q2, g1, g2⟩ := orun_spec L hb ops (f2.good hq) (fun a ha => hs a (f2.script a ha)) hok
      refine ⟨q2, g1, fun a ha => f2.script a (g2.script a ha), ?_, ?_, fun hf => g2.full (fun a ha => hf a (f2.script a ha))⟩
      · rw [← List.append_assoc]; exact g2.good
      · rw [← List.append_assoc]; exact g2.bad
    · rw [if_neg hq]
      refine ⟨q, rfl, f2.script, fun h => absurd h hq, ?_, fun hf => absurd (f2.full hf) hq⟩
      obtain ⟨h', out', p1, p2, p3⟩ := f2.bad
      exact ⟨h', out', by rw [← List.append_assoc]; exact p1.trans (List.prefix_append _ _), p2, p3⟩

theorem oclose_spec (L : Lawful D bfs ok R) (hb : 1 ≤ bfs) {direct : Bool} {g0 w : List Nat} {s : OSt σ} (hi : Inv D bfs R direct g0 w s)
    (hs : NoShort s.dev.script) (hok : ok w) :
    ∃ q, oclose D bfs direct s = some q ∧ Step D bfs R direct g0 w [] s q ∧ (q.2 = .ok → q.1.buf.getD [] = []) := by
  cases direct with
  | true => exact ⟨_, rfl, quiet hi rfl rfl rfl hi.len hi.dir (by simp), fun _ => by simp [hi.dir rfl]⟩
  | false =>
    obtain ⟨q, f1, f2, f3⟩ := flush_spec L hb hi hs hok
    exact ⟨q, f1, f2, fun h => (f3 h).1⟩

end Verif.Deco
