import Verif.Mmap.Model
import Mathlib.Tactic.SplitIfs
import Mathlib.Tactic.Convert
/-! Ownership of mappings. -/
namespace Verif.Mmap

/-- What a variable holds: with a mapping, its first page. -/
abbrev Held := Nat → Option (Option (Region × Nat))

/-- Page `q` belongs to the mapping of `r` from page `p` on. -/
def Within (r : Region) (p q : Nat) : Prop := p ≤ q ∧ q < p + npages r.len

instance (r : Region) (p q : Nat) : Decidable (Within r p q) := by unfold Within; infer_instance

structure Inv (base : Nat → Bool) (w : Held) (s : St) : Prop where
  none' : ∀ x, w x = none → s.vars x = none
  empty : ∀ x, w x = some none → s.vars x = some (0, 0) ∨ s.vars x = some (failed, failed)
  var : ∀ x r p, w x = some (some (r, p)) → s.vars x = some (p * 4096, p * 4096 + r.len)
  size : ∀ x r p, w x = some (some (r, p)) → 0 < p ∧ p + npages r.len ≤ 2 ^ 35 ∧ r.len ≠ 0 ∧ r.off % 4096 = 0
  page : ∀ x r p q, w x = some (some (r, p)) → Within r p q → s.pages q = some (.file r.file (r.off + (q - p) * 4096) (protOf r.attr)) ∧ base q = false
  apart : ∀ x y r p r' p' q, x ≠ y → w x = some (some (r, p)) → w y = some (some (r', p')) → Within r p q → ¬ Within r' p' q
  other : ∀ q, (∀ x r p, w x = some (some (r, p)) → ¬ Within r p q) → s.pages q = if base q then some .rest else none

/-- The mapping without its place. -/
def Held.vals (w : Held) : Vals := fun x => (w x).map (·.map (·.1))

theorem upd_apply {α : Type} (f : Nat → α) (x y : Nat) (v : α) : upd f x v y = if y = x then v else f y := rfl

theorem npages_pos {n : Nat} (h : n ≠ 0) : 0 < npages n := by unfold npages; omega

variable {base : Nat → Bool} {w : Held} {s : St}

theorem not_failed {r : Region} {p : Nat} (h : p + npages r.len ≤ 2 ^ 35) : p * 4096 ≠ failed := by
  unfold failed; omega

theorem inv_start : Inv base (fun _ => none) (start base) where
  none' _ _ := rfl
  empty _ h := by cases h
  var _ _ _ h := by cases h
  size _ _ _ h := by cases h
  page _ _ _ _ h := by cases h
  apart _ _ _ _ _ _ _ _ h := by cases h
  other _ _ := rfl

/-- A variable without a mapping gets a value without a mapping. -/
theorem inv_null (i : Inv base w s) {x : Nat} {o : Option (Nat × Nat)} {v : Option (Option (Region × Nat))}
    (hx : ∀ r, w x ≠ some (some r)) (hv : v = none ∧ o = none ∨ v = some none ∧ (o = some (0, 0) ∨ o = some (failed, failed))) :
    Inv base (upd w x v) (setVar s x o) := by
  have nv : ∀ y r, upd w x v y = some (some r) → y ≠ x ∧ w y = some (some r) := by
    intro y r h
    rw [upd_apply] at h
    split_ifs at h with e
    · rcases hv with ⟨hv, _⟩ | ⟨hv, _⟩ <;> rw [hv] at h <;> simp at h
    · exact ⟨e, h⟩
  refine ⟨?_, ?_, ?_, ?_, ?_, ?_, ?_⟩
  · intro y h
    simp only [setVar, upd_apply] at *
    split_ifs at * with e
    · rcases hv with ⟨_, ho⟩ | ⟨hv, _⟩
      · exact ho
      · rw [hv] at h; cases h
    · exact i.none' y h
  · intro y h
    simp only [setVar, upd_apply] at *
    split_ifs at * with e
    · rcases hv with ⟨hv, _⟩ | ⟨_, ho⟩
      · rw [hv] at h; cases h
      · exact ho
    · exact i.empty y h
  · intro y r p h
    obtain ⟨e, h⟩ := nv y _ h
    simp only [setVar, upd_apply, e, if_false]
    exact i.var y r p h
  · intro y r p h
    exact i.size y r p (nv y _ h).2
  · intro y r p q h
    exact i.page y r p q (nv y _ h).2
  · intro y z r p r' p' q ne h h'
    exact i.apart y z r p r' p' q ne (nv y _ h).2 (nv z _ h').2
  · intro q h
    refine i.other q fun y r p hy => ?_
    refine h y r p ?_
    rw [upd_apply]
    split_ifs with e
    · subst e; exact absurd hy (hx _)
    · exact hy

/-- A mapping goes to a variable without one. -/
theorem inv_move (i : Inv base w s) {x y : Nat} (ne : x ≠ y) (hx : ∀ r, w x ≠ some (some r)) (hy : w y ≠ none) :
    Inv base (upd (upd w x (w y)) y (some none)) (setVar (setVar s x (s.vars y)) y (some (failed, failed))) := by
  have nv : ∀ z r, upd (upd w x (w y)) y (some none) z = some (some r) → z ≠ y ∧ (z = x ∧ w y = some (some r) ∨ z ≠ x ∧ w z = some (some r)) := by
    intro z r h
    simp only [upd_apply] at h
    split_ifs at h with e e'
    · cases h
    · exact ⟨e, Or.inl ⟨e', h⟩⟩
    · exact ⟨e, Or.inr ⟨e', h⟩⟩
  refine ⟨?_, ?_, ?_, ?_, ?_, ?_, ?_⟩
  · intro z h
    simp only [setVar, upd_apply] at *
    split_ifs at * with e e'
    · exact i.none' y h
    · exact i.none' z h
  · intro z h
    simp only [setVar, upd_apply] at *
    split_ifs at * with e e'
    · exact Or.inr rfl
    · exact i.empty y h
    · exact i.empty z h
  · intro z r p h
    obtain ⟨e, k⟩ := nv z _ h
    simp only [setVar, upd_apply, e, if_false]
    rcases k with ⟨e', k⟩ | ⟨e', k⟩
    · rw [if_pos e']; exact i.var y r p k
    · rw [if_neg e']; exact i.var z r p k
  · intro z r p h
    rcases (nv z _ h).2 with ⟨_, h⟩ | ⟨_, h⟩
    · exact i.size y r p h
    · exact i.size z r p h
  · intro z r p q h
    rcases (nv z _ h).2 with ⟨_, h⟩ | ⟨_, h⟩
    · exact i.page y r p q h
    · exact i.page z r p q h
  · intro z z' r p r' p' q nz h h'
    obtain ⟨e1, h⟩ := nv z _ h
    obtain ⟨e2, h'⟩ := nv z' _ h'
    rcases h with ⟨f, h⟩ | ⟨f, h⟩ <;> rcases h' with ⟨f', h'⟩ | ⟨f', h'⟩
    · exact absurd (f.trans f'.symm) nz
    · exact i.apart y z' r p r' p' q e2.symm h h'
    · exact i.apart z y r p r' p' q e1 h h'
    · exact i.apart z z' r p r' p' q nz h h'
  · intro q h
    refine i.other q fun z r p hz => ?_
    by_cases e : z = y
    · refine h x r p ?_
      simp only [upd_apply, if_neg ne, if_true]
      rw [← e]; exact hz
    · refine h z r p ?_
      simp only [upd_apply, if_neg e]
      rw [if_neg]
      · exact hz
      · intro e'; rw [e'] at hz; exact hx _ hz

/-- A new mapping. -/
theorem inv_map (i : Inv base w s) {x a : Nat} {r : Region} {ans : Option Nat} {s' : St} (hx : w x = none) (h : mmap s r ans = some (s', a)) :
    ∃ p, ans = some p ∧ Inv base (upd w x (some (some (r, p)))) (setVar s' x (some (a, a + r.len))) := by
  unfold mmap at h
  split_ifs at h with h0
  cases ans with
  | none => simp at h
  | some p =>
    simp only [Option.ite_none_right_eq_some, Option.some.injEq, Prod.mk.injEq] at h
    obtain ⟨⟨hp, hle, hfree⟩, hs, ha⟩ := h
    refine ⟨p, rfl, ?_⟩
    rw [not_or, Decidable.not_not] at h0
    have hfree' : ∀ q, Within r p q → s.pages q = none := by
      intro q hq
      have := hfree (q - p) (by unfold Within at hq; omega)
      rwa [show p + (q - p) = q by unfold Within at hq; omega] at this
    have hbase : ∀ q, Within r p q → base q = false ∧ ∀ y r' p', w y = some (some (r', p')) → ¬ Within r' p' q := by
      intro q hq
      have h1 : ∀ y r' p', w y = some (some (r', p')) → ¬ Within r' p' q := by
        intro y r' p' hy hq'
        have := (i.page y r' p' q hy hq').1
        rw [hfree' q hq] at this; cases this
      refine ⟨?_, h1⟩
      have := i.other q h1
      rw [hfree' q hq] at this
      cases hb : base q
      · rfl
      · rw [hb] at this; simp at this
    have pg : ∀ q, s'.pages q = if Within r p q then some (.file r.file (r.off + (q - p) * 4096) (protOf r.attr)) else s.pages q := by
      intro q; rw [← hs]; rfl
    have vr : s'.vars = s.vars := by rw [← hs]
    have nv : ∀ y r', upd w x (some (some (r, p))) y = some (some r') → y = x ∧ r' = (r, p) ∨ y ≠ x ∧ w y = some (some r') := by
      intro y r' h
      rw [upd_apply] at h
      split_ifs at h with e
      · left; simp only [Option.some.injEq] at h; exact ⟨e, h.symm⟩
      · exact Or.inr ⟨e, h⟩
    refine ⟨?_, ?_, ?_, ?_, ?_, ?_, ?_⟩
    · intro y h
      simp only [setVar, upd_apply, vr] at *
      split_ifs at * with e
      exact i.none' y h
    · intro y h
      simp only [setVar, upd_apply, vr] at *
      split_ifs at * with e
      · simp at h
      · exact i.empty y h
    · intro y r' p' h
      simp only [setVar, upd_apply, vr]
      rcases nv y _ h with ⟨e, h⟩ | ⟨e, h⟩
      · obtain ⟨rfl, rfl⟩ := Prod.mk.inj h
        rw [if_pos e, ← ha]
      · rw [if_neg e]; exact i.var y r' p' h
    · intro y r' p' h
      rcases nv y _ h with ⟨e, h⟩ | ⟨e, h⟩
      · obtain ⟨rfl, rfl⟩ := Prod.mk.inj h
        exact ⟨hp, hle, h0⟩
      · exact i.size y r' p' h
    · intro y r' p' q h hq
      show s'.pages q = _ ∧ _
      rw [pg]
      rcases nv y _ h with ⟨e, h⟩ | ⟨e, h⟩
      · obtain ⟨rfl, rfl⟩ := Prod.mk.inj h
        rw [if_pos hq]
        exact ⟨rfl, (hbase q hq).1⟩
      · rw [if_neg]
        · exact i.page y r' p' q h hq
        · intro hq'; exact (hbase q hq').2 y r' p' h hq
    · intro y z r' p' r'' p'' q ne h h' hq
      rcases nv y _ h with ⟨e, k⟩ | ⟨e, k⟩ <;> rcases nv z _ h' with ⟨e', k'⟩ | ⟨e', k'⟩
      · exact absurd (e.trans e'.symm) ne
      · obtain ⟨rfl, rfl⟩ := Prod.mk.inj k
        exact (hbase q hq).2 z r'' p'' k'
      · obtain ⟨rfl, rfl⟩ := Prod.mk.inj k'
        intro hq'; exact (hbase q hq').2 y r' p' k hq
      · exact i.apart y z r' p' r'' p'' q ne k k' hq
    · intro q h
      show s'.pages q = _
      rw [pg, if_neg (h x r p (by simp [upd_apply]))]
      · refine i.other q fun y r' p' hy => ?_
        refine h y r' p' ?_
        rw [upd_apply, if_neg]
        · exact hy
        · intro e; rw [e, hx] at hy; cases hy

/-- A mapping is given back. -/
theorem inv_unmap (i : Inv base w s) {x : Nat} {n : Nat × Nat} (hv : s.vars x = some n) :
    Inv base (upd w x (some none)) (setVar (unmapOpt s n) x (some (failed, failed))) := by
  rcases hw : w x with _ | _ | ⟨r, p⟩
  · rw [i.none' x hw] at hv; cases hv
  · have hu : unmapOpt s n = s := by
      rcases i.empty x hw with h | h <;> rw [h] at hv <;> cases hv
      · simp [unmapOpt, munmap]
      · simp [unmapOpt]
    rw [hu]
    exact inv_null i (by simp [hw]) (Or.inr ⟨rfl, Or.inr rfl⟩)
  · have hn := i.var x r p hw
    rw [hn] at hv
    cases hv
    obtain ⟨hp, hle, hl, ho⟩ := i.size x r p hw
    have hu : unmapOpt s (p * 4096, p * 4096 + r.len) = { s with pages := fun q => if Within r p q then none else s.pages q } := by
      simp only [unmapOpt, not_failed hle, ne_eq, not_false_eq_true, if_true, munmap]
      rw [if_neg (by omega)]
      have e1 : p * 4096 / 4096 = p := by omega
      have e2 : p * 4096 + r.len - p * 4096 = r.len := by omega
      simp only [e1, e2]
      rfl
    rw [hu]
    have nv : ∀ y r', upd w x (some none) y = some (some r') → y ≠ x ∧ w y = some (some r') := by
      intro y r' h
      rw [upd_apply] at h
      split_ifs at h with e
      · simp at h
      · exact ⟨e, h⟩
    refine ⟨?_, ?_, ?_, ?_, ?_, ?_, ?_⟩
    · intro y h
      simp only [setVar, upd_apply] at *
      split_ifs at * with e
      exact i.none' y h
    · intro y h
      simp only [setVar, upd_apply] at *
      split_ifs at * with e
      · exact Or.inr rfl
      · exact i.empty y h
    · intro y r' p' h
      obtain ⟨e, h⟩ := nv y _ h
      simp only [setVar, upd_apply, e, if_false]
      exact i.var y r' p' h
    · intro y r' p' h
      exact i.size y r' p' (nv y _ h).2
    · intro y r' p' q h hq
      obtain ⟨e, h⟩ := nv y _ h
      simp only [setVar]
      rw [if_neg]
      · exact i.page y r' p' q h hq
      · intro hq'; exact i.apart y x r' p' r p q e h hw hq hq'
    · intro y z r' p' r'' p'' q ne h h'
      exact i.apart y z r' p' r'' p'' q ne (nv y _ h).2 (nv z _ h').2
    · intro q h
      simp only [setVar]
      by_cases hq : Within r p q
      · rw [if_pos hq, (i.page x r p q hw hq).2]; rfl
      · rw [if_neg hq]
        have := i.other q (fun y r' p' hy => by
          by_cases e : y = x
          · subst e; rw [hw] at hy
            simp only [Option.some.injEq, Prod.mk.injEq] at hy
            rw [← hy.1, ← hy.2]; exact hq
          · exact h y r' p' (by rw [upd_apply, if_neg e]; exact hy))
        exact this

theorem held_iff (i : Inv base w s) (x : Nat) : w x = none ↔ s.vars x = none := by
  refine ⟨i.none' x, fun h => ?_⟩
  rcases hw : w x with _ | _ | ⟨r, p⟩
  · rfl
  · rcases i.empty x hw with h' | h' <;> rw [h'] at h <;> cases h
  · rw [i.var x r p hw] at h; cases h

theorem vals_none (w : Held) (x : Nat) : w.vals x = none ↔ w x = none := by simp [Held.vals]

theorem vals_upd (w : Held) (x : Nat) (v : Option (Option (Region × Nat))) : Held.vals (upd w x v) = upd w.vals x (v.map (·.map (·.1))) := by
  funext y; simp only [Held.vals, upd_apply]; split_ifs <;> rfl

theorem setVar_setVar (s : St) (x : Nat) (v o : Option (Nat × Nat)) : setVar (setVar s x v) x o = setVar s x o := by
  unfold setVar
  congr 1
  funext y; simp only [upd_apply]; split_ifs <;> rfl

theorem upd_upd {α : Type} (f : Nat → α) (x : Nat) (v u : α) : upd (upd f x v) x u = upd f x u := by
  funext y; simp only [upd_apply]; split_ifs <;> rfl

/-- What may fail: a request for memory. -/
def isMap : Op → Bool
  | .map .. => true
  | _ => false

/-- One operation. -/
theorem step_ok (i : Inv base w s) (op : Op) {s' : St} {d : Bool} (h : step s op = some (s', d)) :
    ∃ w', Inv base w' s' ∧ w'.vals = (if d then wanted w.vals op else w.vals) ∧ (d = true → Legal w.vals op) ∧
      (Legal w.vals op → isMap op = false → d = true) ∧ (d = false → s' = s) := by
  have hv := held_iff i
  cases op with
  | init x =>
    simp only [step] at h
    split_ifs at h with h0 <;> cases h
    · have hw := (hv x).mpr h0
      refine ⟨_, inv_null i (x := x) (v := some none) (by simp [hw]) (Or.inr ⟨rfl, Or.inl rfl⟩), by rw [vals_upd]; rfl, ?_, ?_, by simp⟩
      · intro _; exact (vals_none w x).mpr hw
      · simp
    · refine ⟨w, i, rfl, by simp, ?_, fun _ => rfl⟩
      intro hl; exact absurd ((hv x).mp ((vals_none w x).mp hl)) h0
  | map x r ans =>
    simp only [step] at h
    split_ifs at h with h0
    · have hw := (hv x).mpr h0
      split at h
      · cases h
        exact ⟨w, i, rfl, by simp, by simp [isMap], fun _ => rfl⟩
      · next s1 a hm =>
        cases h
        obtain ⟨p, _, hi⟩ := inv_map i hw hm
        exact ⟨_, hi, by rw [vals_upd]; rfl, fun _ => (vals_none w x).mpr hw, by simp, by simp⟩
    · cases h
      exact ⟨w, i, rfl, by simp, by simp [isMap], fun _ => rfl⟩
  | move x y =>
    simp only [step] at h
    split at h
    · next o hx hy =>
      cases h
      have hw := (hv x).mpr hx
      have hwy : w y ≠ none := fun e => by rw [(hv y).mp e] at hy; cases hy
      have ne : x ≠ y := by rintro rfl; exact hwy hw
      refine ⟨_, by rw [← hy]; exact inv_move i ne (by simp [hw]) hwy, ?_, ?_, by simp, by simp⟩
      · rw [vals_upd, vals_upd]; rfl
      · intro _; exact ⟨(vals_none w x).mpr hw, fun e => hwy ((vals_none w y).mp e)⟩
    · next hno =>
      cases h
      refine ⟨w, i, rfl, by simp, ?_, fun _ => rfl⟩
      rintro ⟨hl, hl'⟩
      rw [vals_none] at hl
      cases hy : s.vars y with
      | none => exact absurd ((vals_none w y).mpr ((hv y).mpr hy)) hl'
      | some o => exact absurd hy (hno o ((hv x).mp hl))
  | assignMove x y =>
    simp only [step] at h
    split at h
    · next n o hx hy =>
      cases h
      have hwx : w x ≠ none := fun e => by rw [(hv x).mp e] at hx; cases hx
      have hwy : w y ≠ none := fun e => by rw [(hv y).mp e] at hy; cases hy
      have hu := inv_unmap i hx
      have hvars : (unmapOpt s n).vars = s.vars := by unfold unmapOpt munmap; split_ifs <;> rfl
      have hleg : Legal w.vals (.assignMove x y) := ⟨fun e => hwx ((vals_none w x).mp e), fun e => hwy ((vals_none w y).mp e)⟩
      by_cases e : x = y
      · subst e
        refine ⟨upd w x (some none), ?_, ?_, fun _ => hleg, by simp, by simp⟩
        · rw [setVar_setVar]; exact hu
        · simp only [if_true, wanted, upd_upd, vals_upd]; rfl
      · have hm := inv_move (x := x) (y := y) hu e (by simp [upd_apply]) (by simp [upd_apply, Ne.symm e, hwy])
        refine ⟨upd (upd w x (w y)) y (some none), ?_, ?_, fun _ => hleg, by simp, by simp⟩
        · convert hm using 1
          · funext z; simp only [upd_apply, Ne.symm e, if_false]; split_ifs <;> rfl
          · simp only [setVar, upd_apply, Ne.symm e, if_false, hvars]
            congr 1
            funext z; simp only [upd_apply]; split_ifs <;> rfl
        · simp only [if_true, wanted, vals_upd]; rfl
    · next hno =>
      cases h
      refine ⟨w, i, rfl, by simp, ?_, fun _ => rfl⟩
      rintro ⟨hl, hl'⟩
      cases hx : s.vars x with
      | none => exact absurd ((vals_none w x).mpr ((hv x).mpr hx)) hl
      | some n =>
        cases hy : s.vars y with
        | none => exact absurd ((vals_none w y).mpr ((hv y).mpr hy)) hl'
        | some o => exact absurd hy (hno n o hx)
  | close x =>
    simp only [step] at h
    split at h
    · next n hx =>
      have hwx : w x ≠ none := fun e => by rw [(hv x).mp e] at hx; cases hx
      have hleg : Legal w.vals (.close x) := fun e => hwx ((vals_none w x).mp e)
      have hu := inv_unmap i hx
      split_ifs at h with hf hr
      · cases h
        have : unmapOpt s n = (munmap s n.1 (n.2 - n.1)).1 := by simp [unmapOpt, hf]
        rw [this] at hu
        exact ⟨_, hu, by rw [vals_upd]; rfl, fun _ => hleg, by simp, by simp⟩
      · cases h
        rw [Decidable.not_not] at hf
        have hw : w x = some none := by
          rcases hw : w x with _ | _ | ⟨r, p⟩
          · exact absurd hw hwx
          · rfl
          · have := i.var x r p hw
            rw [hx] at this
            simp only [Option.some.injEq] at this
            rw [this] at hf
            exact absurd hf (not_failed (i.size x r p hw).2.1)
        refine ⟨w, i, ?_, fun _ => hleg, by simp, by simp⟩
        simp only [if_true, wanted]
        funext y; simp only [upd_apply]; split_ifs with e
        · subst e; simp [Held.vals, hw]
        · rfl
    · next hx =>
      cases h
      refine ⟨w, i, rfl, by simp, ?_, fun _ => rfl⟩
      intro hl; exact absurd ((vals_none w x).mpr ((hv x).mpr hx)) hl
  | destroy x =>
    simp only [step] at h
    split at h
    · next n hx =>
      cases h
      have hwx : w x ≠ none := fun e => by rw [(hv x).mp e] at hx; cases hx
      have hu := inv_unmap i hx
      have h2 := inv_null (x := x) (v := none) (o := none) hu (by simp [upd_apply]) (Or.inl ⟨rfl, rfl⟩)
      rw [setVar_setVar, upd_upd] at h2
      exact ⟨_, h2, by rw [vals_upd]; rfl, fun _ e => hwx ((vals_none w x).mp e), by simp, by simp⟩
    · next hx =>
      cases h
      refine ⟨w, i, rfl, by simp, ?_, fun _ => rfl⟩
      intro hl; exact absurd ((vals_none w x).mpr ((hv x).mpr hx)) hl

theorem run_ok (ops : List Op) : ∀ {w : Held} {s s' : St} {h : List (Op × Bool)}, Inv base w s → run s ops = some (s', h) →
    ∃ w', Inv base w' s' ∧ w'.vals = replay w.vals h := by
  induction ops with
  | nil =>
    intro w s s' h i hr
    simp only [run, Option.some.injEq, Prod.mk.injEq] at hr
    obtain ⟨rfl, rfl⟩ := hr
    exact ⟨w, i, rfl⟩
  | cons op ops ih =>
    intro w s s' h i hr
    simp only [run, Option.bind_eq_some_iff, Option.map_eq_some_iff, Prod.mk.injEq, Prod.exists] at hr
    obtain ⟨s1, d, h1, s2, h2, hr, rfl, rfl⟩ := hr
    obtain ⟨w1, i1, e1, _⟩ := step_ok i op h1
    obtain ⟨w2, i2, e2⟩ := ih i1 hr
    exact ⟨w2, i2, by rw [e2, e1]; rfl⟩

end Verif.Mmap
