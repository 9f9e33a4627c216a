import Verif.Mmap.Lemmas
import Mathlib.Tactic.ByContra
/-! # C83: memory-mapped files -/
namespace Verif.Mmap

/-- The byte at an address: which byte of which file, and what can be done with it. -/
def byteAt (s : St) (a : Nat) : Option (Nat × Nat × Access) :=
  match s.pages (a / 4096) with
  | some (.file f o p) => some (f, o + a % 4096, p)
  | _ => none

/-- The attributes for which the code asks for what the attribute says. -/
def Kept : Attr → Prop
  | .executeRead | .readOnly | .readWrite => True
  | _ => False

/-- The object `[a,e)` shows the part `r` of a file. -/
def Shows (s : St) (a e : Nat) (r : Region) : Prop :=
  e = a + r.len ∧ ∀ i < r.len, ∃ p, byteAt s (a + i) = some (r.file, r.off + i, p) ∧ (Kept r.attr → p = r.attr.access)

/-- The objects are what `v` says. -/
def Agree (s : St) (v : Vals) : Prop :=
  ∀ x, match v x with
    | none => s.vars x = none
    | some none => ∃ a, s.vars x = some (a, a)
    | some (some r) => ∃ a e, s.vars x = some (a, e) ∧ Shows s a e r

variable {base : Nat → Bool}

theorem kept_prot {a : Attr} (h : Kept a) : protOf a = a.access := by cases a <;> simp_all [Kept, protOf, Attr.access]

theorem agree_of {w : Held} {s : St} (i : Inv base w s) : Agree s w.vals := by
  intro x
  rcases hw : w x with _ | _ | ⟨r, p⟩
  · simp only [Held.vals, hw, Option.map_none]; exact i.none' x hw
  · simp only [Held.vals, hw, Option.map_some, Option.map_none]
    rcases i.empty x hw with h | h <;> exact ⟨_, h⟩
  · simp only [Held.vals, hw, Option.map_some]
    refine ⟨_, _, i.var x r p hw, rfl, ?_⟩
    intro k hk
    refine ⟨protOf r.attr, ?_, fun h => kept_prot h⟩
    have hin : Within r p ((p * 4096 + k) / 4096) := by unfold Within npages; omega
    unfold byteAt
    rw [(i.page x r p _ hw hin).1]
    simp only [Option.some.injEq, Prod.mk.injEq, true_and, and_true]
    omega

/-- C83: after every program that is not terminated, every object shows the part of the file its history gives it. -/
theorem c83_objects (ops : List Op) (s : St) (h : List (Op × Bool)) (hr : run (start base) ops = some (s, h)) :
    Agree s (replay (fun _ => none) h) := by
  obtain ⟨w, i, e⟩ := run_ok ops inv_start hr
  have := agree_of i
  rw [e] at this; exact this

/-- C83: no program touches other memory of the process. -/
theorem c83_rest (ops : List Op) (s : St) (h : List (Op × Bool)) (hr : run (start base) ops = some (s, h)) (q : Nat) :
    s.pages q = some .rest ↔ base q = true := by
  obtain ⟨w, i, _⟩ := run_ok ops inv_start hr
  by_cases hq : ∃ x r p, w x = some (some (r, p)) ∧ Within r p q
  · obtain ⟨x, r, p, hw, hin⟩ := hq
    have := i.page x r p q hw hin
    rw [this.1, this.2]; simp
  · have := i.other q (fun x r p hw hin => hq ⟨x, r, p, hw, hin⟩)
    rw [this]; cases base q <;> simp

/-- C83: when no object shows a file any more, nothing is mapped any more. -/
theorem c83_no_leak (ops : List Op) (s : St) (h : List (Op × Bool)) (hr : run (start base) ops = some (s, h))
    (hv : ∀ x r, replay (fun _ => none) h x ≠ some (some r)) (q : Nat) : s.pages q = if base q then some .rest else none := by
  obtain ⟨w, i, e⟩ := run_ok ops inv_start hr
  refine i.other q fun x r p hw _ => hv x r ?_
  have e' : w.vals = replay (fun _ => none) h := e
  rw [← e']; simp [Held.vals, hw]

/-- C83: two objects never show the same memory. -/
theorem c83_apart (ops : List Op) (s : St) (h : List (Op × Bool)) (hr : run (start base) ops = some (s, h)) (x y : Nat) (hxy : x ≠ y)
    (a e a' e' : Nat) (hx : s.vars x = some (a, e)) (hy : s.vars y = some (a', e')) : e ≤ a' ∨ e' ≤ a ∨ a = e ∨ a' = e' := by
  obtain ⟨w, i, _⟩ := run_ok ops inv_start hr
  rcases hwx : w x with _ | _ | ⟨r, p⟩
  · rw [i.none' x hwx] at hx; cases hx
  · rcases i.empty x hwx with k | k <;> rw [k] at hx <;> cases hx <;> simp
  rcases hwy : w y with _ | _ | ⟨r', p'⟩
  · rw [i.none' y hwy] at hy; cases hy
  · rcases i.empty y hwy with k | k <;> rw [k] at hy <;> cases hy <;> simp
  have h1 := i.var x r p hwx
  have h2 := i.var y r' p' hwy
  rw [h1] at hx; rw [h2] at hy
  cases hx; cases hy
  obtain ⟨_, _, hl, _⟩ := i.size x r p hwx
  obtain ⟨_, _, hl', _⟩ := i.size y r' p' hwy
  by_contra hc
  simp only [not_or, Nat.not_le] at hc
  obtain ⟨c1, c2, _, _⟩ := hc
  rcases Nat.le_total p p' with hle | hle
  · exact i.apart x y r p r' p' p' hxy hwx hwy (by unfold Within npages; omega) (by unfold Within npages; omega)
  · exact i.apart x y r p r' p' p hxy hwx hwy (by unfold Within npages; omega) (by unfold Within npages; omega)

/-- C83: an operation takes effect only if the program may ask for it, always then if it is no request for memory, and otherwise changes
nothing; a request takes effect if the length is not zero, the offset is a multiple of the page size and the system finds room. -/
theorem c83_effect (ops : List Op) (s : St) (h : List (Op × Bool)) (hr : run (start base) ops = some (s, h)) (op : Op) (s' : St) (d : Bool)
    (hs : step s op = some (s', d)) :
    (d = true → Legal (replay (fun _ => none) h) op) ∧ (Legal (replay (fun _ => none) h) op → isMap op = false → d = true) ∧ (d = false → s' = s) ∧
    ∀ x r p, op = .map x r (some p) → replay (fun _ => none) h x = none → r.len ≠ 0 → r.off % 4096 = 0 → 0 < p → p * 4096 + r.len ≤ 2 ^ 47 - 4096 →
      (∀ i < npages r.len, s.pages (p + i) = none) → d = true := by
  obtain ⟨w, i, e⟩ := run_ok ops inv_start hr
  have e' : w.vals = replay (fun _ => none) h := e
  rw [← e']
  obtain ⟨_, _, _, h1, h2, h3⟩ := step_ok i op hs
  refine ⟨h1, h2, h3, ?_⟩
  intro x r p ho hv hl hof hp hle hfree
  subst ho
  have hx := (held_iff i x).mp ((vals_none w x).mp hv)
  simp only [step, hx, if_true, mmap] at hs
  have hle' : p + npages r.len ≤ 2 ^ 35 := by unfold npages; omega
  rw [if_neg (by omega), if_pos ⟨hp, hle', hfree⟩] at hs
  cases hs; rfl

/-- C83 (partial: no object is default-constructed, because closing such an object terminates the program): no program is terminated. -/
theorem c83_goes_on_partial (ops : List Op) (h : ∀ x, .init x ∉ ops) : ∃ r, run (start base) ops = some r := by
  have key : ∀ (ops : List Op) (w : Held) (s : St), Inv base w s → (∀ x, s.vars x ≠ some (0, 0)) → (∀ x, .init x ∉ ops) → ∃ r, run s ops = some r := by
    intro ops
    induction ops with
    | nil => intro w s _ _ _; exact ⟨_, rfl⟩
    | cons op ops ih =>
      intro w s i hz hi
      have hop : ∀ x, op ≠ .init x := fun x e => hi x (by simp [e])
      have hstep : ∃ r, step s op = some r := by
        cases op with
        | close x =>
          simp only [step]
          cases hx : s.vars x with
          | none => exact ⟨_, rfl⟩
          | some n =>
            simp only
            split_ifs with hf hr
            · exact ⟨_, rfl⟩
            · exfalso
              rcases hw : w x with _ | _ | ⟨r, p⟩
              · rw [i.none' x hw] at hx; cases hx
              · rcases i.empty x hw with k | k
                · exact hz x k
                · rw [hx] at k; cases k; exact hf rfl
              · have := i.var x r p hw
                rw [hx] at this; cases this
                obtain ⟨_, _, hl, _⟩ := i.size x r p hw
                unfold munmap at hr
                rw [if_neg (by omega)] at hr
                exact hr rfl
            · exact ⟨_, rfl⟩
        | init x => exact absurd rfl (hop x)
        | map x r ans => simp only [step]; split_ifs <;> first | exact ⟨_, rfl⟩ | (split <;> exact ⟨_, rfl⟩)
        | move x y => simp only [step]; split <;> exact ⟨_, rfl⟩
        | assignMove x y => simp only [step]; split <;> exact ⟨_, rfl⟩
        | destroy x => simp only [step]; split <;> exact ⟨_, rfl⟩
      obtain ⟨⟨s', d⟩, hs⟩ := hstep
      obtain ⟨w', i', _⟩ := step_ok i op hs
      have hz' : ∀ x, s'.vars x ≠ some (0, 0) := by
        intro x hx
        have um : ∀ n, (unmapOpt s n).vars = s.vars := fun n => by unfold unmapOpt munmap; split_ifs <;> rfl
        have mu : ∀ a b, (munmap s a b).1.vars = s.vars := fun a b => by unfold munmap; split_ifs <;> rfl
        have f0 : failed ≠ 0 := by decide
        cases op with
        | init x => exact absurd rfl (hop x)
        | map y r ans =>
          rcases hw : w' x with _ | _ | ⟨r', p'⟩
          · rw [i'.none' x hw] at hx; cases hx
          · simp only [step] at hs
            split_ifs at hs with h0
            · split at hs
              · cases hs; exact hz x hx
              · next s1 a hm =>
                cases hs
                obtain ⟨p, _, hi'⟩ := inv_map i ((held_iff i y).mpr h0) hm
                simp only [setVar, upd_apply] at hx
                split_ifs at hx with hxy
                · have hv := hi'.var y r p (by simp [upd_apply])
                  have hp := (hi'.size y r p (by simp [upd_apply])).1
                  simp only [setVar, upd_apply, if_true] at hv
                  rw [hx] at hv
                  simp only [Option.some.injEq, Prod.mk.injEq] at hv
                  omega
                · refine hz x ?_
                  rw [← hx]
                  unfold mmap at hm
                  split_ifs at hm
                  split at hm
                  · cases hm
                  · simp only [Option.ite_none_right_eq_some, Option.some.injEq, Prod.mk.injEq] at hm
                    rw [← hm.2.1]
            · cases hs; exact hz x hx
          · have := i'.var x r' p' hw
            have hp := (i'.size x r' p' hw).1
            rw [hx] at this
            simp only [Option.some.injEq, Prod.mk.injEq] at this
            omega
        | move y z =>
          simp only [step] at hs
          split at hs
          · next o h1 h2 =>
            cases hs
            simp only [setVar, upd_apply] at hx
            split_ifs at hx
            · simp [f0] at hx
            · exact hz z (by rw [h2]; exact hx)
            · exact hz x hx
          · cases hs; exact hz x hx
        | assignMove y z =>
          simp only [step] at hs
          split at hs
          · cases hs
            simp only [setVar, upd_apply, um] at hx
            split_ifs at hx
            · simp [f0] at hx
            · exact hz z hx
            · exact hz x hx
          · cases hs; exact hz x hx
        | close y =>
          simp only [step] at hs
          split at hs
          · split_ifs at hs
            · cases hs
              simp only [setVar, upd_apply, mu] at hx
              split_ifs at hx
              · simp [f0] at hx
              · exact hz x hx
            · cases hs; exact hz x hx
          · cases hs; exact hz x hx
        | destroy y =>
          simp only [step] at hs
          split at hs
          · cases hs
            simp only [setVar, upd_apply, um] at hx
            split_ifs at hx
            exact hz x hx
          · cases hs; exact hz x hx
      obtain ⟨r, hr⟩ := ih w' s' i' hz' (fun x hm => hi x (by simp [hm]))
      exact ⟨(r.1, (op, d) :: r.2), by simp [run, hs, hr]⟩
  exact key ops _ _ inv_start (fun x => by simp [start]) h

/-- Two mappings, one replaced by the other by move assignment, then both objects go: the hypotheses are met, and one page of the rest of the
program stays. -/
example : let r1 : Region := ⟨5, 4096, 5000, .readWrite⟩
    let r2 : Region := ⟨6, 0, 10, .readOnly⟩
    ∃ s h, run (start (· == 9)) [.map 0 r1 (some 10), .map 1 r2 (some 12), .map 2 r2 (some 11), .assignMove 0 1] = some (s, h) ∧
      h.map (·.2) = [true, true, false, true] ∧ replay (fun _ => none) h 0 = some (some r2) ∧ replay (fun _ => none) h 1 = some none ∧
      s.vars 0 = some (12 * 4096, 12 * 4096 + 10) ∧ byteAt s (12 * 4096 + 7) = some (6, 7, ⟨true, false, false, true⟩) ∧ s.pages 10 = none ∧ s.pages 9 = some .rest := by
  exact ⟨_, _, rfl, by decide +kernel, by decide +kernel, by decide +kernel, by decide +kernel, by decide +kernel, by decide +kernel, by decide +kernel⟩

/-- C83 violated: closing a default-constructed object terminates the program. -/
theorem c83_close_default_violated : run (start base) [.init 0, .close 0] = none := rfl

/-- C83 violated: memory mapped to be read, written and executed cannot be written; memory mapped for private changes cannot be read, and what
is written reaches the file. -/
theorem c83_attributes_violated : protOf .executeReadWrite = ⟨true, false, true, true⟩ ∧ protOf .executeReadWrite ≠ Attr.executeReadWrite.access ∧
    (protOf .writeCopy).shared = true ∧ (protOf .writeCopy).read = false ∧ protOf .writeCopy ≠ Attr.writeCopy.access ∧
    (protOf .executeWriteCopy).shared = true ∧ (protOf .executeWriteCopy).read = false ∧ protOf .executeWriteCopy ≠ Attr.executeWriteCopy.access := by decide +kernel

end Verif.Mmap
