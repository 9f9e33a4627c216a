import Verif.DirIter.Model
import Mathlib.Tactic.SplitIfs
import Mathlib.Data.List.Basic
import Mathlib.Data.List.Nodup
/-!
# Directory iteration: lemmas
-/
namespace Verif.DirIter

/-- `a` is a rest of the listing `b`. -/
inductive Suffix : Listing → Listing → Prop
  | refl (l : Listing) : Suffix l l
  | file {n t r l} : Suffix (.file n t r) l → Suffix r l
  | dir {n t s r l} : Suffix (.dir n t s r) l → Suffix r l
  | dot {n t r l} : Suffix (.dot n t r) l → Suffix r l

theorem Suffix.ok {a b : Listing} (h : Suffix a b) (hb : b.Ok) : a.Ok := by
  induction h with
  | refl => exact hb
  | file _ ih => exact (ih hb).2.2.2.2
  | dir _ ih => exact (ih hb).2.2.2.2.2
  | dot _ ih => exact (ih hb).2.2

theorem Suffix.typed {a b : Listing} (h : Suffix a b) (hb : b.Typed) : a.Typed := by
  induction h with
  | refl => exact hb
  | file _ ih => exact (ih hb).2
  | dir _ ih => exact (ih hb).2.2
  | dot _ ih => exact (ih hb).2

/-- Names occurring later are found as if the beginning were not there. -/
theorem Suffix.lookup_eq {a b : Listing} (h : Suffix a b) (hb : b.Ok) {n : Name} (hn : n ∈ a.names) : lookup n b = lookup n a := by
  induction h with
  | refl => rfl
  | file h ih =>
    have ha := h.ok hb
    rw [ih hb (by simp [Listing.names, hn]), lookup, if_neg]
    rintro rfl
    exact ha.1 hn
  | dir h ih =>
    have ha := h.ok hb
    rw [ih hb (by simp [Listing.names, hn]), lookup, if_neg]
    rintro rfl
    exact ha.1 hn
  | dot h ih =>
    have ha := h.ok hb
    rw [ih hb (by simp [Listing.names, hn]), lookup, if_neg]
    rintro rfl
    exact ha.1 hn

/-- What holds of every open stream. -/
structure Stream.Good (s : Stream) : Prop where
  ok : s.full.Ok
  typed : s.full.Typed
  suffix : Suffix s.rest s.full

/-- What holds of every iterator: the streams of the stack are those open besides `base`, paths have the length of the depth. -/
structure It.Good (base : List Nat) (it : It) (w : World) : Prop where
  top : it.dirp.Good
  stack : ∀ s ∈ it.stack, s.Good
  tpath : it.dirp.path = []
  paths : ∀ ss s ss', it.stack = ss ++ s :: ss' → s.path.length = ss'.length + 1
  opened : w.opened = it.stack.map (·.id) ++ base
  tid : it.dirp.id ∈ base
  fresh : ∀ i ∈ w.opened, i < w.next
  nodup : w.opened.Nodup

/-- What is still to be met. -/
def todo (leave : Visit → Bool) (it : It) : List Visit :=
  it.stack.flatMap (fun s => walk leave s.path s.rest) ++ walk leave it.dirp.path it.dirp.rest

/-- The size of a listing. -/
def size : Listing → Nat
  | .done => 0
  | .file _ _ r => 1 + size r
  | .dir _ _ s r => 2 + size s + size r
  | .dot _ _ r => 1 + size r

/-- The number of turns left, at most. -/
def todoSize (it : It) : Nat := (it.stack.map fun s => size s.rest + 1).sum + size it.dirp.rest + 1

/-- What should be seen at a visit. -/
def seenAt (v : Visit) : Seen :=
  ⟨v.path.getLast?.getD [], if v.isDir then v.path else v.path.dropLast, if v.isDir then v.path.length else v.path.length - 1, true, v.path⟩

theorem cname_app (n : Name) (h : 0 ∉ n) : cname (n ++ [0]) = n := by
  induction n with
  | nil => rfl
  | cons x n ih =>
    have hx : x ≠ 0 := fun e => h (by simp [e])
    have hn : 0 ∉ n := fun e => h (by simp [e])
    have := ih hn
    simp only [cname] at this ⊢
    simp [List.takeWhile_cons, hx] at this ⊢
    exact this

theorem isDot_iff (n : Name) (h : 0 ∉ n) : (((n ++ [0]).getD 0 0 = 46 ∧ (n ++ [0]).getD 1 0 = 0) ∨
    ((n ++ [0]).getD 0 0 = 46 ∧ (n ++ [0]).getD 1 0 = 46 ∧ (n ++ [0]).getD 2 0 = 0)) ↔ IsDot n := by
  unfold IsDot
  match n, h with
  | [], _ => simp
  | [a], _ => simp
  | [a, b], h => simp at h ⊢; omega
  | a :: b :: c :: n, h => simp at h ⊢; omega

/-! ## The current stream -/

/-- Replace the current stream. -/
def It.upd (it : It) (s : Stream) : It :=
  match it.stack with
  | [] => { it with dirp := s }
  | _ :: ss => { it with stack := s :: ss }

/-- What is to be met after the current directory is left. -/
def lower (leave : Visit → Bool) (it : It) : List Visit :=
  match it.stack with
  | [] => []
  | _ :: ss => todo leave { it with stack := ss }

def lowerSize (it : It) : Nat :=
  match it.stack with
  | [] => 0
  | _ :: ss => todoSize { it with stack := ss }

theorem incr_succ (n : Nat) (it : It) (w : World) : incr (n + 1) it w =
    match readdir it.cur w with
    | (.error e, _, w) => some (.threw e, it, w)
    | (.eof, _, w) => if it.stack = [] then some (.ok, { it with entry := none }, w)
        else incr n { it with stack := it.stack.tail } (w.close it.cur.id)
    | (.entry e, s, w) =>
        match afterRead e { it.upd s with entry := some e } w with
        | (it, w, none) => incr n it w
        | (it, w, some r) => some (r, it, w) := by
  obtain ⟨d, en, nl, st⟩ := it
  cases st with
  | nil =>
    simp only [incr, It.cur, List.headD_nil, It.upd]
    rcases readdir d w with ⟨g, s, w⟩
    cases g <;> rfl
  | cons s ss =>
    have hid : ∀ w' s', readdir s w = (.eof, s', w') → s' = s := by
      intro w' s' h
      unfold readdir at h
      split at h
      · cases h
      · split at h <;> cases h
        rfl
    simp only [incr, It.cur, List.headD_cons, It.upd, List.tail_cons, reduceCtorEq, if_false]
    rcases hr : readdir s w with ⟨g, s', w'⟩
    cases g with
    | error e => rfl
    | eof => rw [hid _ _ hr]
    | entry e => rfl

theorem todo_eq (leave : Visit → Bool) (it : It) : todo leave it = walk leave it.cur.path it.cur.rest ++ lower leave it := by
  obtain ⟨d, en, nl, st⟩ := it
  cases st with
  | nil => simp [todo, It.cur, lower]
  | cons s ss => simp [todo, It.cur, lower]

theorem todoSize_eq (it : It) : todoSize it = size it.cur.rest + 1 + lowerSize it := by
  obtain ⟨d, en, nl, st⟩ := it
  cases st with
  | nil => simp [todoSize, It.cur, lowerSize]
  | cons s ss => simp [todoSize, It.cur, lowerSize]; omega

theorem upd_cur (it : It) (s : Stream) : (it.upd s).cur = s := by
  obtain ⟨d, en, nl, st⟩ := it
  cases st <;> rfl

theorem upd_lower (leave : Visit → Bool) (it : It) (s : Stream) : lower leave (it.upd s) = lower leave it := by
  obtain ⟨d, en, nl, st⟩ := it
  cases st <;> rfl

theorem upd_lowerSize (it : It) (s : Stream) : lowerSize (it.upd s) = lowerSize it := by
  obtain ⟨d, en, nl, st⟩ := it
  cases st <;> rfl

theorem upd_len (it : It) (s : Stream) : (it.upd s).stack.length = it.stack.length := by
  obtain ⟨d, en, nl, st⟩ := it
  cases st <;> rfl

theorem It.Good.upd {base : List Nat} {it : It} {w : World} (h : it.Good base w) (s : Stream) (hs : s.Good) (h1 : s.id = it.cur.id)
    (h2 : s.path = it.cur.path) : (it.upd s).Good base w := by
  obtain ⟨d, en, nl, st⟩ := it
  cases st with
  | nil =>
    simp only [It.cur, List.headD_nil] at h1 h2
    exact ⟨hs, by simp [It.upd], by simp only [It.upd]; rw [h2]; exact h.tpath, by simp [It.upd], by simpa [It.upd] using h.opened, by simpa [It.upd, h1] using h.tid, h.fresh, h.nodup⟩
  | cons s0 ss =>
    simp only [It.cur, List.headD_cons] at h1 h2
    refine ⟨h.top, ?_, h.tpath, ?_, by simpa [It.upd, h1] using h.opened, by simpa [It.upd] using h.tid, h.fresh, h.nodup⟩
    · intro x hx
      simp only [It.upd, List.mem_cons] at hx
      rcases hx with rfl | hx
      · exact hs
      · exact h.stack x (by simp [hx])
    · intro a x b hab
      simp only [It.upd] at hab
      cases a with
      | nil =>
        simp only [List.nil_append, List.cons.injEq] at hab
        obtain ⟨rfl, rfl⟩ := hab
        rw [h2]
        exact h.paths [] s0 ss rfl
      | cons y a =>
        simp only [List.cons_append, List.cons.injEq] at hab
        exact h.paths (s0 :: a) x b (by simp [hab.2])

theorem It.Good.cur {base : List Nat} {it : It} {w : World} (h : it.Good base w) : it.cur.Good := by
  obtain ⟨d, en, nl, st⟩ := it
  cases st with
  | nil => exact h.top
  | cons s ss => exact h.stack s (by simp)

theorem It.Good.cur_len {base : List Nat} {it : It} {w : World} (h : it.Good base w) : it.cur.path.length = it.stack.length := by
  obtain ⟨d, en, nl, st⟩ := it
  cases st with
  | nil =>
    have := h.tpath
    simp only at this
    simp [It.cur, this]
  | cons s ss => simpa [It.cur] using h.paths [] s ss rfl

theorem It.Good.cur_open {base : List Nat} {it : It} {w : World} (h : it.Good base w) : it.cur.id ∈ w.opened := by
  rw [h.opened]
  obtain ⟨d, en, nl, st⟩ := it
  cases st with
  | nil => simpa [It.cur] using h.tid
  | cons s ss => simp [It.cur]

theorem It.Good.entry {base : List Nat} {it : It} {w : World} (h : it.Good base w) (e : Option Entry) (n : Nat) :
    ({ it with entry := e, namlen := n } : It).Good base w := ⟨h.top, h.stack, h.tpath, h.paths, h.opened, h.tid, h.fresh, h.nodup⟩

theorem It.Good.pop {base : List Nat} {it : It} {w : World} (h : it.Good base w) (hn : it.stack ≠ []) :
    ({ it with stack := it.stack.tail } : It).Good base (w.close it.cur.id) := by
  obtain ⟨d, en, nl, st⟩ := it
  cases st with
  | nil => exact absurd rfl hn
  | cons s ss =>
    have hc : (w.close s.id).opened = ss.map (·.id) ++ base := by
      have := h.opened
      simp only [List.map_cons, List.cons_append] at this
      simp only [World.close, this, List.erase_cons_head]
    refine ⟨h.top, fun x hx => h.stack x (List.mem_cons_of_mem _ hx), h.tpath, ?_, hc, h.tid, ?_, ?_⟩
    · intro a x b hab
      simp only [List.tail_cons] at hab
      exact h.paths (s :: a) x b (by simp [hab])
    · intro i hi
      exact h.fresh i (List.mem_of_mem_erase hi)
    · exact h.nodup.erase _

theorem It.Good.world {base : List Nat} {it : It} {w w' : World} (h : it.Good base w) (h1 : w'.opened = w.opened) (h2 : w.next ≤ w'.next) :
    it.Good base w' := ⟨h.top, h.stack, h.tpath, h.paths, by rw [h1]; exact h.opened, h.tid, by rw [h1]; exact fun i hi => Nat.lt_of_lt_of_le (h.fresh i hi) h2,
      by rw [h1]; exact h.nodup⟩

theorem ask_opened (w : World) : w.ask.2.opened = w.opened ∧ w.ask.2.next = w.next := by
  unfold World.ask; split <;> exact ⟨rfl, rfl⟩

theorem It.Good.push {base : List Nat} {it : It} {w : World} (h : it.Good base w) (w' : World) (s : Stream) (hs : s.Good)
    (h1 : s.id = w.next) (h2 : s.path.length = it.stack.length + 1) (ho : w'.opened = w.next :: w.opened) (hn : w'.next = w.next + 1) :
    ({ it with stack := s :: it.stack } : It).Good base w' := by
  refine ⟨h.top, ?_, h.tpath, ?_, ?_, h.tid, ?_, ?_⟩
  · intro x hx
    rcases List.mem_cons.mp hx with rfl | hx
    · exact hs
    · exact h.stack x hx
  · intro a x b hab
    cases a with
    | nil =>
      simp only [List.nil_append, List.cons.injEq] at hab
      obtain ⟨rfl, rfl⟩ := hab
      exact h2
    | cons y a =>
      simp only [List.cons_append, List.cons.injEq] at hab
      exact h.paths a x b hab.2
  · rw [ho, h.opened, ← h1]; rfl
  · intro i hi
    rw [ho] at hi
    rcases List.mem_cons.mp hi with rfl | hi
    · omega
    · have := h.fresh i hi; omega
  · rw [ho]
    refine List.nodup_cons.mpr ⟨?_, h.nodup⟩
    intro hm
    have := h.fresh _ hm
    omega

end Verif.DirIter
