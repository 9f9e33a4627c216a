import Verif.Line.Find
import Verif.Http.Model
/-! # Lemmas: finding the end of the header -/
namespace Verif.Http
open Verif.Line (FindCfg findCh findCh_eq)

/-- All characters fit the character type (only needed for 8-bit characters). -/
def Fits (cfg : FindCfg) (l : List Nat) : Prop := cfg.cw = 8 → ∀ c ∈ l, c < 256

/-- Outcome of walking over a block. -/
inductive W where
  | st (q : Nat) | bad | done
  deriving Repr, DecidableEq

/-- Auxiliary automaton: the loop of the scanner, character by character. -/
def walk : Nat → List Nat → List Nat × W
  | q, [] => ([], .st q)
  | 0, c :: l => if c = 13 then walk 1 l else walk 0 l
  | 1, c :: l => if c = 10 then walk 2 l else (c :: l, .bad)
  | 2, c :: l => if c = 13 then walk 3 l else walk 0 l
  | _ + 3, c :: l => if c = 10 then (l, .done) else (c :: l, .bad)

/-- What the scanner does with the outcome. -/
def finish (cfg : FindCfg) (b : HB) (all : List Nat) : List Nat × W → Option Res
  | (rest, .st q) => leave b all rest q
  | (rest, .bad) => some ⟨b, 0, rest, .invalid⟩
  | (rest, .done) => Http.done cfg b all rest

theorem walk_skip (l : List Nat) : walk 0 (l.dropWhile (fun c => c != 13)) = walk 0 l := by
  induction l with
  | nil => rfl
  | cons c l ih =>
    by_cases h : c = 13
    · subst h; rfl
    · have h' : List.dropWhile (fun c => c != 13) (c :: l) = List.dropWhile (fun c => c != 13) l :=
        List.dropWhile_cons_of_pos (by simpa using h)
      rw [h', ih]
      show walk 0 l = if c = 13 then walk 1 l else walk 0 l
      rw [if_neg h]

theorem scanFrom_eq {cfg : FindCfg} {b : HB} {all : List Nat} (l : List Nat) (hf : Fits cfg l) :
    scanFrom cfg b all l = finish cfg b all (walk 0 l) := by
  induction hn : l.length using Nat.strong_induction_on generalizing l with
  | _ n ih =>
  rw [scanFrom.eq_def, findCh_eq (by norm_num) hf]
  simp only [Bool.false_eq_true, if_false]
  rw [← walk_skip l]
  have hhead : ∀ x r, l.dropWhile (fun c => c != 13) = x :: r → x = 13 := by
    intro x r e
    have := List.head?_dropWhile_not (fun c => c != 13) l
    rw [e] at this
    simpa using this
  have hlen : (l.dropWhile (fun c => c != 13)).length ≤ l.length := (List.dropWhile_sublist _).length_le
  have hsub : ∀ x ∈ l.dropWhile (fun c => c != 13), x ∈ l := fun x hx => (List.dropWhile_suffix _).subset hx
  generalize hd : l.dropWhile (fun c => c != 13) = dl at *
  rcases dl with _ | ⟨x, _ | ⟨c, r⟩⟩
  · rfl
  · rw [hhead x [] rfl]; rfl
  · rw [hhead x _ rfl]
    simp only
    by_cases hc : c = 10
    · subst hc
      rw [if_neg (by simp)]
      rcases r with _ | ⟨d, r⟩
      · rfl
      · simp only
        by_cases hdd : d = 13
        · subst hdd
          rw [if_neg (by simp)]
          rcases r with _ | ⟨e, r⟩
          · rfl
          · simp only
            by_cases he : e = 10
            · subst he; rfl
            · rw [if_pos he]
              show _ = finish cfg b all (walk 3 (e :: r))
              simp only [walk, if_neg he]; rfl
        · rw [if_pos hdd, dif_pos (by simp at hlen ⊢; omega)]
          rw [ih (d :: r).length (by simp at hlen ⊢; omega) (d :: r) (fun h x hx => hf h x (hsub x (by simp at hx ⊢; tauto))) rfl]
          show _ = finish cfg b all (walk 2 (d :: r))
          simp only [walk, if_neg hdd]
    · rw [if_pos hc]
      show _ = finish cfg b all (walk 1 (c :: r))
      simp only [walk, if_neg hc]; rfl

/-- The automaton as resumed at the start of a block: in the states 1 and 3 the first character may be anything. -/
def resume3 : List Nat → List Nat × W
  | [] => ([], .st 3)
  | c :: r => if c = 10 then (r, .done) else walk 0 (c :: r)
/-- The same from state 2. -/
def resume2 : List Nat → List Nat × W
  | [] => ([], .st 2)
  | c :: r => if c = 13 then resume3 r else walk 0 (c :: r)
/-- The same from state 1. -/
def resume1 : List Nat → List Nat × W
  | [] => ([], .st 1)
  | c :: r => if c = 10 then resume2 r else walk 0 (c :: r)

/-- The automaton on a block. -/
def block (st : Nat) (l : List Nat) : List Nat × W :=
  if st = 1 then resume1 l else if st = 2 then resume2 l else if st = 3 then resume3 l else walk 0 l

theorem case3_eq {cfg : FindCfg} {b : HB} {all : List Nat} {l : List Nat} (hf : Fits cfg l) (h : l ≠ []) :
    case3 cfg b all l = finish cfg b all (resume3 l) := by
  rcases l with _ | ⟨c, r⟩
  · exact absurd rfl h
  · by_cases hc : c = 10
    · simp [case3, resume3, hc, finish]
    · simp only [case3, resume3, if_neg hc, ne_eq, hc, not_false_eq_true, if_true]
      exact scanFrom_eq _ hf

theorem case2_eq {cfg : FindCfg} {b : HB} {all : List Nat} {l : List Nat} (hf : Fits cfg l) (h : l ≠ []) :
    case2 cfg b all l = finish cfg b all (resume2 l) := by
  rcases l with _ | ⟨c, r⟩
  · exact absurd rfl h
  · by_cases hc : c = 13
    · subst hc
      simp only [case2, resume2, if_true, ne_eq, not_true_eq_false, if_false]
      by_cases hr : r = []
      · subst hr; rfl
      · rw [if_neg hr]; exact case3_eq (fun h8 x hx => hf h8 x (by simp [hx])) hr
    · simp only [case2, resume2, if_neg hc, ne_eq, hc, not_false_eq_true, if_true]
      exact scanFrom_eq _ hf

theorem case1_eq {cfg : FindCfg} {b : HB} {all : List Nat} {l : List Nat} (hf : Fits cfg l) (h : l ≠ []) :
    case1 cfg b all l = finish cfg b all (resume1 l) := by
  rcases l with _ | ⟨c, r⟩
  · exact absurd rfl h
  · by_cases hc : c = 10
    · subst hc
      simp only [case1, resume1, if_true, ne_eq, not_true_eq_false, if_false]
      by_cases hr : r = []
      · subst hr; rfl
      · rw [if_neg hr]; exact case2_eq (fun h8 x hx => hf h8 x (by simp [hx])) hr
    · simp only [case1, resume1, if_neg hc, ne_eq, hc, not_false_eq_true, if_true]
      exact scanFrom_eq _ hf

theorem scanBlock_eq {cfg : FindCfg} {b : HB} {st : Nat} {l : List Nat} (hf : Fits cfg l) (h : l ≠ []) :
    scanBlock cfg b st l = finish cfg b l (block st l) := by
  unfold scanBlock block
  rw [if_neg h]
  by_cases h1 : st = 1
  · rw [if_pos h1, if_pos h1]; exact case1_eq hf h
  · rw [if_neg h1, if_neg h1]
    by_cases h2 : st = 2
    · rw [if_pos h2, if_pos h2]; exact case2_eq hf h
    · rw [if_neg h2, if_neg h2]
      by_cases h3 : st = 3
      · rw [if_pos h3, if_pos h3]; exact case3_eq hf h
      · rw [if_neg h3, if_neg h3]; exact scanFrom_eq _ hf

/-! ## The automaton finds the first CR LF CR LF -/

theorem suffix_snoc {α : Type} {s pre : List α} {x c : α} : s ++ [x] <:+ pre ++ [c] ↔ x = c ∧ s <:+ pre := by
  constructor
  · rintro ⟨t, e⟩
    rw [← List.append_assoc] at e
    obtain ⟨h1, h2⟩ := List.append_inj' e rfl
    exact ⟨by simpa using h2, t, h1⟩
  · rintro ⟨rfl, t, rfl⟩
    exact ⟨t, by simp⟩

theorem suf1 {pre : List Nat} {x c : Nat} : [x] <:+ pre ++ [c] ↔ x = c := by
  have := suffix_snoc (s := []) (pre := pre) (x := x) (c := c)
  simpa using this

theorem suf2 {pre : List Nat} {x y c : Nat} : [x, y] <:+ pre ++ [c] ↔ y = c ∧ [x] <:+ pre :=
  suffix_snoc (s := [x])

theorem suf3 {pre : List Nat} {x y z c : Nat} : [x, y, z] <:+ pre ++ [c] ↔ z = c ∧ [x, y] <:+ pre :=
  suffix_snoc (s := [x, y])

theorem suf4 {pre : List Nat} {x y z w c : Nat} : [x, y, z, w] <:+ pre ++ [c] ↔ w = c ∧ [x, y, z] <:+ pre :=
  suffix_snoc (s := [x, y, z])

/-- No prefix ends with CR LF CR LF. -/
def NoEnd (x : List Nat) : Prop := ∀ p s, x = p ++ s → ¬ ([13, 10, 13, 10] <:+ p)

theorem noEnd_snoc {pre : List Nat} {c : Nat} (h : NoEnd pre) (hc : ¬ ([13, 10, 13, 10] <:+ pre ++ [c])) : NoEnd (pre ++ [c]) := by
  intro p s e
  rcases List.eq_nil_or_concat s with rfl | ⟨s', x, rfl⟩
  · rw [List.append_nil] at e; rw [← e]; exact hc
  · rw [List.concat_eq_append, ← List.append_assoc] at e
    obtain ⟨e1, _⟩ := List.append_inj' e rfl
    exact h p s' e1

theorem endsFirst_snoc {pre : List Nat} {c : Nat} (h : NoEnd pre) (hc : [13, 10, 13, 10] <:+ pre ++ [c]) : EndsFirst (pre ++ [c]) := by
  refine ⟨hc, fun p s e hs => ?_⟩
  rcases List.eq_nil_or_concat s with rfl | ⟨s', x, rfl⟩
  · exact absurd rfl hs
  · rw [List.concat_eq_append, ← List.append_assoc] at e
    obtain ⟨e1, _⟩ := List.append_inj' e rfl
    exact h p s' e1

/-- The state tells how much of CR LF CR LF the text ends with. -/
def Inv (q : Nat) (pre : List Nat) : Prop :=
  NoEnd pre ∧ ((q = 0 ∧ ¬ [13] <:+ pre ∧ ¬ [13, 10] <:+ pre) ∨ (q = 1 ∧ [13] <:+ pre ∧ ¬ [13, 10, 13] <:+ pre) ∨
    (q = 2 ∧ [13, 10] <:+ pre) ∨ (q = 3 ∧ [13, 10, 13] <:+ pre))

theorem inv_nil : Inv 0 [] := by
  refine ⟨?_, Or.inl ⟨rfl, by simp, by simp⟩⟩
  intro p s e
  have : p = [] := by simpa using (List.append_eq_nil_iff.1 e.symm).1
  subst this; simp

theorem suf1_of2 {x y : Nat} {pre : List Nat} (h : [x, y] <:+ pre) : [y] <:+ pre := by
  obtain ⟨t, rfl⟩ := h; exact ⟨t ++ [x], by simp⟩

theorem suf1_of3 {x y z : Nat} {pre : List Nat} (h : [x, y, z] <:+ pre) : [z] <:+ pre := by
  obtain ⟨t, rfl⟩ := h; exact ⟨t ++ [x, y], by simp⟩

theorem suf1_uniq {x y : Nat} {pre : List Nat} (h : [x] <:+ pre) (h' : [y] <:+ pre) : x = y := by
  obtain ⟨t, rfl⟩ := h
  exact (suf1.1 h').symm

/-- One character. -/
theorem inv_step {q c : Nat} {pre : List Nat} (h : Inv q pre) (hd : ¬ (q = 3 ∧ c = 10)) :
    Inv (if c = 13 then (if q = 2 then 3 else 1) else if q = 1 ∧ c = 10 then 2 else 0) (pre ++ [c]) := by
  obtain ⟨hn, h⟩ := h
  have he : ¬ ([13, 10, 13, 10] <:+ pre ++ [c]) := by
    rw [suf4]
    rintro ⟨rfl, h4⟩
    rcases h with ⟨_, h1, h2⟩ | ⟨_, h1, h2⟩ | ⟨_, h1⟩ | ⟨h0, h1⟩
    · exact h1 (suf1_of3 h4)
    · exact h2 h4
    · have := suf1_uniq (suf1_of2 h1) (suf1_of3 h4); omega
    · exact hd ⟨h0, rfl⟩
  refine ⟨noEnd_snoc hn he, ?_⟩
  rw [suf1, suf2, suf3]
  by_cases hc : c = 13
  · rw [if_pos hc]
    subst hc
    rcases h with ⟨h0, h1, h2⟩ | ⟨h0, h1, h2⟩ | ⟨h0, h1⟩ | ⟨h0, h1⟩
    · subst h0; simp [h2]
    · subst h0
      have : ¬ [13, 10] <:+ pre := fun g => by have := suf1_uniq h1 (suf1_of2 g); omega
      simp [this]
    · subst h0; simp [h1]
    · subst h0
      have : ¬ [13, 10] <:+ pre := fun g => by have := suf1_uniq (suf1_of3 h1) (suf1_of2 g); omega
      simp [this]
  · rw [if_neg hc]
    by_cases h2 : q = 1 ∧ c = 10
    · rw [if_pos h2]
      obtain ⟨rfl, rfl⟩ := h2
      rcases h with ⟨h0, h1, h2⟩ | ⟨h0, h1, h2⟩ | ⟨h0, h1⟩ | ⟨h0, h1⟩
      · omega
      · simp [h1]
      · omega
      · omega
    · rw [if_neg h2]
      have : ¬ (10 = c ∧ [13] <:+ pre) := by
        rintro ⟨rfl, g⟩
        rcases h with ⟨h0, h1, h2⟩ | ⟨h0, h1, h2⟩ | ⟨h0, h1⟩ | ⟨h0, h1⟩
        · exact h1 g
        · subst h0; simp at *
        · have := suf1_uniq g (suf1_of2 h1); omega
        · subst h0; simp at hd
      left
      exact ⟨rfl, fun e => hc e.symm, this⟩

/-- The meaning of an outcome on the block `l` after the text `pre`. -/
def Good (pre l : List Nat) (r : List Nat × W) : Prop :=
  ∃ a, l = a ++ r.1 ∧
    match r.2 with
    | .st q => r.1 = [] ∧ Inv q (pre ++ l)
    | .done => EndsFirst (pre ++ a)
    | .bad => ∃ p c s, pre ++ l = p ++ 13 :: c :: s ∧ c ≠ 10 ∧ NoEnd (p ++ [13])

theorem good_cons {pre : List Nat} {c : Nat} {l : List Nat} {r : List Nat × W} (h : Good (pre ++ [c]) l r) : Good pre (c :: l) r := by
  obtain ⟨a, e, h⟩ := h
  refine ⟨c :: a, by simp [e], ?_⟩
  obtain ⟨r1, r2⟩ := r
  cases r2 with
  | st q => simpa using h
  | done => simpa using h
  | bad => simpa using h

theorem good_bad {pre : List Nat} {c : Nat} {l : List Nat} (hn : NoEnd pre) (h : [13] <:+ pre) (hc : c ≠ 10) :
    Good pre (c :: l) (c :: l, .bad) := by
  obtain ⟨t, rfl⟩ := h
  exact ⟨[], rfl, t, c, l, by simp, hc, hn⟩

theorem good_done {pre : List Nat} {l : List Nat} (hn : NoEnd pre) (h : [13, 10, 13] <:+ pre) :
    Good pre (10 :: l) (l, .done) :=
  ⟨[10], rfl, endsFirst_snoc hn (suf4.2 ⟨rfl, h⟩)⟩

theorem walk_good (l : List Nat) : ∀ (q : Nat) (pre : List Nat), Inv q pre → Good pre l (walk q l) := by
  induction l with
  | nil =>
    intro q pre h
    have : walk q [] = ([], .st q) := by rcases q with _ | _ | _ | q <;> rfl
    rw [this]
    exact ⟨[], rfl, rfl, by simpa using h⟩
  | cons c l ih =>
    intro q pre h
    have hstep := @inv_step q c pre h
    obtain ⟨hn, h⟩ := h
    rcases h with ⟨h0, h1, h2⟩ | ⟨h0, h1, h2⟩ | ⟨h0, h1⟩ | ⟨h0, h1⟩ <;> subst h0
    · have hs := hstep (by omega)
      simp only [walk]
      by_cases hc : c = 13
      · rw [if_pos hc]; rw [if_pos hc] at hs; exact good_cons (ih _ _ (by simpa using hs))
      · rw [if_neg hc]; rw [if_neg hc] at hs; exact good_cons (ih _ _ (by simpa using hs))
    · have hs := hstep (by omega)
      simp only [walk]
      by_cases hc : c = 10
      · rw [if_pos hc]; subst hc; exact good_cons (ih _ _ (by simpa using hs))
      · rw [if_neg hc]; exact good_bad hn h1 hc
    · have hs := hstep (by omega)
      simp only [walk]
      by_cases hc : c = 13
      · rw [if_pos hc]; rw [if_pos hc] at hs; exact good_cons (ih _ _ (by simpa using hs))
      · rw [if_neg hc]; rw [if_neg hc] at hs; exact good_cons (ih _ _ (by simpa using hs))
    · simp only [walk]
      by_cases hc : c = 10
      · rw [if_pos hc]; subst hc; exact good_done hn h1
      · rw [if_neg hc]; exact good_bad hn (suf1_of3 h1) hc

/-- Restarting at state 0 on a character that does not continue the match. -/
theorem restart_good {q c : Nat} {l pre : List Nat} (h : Inv q pre) (h2 : q = 2 → c ≠ 13) (h13 : q = 1 ∨ q = 3 → c ≠ 10) :
    Good pre (c :: l) (walk 0 (c :: l)) := by
  have hs := inv_step (c := c) h (fun ⟨a, b⟩ => h13 (Or.inr a) b)
  simp only [walk]
  by_cases hc : c = 13
  · rw [if_pos hc]; rw [if_pos hc, if_neg (fun e => h2 e hc)] at hs; exact good_cons (walk_good _ _ _ hs)
  · rw [if_neg hc]; rw [if_neg hc, if_neg (fun e => h13 (Or.inl e.1) e.2)] at hs; exact good_cons (walk_good _ _ _ hs)

theorem resume3_good {l pre : List Nat} (h : Inv 3 pre) : Good pre l (resume3 l) := by
  rcases l with _ | ⟨c, r⟩
  · exact ⟨[], rfl, rfl, by simpa using h⟩
  · by_cases hc : c = 10
    · simp only [resume3, hc, if_true]
      obtain ⟨hn, h⟩ := h
      exact good_done hn (by simpa using h)
    · simp only [resume3, if_neg hc]
      exact restart_good h (by omega) (fun _ => hc)

theorem resume2_good {l pre : List Nat} (h : Inv 2 pre) : Good pre l (resume2 l) := by
  rcases l with _ | ⟨c, r⟩
  · exact ⟨[], rfl, rfl, by simpa using h⟩
  · by_cases hc : c = 13
    · simp only [resume2, hc, if_true]
      have := inv_step (c := 13) h (by omega)
      exact good_cons (resume3_good (by simpa using this))
    · simp only [resume2, if_neg hc]
      exact restart_good h (fun _ => hc) (by omega)

theorem resume1_good {l pre : List Nat} (h : Inv 1 pre) : Good pre l (resume1 l) := by
  rcases l with _ | ⟨c, r⟩
  · exact ⟨[], rfl, rfl, by simpa using h⟩
  · by_cases hc : c = 10
    · simp only [resume1, hc, if_true]
      have := inv_step (c := 10) h (by omega)
      exact good_cons (resume2_good (by simpa using this))
    · simp only [resume1, if_neg hc]
      exact restart_good h (by omega) (fun _ => hc)

theorem block_good {q : Nat} {l pre : List Nat} (h : Inv q pre) : Good pre l (block q l) := by
  unfold block
  by_cases h1 : q = 1
  · rw [if_pos h1]; subst h1; exact resume1_good h
  · rw [if_neg h1]
    by_cases h2 : q = 2
    · rw [if_pos h2]; subst h2; exact resume2_good h
    · rw [if_neg h2]
      by_cases h3 : q = 3
      · rw [if_pos h3]; subst h3; exact resume3_good h
      · rw [if_neg h3]
        have : q = 0 := by
          rcases h.2 with h | h | h | h
          · exact h.1
          · exact absurd h.1 h1
          · exact absurd h.1 h2
          · exact absurd h.1 h3
        subst this
        exact walk_good _ _ _ h

end Verif.Http
