import Verif.Line.Lemmas
/-! # C39: iterating over lines -/
namespace Verif.Line

/-- Every text has exactly one sequence of lines. -/
theorem c39_lines_exist_unique (text : List Nat) : ∃! ls, LinesOf text ls := by
  have ex : ∀ text : List Nat, ∃ ls, LinesOf text ls := by
    intro text
    induction hn : text.length using Nat.strong_induction_on generalizing text with
    | _ n ih =>
      by_cases h : LF ∈ text
      · obtain ⟨a, r, e, ha⟩ := List.append_of_mem h |> fun ⟨a, r, e⟩ => (by
          rcases find_split (cfg := { cw := 16 }) (l := text) (by simp) with ⟨h1, _⟩ | ⟨a, r, h1, h2, _⟩
          · exact absurd h h1
          · exact ⟨a, r, h1, h2⟩ : ∃ a r, text = a ++ LF :: r ∧ LF ∉ a)
        obtain ⟨ls, h1, h2⟩ := ih r.length (by rw [← hn, e]; simp; omega) r rfl
        refine ⟨a :: ls, fun l hl => ?_, ?_⟩
        · rcases List.mem_cons.1 hl with rfl | hl
          · exact ha
          · exact h1 l hl
        · rcases h2 with h2 | ⟨i, l, g1, g2, g3⟩
          · left; rw [terminated_cons, ← h2, e]
          · right; exact ⟨a :: i, l, by simp [g1], g2, by rw [e, g3, terminated_cons]; simp⟩
      · cases text with
        | nil => exact ⟨[], by simp, Or.inl rfl⟩
        | cons c t => exact ⟨[c :: t], by simpa using h, Or.inr ⟨[], c :: t, by simp, by simp, by simp [terminated]⟩⟩
  -- two different sequences would make the wide-character scanner deliver two different results; but directly:
  have split : ∀ (a a' r r' : List Nat), LF ∉ a → LF ∉ a' → a ++ LF :: r = a' ++ LF :: r' → a' = a ∧ r' = r := by
    intro a
    induction a with
    | nil =>
      intro a' r r' _ h2 e
      cases a' with
      | nil => simpa using e.symm
      | cons c a' => simp at e; exact absurd (by simp [e.1]) h2
    | cons c a ih =>
      intro a' r r' h1 h2 e
      cases a' with
      | nil => simp at e; exact absurd (by simp [e.1]) h1
      | cons c' a' =>
        simp at e h1 h2
        obtain ⟨g1, g2⟩ := ih a' r r' h1.2 h2.2 e.2
        exact ⟨by rw [g1, e.1], g2⟩
  -- the first line of a text with at least one line
  have head : ∀ l ls text, LinesOf text (l :: ls) →
      (LF ∉ text ∧ text = l ∧ l ≠ [] ∧ ls = []) ∨ ∃ r, text = l ++ LF :: r ∧ LF ∉ l ∧ LinesOf r ls := by
    rintro l ls text ⟨h1, h2⟩
    rcases h2 with h | ⟨init, last, g1, g2, g3⟩
    · right
      exact ⟨terminated ls, by rw [h, terminated_cons], h1 l (by simp), fun x hx => h1 x (by simp [hx]), Or.inl rfl⟩
    · cases init with
      | nil =>
        simp at g1
        obtain ⟨rfl, rfl⟩ := g1
        left
        simp [terminated] at g3
        exact ⟨by rw [g3]; exact h1 l (by simp), g3, g2, rfl⟩
      | cons x init =>
        simp at g1
        obtain ⟨rfl, g1⟩ := g1
        right
        exact ⟨terminated init ++ last, by rw [g3, terminated_cons]; simp, h1 l (by simp), fun x hx => h1 x (by simp [hx]),
          Or.inr ⟨init, last, g1, g2, rfl⟩⟩
  have nilc : ∀ text, LinesOf text [] → text = [] := by
    rintro text ⟨_, h | ⟨i, l, h, _⟩⟩
    · simpa [terminated] using h
    · simp at h
  have uniq : ∀ ls ls' text, LinesOf text ls → LinesOf text ls' → ls = ls' := by
    intro ls
    induction ls with
    | nil =>
      intro ls' text h h'
      have := nilc text h
      subst this
      cases ls' with
      | nil => rfl
      | cons l ls =>
        rcases head _ _ _ h' with ⟨_, g1, g2, _⟩ | ⟨r, g, _⟩
        · exact absurd g1.symm g2
        · simp at g
    | cons l ls ih =>
      intro ls' text h h'
      cases ls' with
      | nil =>
        have := nilc text h'
        subst this
        rcases head _ _ _ h with ⟨_, g1, g2, _⟩ | ⟨r, g, _⟩
        · exact absurd g1.symm g2
        · simp at g
      | cons l' ls' =>
        rcases head _ _ _ h with ⟨a1, a2, a3, a4⟩ | ⟨r, a1, a2, a3⟩ <;>
          rcases head _ _ _ h' with ⟨b1, b2, b3, b4⟩ | ⟨r', b1, b2, b3⟩
        · rw [← a2, ← b2, a4, b4]
        · exact absurd (by rw [b1]; simp) a1
        · exact absurd (by rw [a1]; simp) b1
        · obtain ⟨g1, g2⟩ := split l l' r r' a2 b2 (by rw [← a1, ← b1])
          subst g1; subst g2
          rw [ih ls' r' a3 b3]
  obtain ⟨ls, h⟩ := ex text
  exact ⟨ls, h, fun ls' h' => uniq _ _ _ h' h⟩

/-- The character search stops at the first character equal to `ch` (with `findnot`: different from `ch`), or at the
end, for every way it can be compiled: `memchr`, vectors of any width, the 8-bytes-at-a-time loop, or the plain loop (partial: except with
the inverted zero test of AVX512BW, see `c39_avx512_violated`). -/
theorem c39_find_partial (cfg : FindCfg) (ch : Nat) (findnot : Bool) (hc : ch < 256) (l : List Nat)
    (h : cfg.cw = 8 → ∀ c ∈ l, c < 256) :
    ∃ pre, l = pre ++ findCh cfg ch findnot l ∧ (∀ c ∈ pre, (c = ch) ↔ findnot = true) ∧
      ∀ c r, findCh cfg ch findnot l = c :: r → ((c = ch) ↔ findnot = false) := by
  rw [findCh_eq hc h]
  refine ⟨l.takeWhile (fun c => if findnot then c == ch else c != ch), (List.takeWhile_append_dropWhile).symm, ?_, ?_⟩
  · intro c hm
    have := List.all_takeWhile (p := fun c => if findnot then c == ch else c != ch) (l := l)
    rw [List.all_eq_true] at this
    have := this c hm
    cases findnot <;> simp_all
  · intro c r e
    have := List.head?_dropWhile_not (fun c => if findnot = true then c == ch else c != ch) l
    rw [e] at this
    simp only [List.head?_cons] at this
    cases findnot <;> simp_all

/-- Violated with AVX512BW (compilers having `__builtin_ia32_ptestmb512`, no `memchr`): behind 64 other characters, a block of 64 with an LF in
it is passed over and a block without one ends the vector loop. -/
theorem c39_avx512_violated :
    findChT { simd := 64 } 10 false true (List.replicate 64 97 ++ (10 :: List.replicate 63 98) ++ [99, 10]) = [10] ∧
    findCh { simd := 64 } 10 false (List.replicate 64 97 ++ (10 :: List.replicate 63 98) ++ [99, 10]) =
      10 :: List.replicate 63 98 ++ [99, 10] := by
  refine ⟨by decide +kernel, by decide +kernel⟩

/-- The SWAR loop is taken, and the LF in the second word is found. -/
example : findCh { cw := 8 } 10 false [97, 97, 97, 97, 97, 97, 97, 97, 98, 10, 99] = [10, 99] := by decide +kernel

/-- **Line iteration.** Whatever is in the stream's buffer, however the rest of the text is cut into blocks (empty
ones included), and however the search was compiled, `for(auto const& line : line_scanner(in))` sees exactly the lines of the text from the current
position on, each with its exact contents, and then ends.  No memory is read that was not
written and nothing is written out of bounds (the result is not `none`). Partial: the search is not the one with the inverted zero test of
AVX512BW (`c39_avx512_violated`). -/
theorem c39_lines_partial (cfg : FindCfg) (cs : Nat) (data : List Nat) (pos : Nat) (future : List (List Nat)) (ls : List (List Nat))
    (hpos : pos ≤ data.length)
    (h8 : cfg.cw = 8 → ∀ c ∈ data.drop pos ++ future.flatten, c < 256)
    (hs : (data.drop pos ++ future.flatten).length < 2 ^ 64)
    (hls : LinesOf (data.drop pos ++ future.flatten) ls) (n : Nat) (hn : ls.length ≤ n) :
    forLines cfg cs n data pos future = some (ls, true) :=
  lines_ok cfg cs ls ⟨data, pos, future, {}, true, false⟩ rfl hpos h8 hs hls n hn

/-- Blocks `x|ab`, `c⏎⏎d`, (empty), `e`, position after `x`: the lines are `abc`, (empty), `de`. -/
example : forLines { simd := 16 } 1 3 [120, 97, 98] 1 [[99, 10, 10, 100], [], [101]] =
    some ([[97, 98, 99], [], [100, 101]], true) ∧
    LinesOf [97, 98, 99, 10, 10, 100, 101] [[97, 98, 99], [], [100, 101]] :=
  ⟨by decide +kernel, by decide, Or.inr ⟨[[97, 98, 99], []], [100, 101], by decide⟩⟩

/-- Auxiliary: the state after a line of length `k`. -/
def bump (s : CSt) (k : Nat) : CSt :=
  ⟨s.data, s.pos + k + 1, { s.buf with view := .stream s.pos (s.pos + k) }, s.live⟩

/-- **Line iteration over contiguous input (loaded files, string views), partial.** If the text is empty or ends with
LF, exactly its lines are seen. Missing: texts whose last line has no LF, see `c39_contiguous_last_line_violated`. -/
theorem c39_contiguous_partial (cfg : FindCfg) (data : List Nat) (pos : Nat) (ls : List (List Nat))
    (hpos : pos ≤ data.length) (h8 : cfg.cw = 8 → ∀ c ∈ data.drop pos, c < 256)
    (hls : LinesOf (data.drop pos) ls) (hlf : data.drop pos = terminated ls) (n : Nat) (hn : ls.length ≤ n) :
    forLinesContiguous cfg n data pos = some (ls, true) := by
  have key : ∀ (ls : List (List Nat)) (s : CSt) (n : Nat), (∀ l ∈ ls, LF ∉ l) → s.live = true → s.pos ≤ s.data.length →
      (cfg.cw = 8 → ∀ c ∈ s.data.drop s.pos, c < 256) → s.data.drop s.pos = terminated ls → ls.length ≤ n →
      (advanceContiguous cfg s).bind (collectC (advanceContiguous cfg) n) = some (ls, true) := by
    intro ls
    induction ls with
    | nil =>
      intro s n _ hl hp _ he _
      have he' : s.data.drop s.pos = [] := by simpa [terminated] using he
      unfold advanceContiguous
      simp only
      have : findCh cfg 10 false [] = [] := by rw [findCh_eq (by norm_num) (by simp)]; rfl
      rw [he', if_pos this, if_pos rfl, Option.bind_some]
      cases n <;> simp [collectC]
    | cons l ls ih =>
      intro s n hno hl hp h8 he hn
      obtain ⟨n, rfl⟩ : ∃ m, n = m + 1 := ⟨n - 1, by simp at hn; omega⟩
      rw [terminated_cons] at he
      have hf : findCh cfg 10 false (s.data.drop s.pos) = LF :: terminated ls := by
        rw [findCh_eq (by norm_num) h8, he]
        simp only [Bool.false_eq_true, if_false]
        rw [List.dropWhile_append_of_pos]
        · simp [LF]
        · intro x hx
          have : x ≠ LF := by rintro rfl; exact hno l (by simp) hx
          simpa [LF] using this
      have hlen := congrArg List.length he
      simp at hlen
      have hk : (s.data.drop s.pos).length - (LF :: terminated ls).length = l.length := by
        rw [he]; simp
      have hadv : advanceContiguous cfg s = some (bump s l.length) := by
        unfold advanceContiguous
        simp only
        rw [hf, if_neg (by simp), hk, if_neg (by omega)]; rfl
      rw [hadv, Option.bind_some, collectC, if_pos (show (bump s l.length).live = true from hl)]
      have hd : s.data.drop (s.pos + l.length + 1) = terminated ls := by
        rw [Nat.add_assoc, ← List.drop_drop, he, ← List.drop_drop]; simp
      have := ih (bump s l.length) n
        (fun x hx => hno x (by simp [hx])) hl (by show s.pos + l.length + 1 ≤ s.data.length; omega)
        (fun h c hc => by
          change c ∈ s.data.drop (s.pos + l.length + 1) at hc
          exact h8 h c (by rw [he]; rw [hd] at hc; simp [hc])) hd (by simpa using hn)
      have hv : derefC (bump s l.length) =
          some l := by
        simp only [derefC, bump]
        rw [readCells_stream (by omega), he]; simp
      rw [hv, Option.bind_some]
      cases hadv2 : advanceContiguous cfg (bump s l.length) with
      | none => rw [hadv2] at this; simp at this
      | some s'' =>
        rw [hadv2] at this
        simp only [Option.bind_some] at this ⊢
        rw [this]; rfl
  exact key ls ⟨data, pos, {}, true⟩ n hls.1 rfl hpos h8 hlf hn

example : forLinesContiguous { simd := 32 } 2 [97, 10, 98, 99, 10] 0 = some ([[97], [98, 99]], true) ∧
    [97, 10, 98, 99, 10] = terminated [[97], [98, 99]] := by decide +kernel

/-- **Violated: the last line of a contiguous input that does not end with LF.** The view is not updated: the text
`a⏎b` is delivered as the lines `a`, `a`, and the text `b` as one empty line. -/
theorem c39_contiguous_last_line_violated :
    (LinesOf [97, 10, 98] [[97], [98]] ∧ forLinesContiguous {} 5 [97, 10, 98] 0 = some ([[97], [97]], true)) ∧
    (LinesOf [98] [[98]] ∧ forLinesContiguous {} 5 [98] 0 = some ([[]], true)) :=
  ⟨⟨⟨by decide, Or.inr ⟨[[97]], [98], by decide⟩⟩, by decide +kernel⟩,
    ⟨⟨by decide, Or.inr ⟨[], [98], by decide⟩⟩, by decide +kernel⟩⟩

/-- The same text from a stream that is not contiguous is delivered correctly. -/
example : forLines {} 1 5 [97, 10, 98] 0 [] = some ([[97], [98]], true) := by decide +kernel

/-- **Violated: a contiguous input behind a mutex.** The loop over the lines of an empty text never ends: after any
number `n` of rounds the user has seen `n` empty lines and the loop goes on. -/
theorem c39_mutex_contiguous_violated (n : Nat) :
    LinesOf [] [] ∧ forLinesMutex {} 1 n [] 0 = some (List.replicate n [], false) := by
  refine ⟨⟨by simp, Or.inl rfl⟩, ?_⟩
  have key : ∀ (n : Nat) (s : CSt), s.data = [] → s.pos = 0 → s.live = true → s.buf = ⟨[], 0, .own 0 0, true⟩ →
      collectC (fun s => (advanceMutex {} 1 s).bind fun r => if r.2 then some r.1 else none) n s =
        some (List.replicate n [], false) := by
    intro n
    induction n with
    | zero => intro s _ _ h _; simp [collectC, h]
    | succ n ih =>
      rintro ⟨d, p, b, l⟩ h1 h2 h3 h4
      simp only at h1 h2 h3 h4
      subst h1 h2 h3 h4
      rw [collectC, if_pos rfl]
      have e1 : derefC ⟨[], 0, ⟨[], 0, .own 0 0, true⟩, true⟩ = some [] := by decide +kernel
      have e2 : (advanceMutex {} 1 ⟨[], 0, ⟨[], 0, .own 0 0, true⟩, true⟩) =
        some (⟨[], 0, ⟨[], 0, .own 0 0, true⟩, true⟩, true) := by decide +kernel
      rw [e1, Option.bind_some, e2, Option.bind_some]
      simp only [if_true, Option.bind_some]
      rw [ih _ rfl rfl rfl rfl]; rfl
  unfold forLinesMutex
  simp only
  have e : advanceMutex {} 1 ⟨[], 0, {}, true⟩ = some (⟨[], 0, ⟨[], 0, .own 0 0, true⟩, true⟩, true) := by decide +kernel
  rw [e, Option.bind_some]
  simp only [if_true, Option.bind_some]
  exact key n _ rfl rfl rfl rfl

end Verif.Line
