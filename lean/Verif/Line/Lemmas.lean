import Verif.Line.Find
/-! # Lemmas: the line scanner -/
namespace Verif.Line

theorem copyAt_ok {mem : List (Option Nat)} {off : Nat} {src : List (Option Nat)} (h : off + src.length ≤ mem.length) :
    ∃ m, copyAt mem off src = some m ∧ m.length = mem.length ∧ m.take (off + src.length) = mem.take off ++ src := by
  refine ⟨_, by rw [copyAt, if_pos h], by simp; omega, ?_⟩
  have : off + src.length = (mem.take off ++ src).length := by simp; omega
  rw [this, List.take_left]

/-- The scanner's own buffer holds the characters `acc`. -/
def Holds (b : Buf) (acc : List Nat) : Prop :=
  b.curr = acc.length ∧ b.curr ≤ b.mem.length ∧ b.mem.take b.curr = acc.map some

theorem growCopy_ok {cs : Nat} {b : Buf} {acc src : List Nat} (h : Holds b acc) (hs : acc.length + src.length < 2 ^ 64) :
    ∃ b', growCopy cs b src = some b' ∧ Holds b' (acc ++ src) ∧ b'.view = b.view ∧ b'.inbuffer = b.inbuffer := by
  obtain ⟨h1, h2, h3⟩ := h
  unfold growCopy
  simp only
  rw [Nat.mod_eq_of_lt (by omega : b.curr + src.length < 2 ^ 64)]
  generalize hcap : (if (if (2 ^ 64 - 1) / cs / 2 ≤ b.mem.length then (2 ^ 64 - 1) / cs else b.mem.length * 2 % 2 ^ 64) <
      b.curr + src.length then b.curr + src.length
    else if (2 ^ 64 - 1) / cs / 2 ≤ b.mem.length then (2 ^ 64 - 1) / cs else b.mem.length * 2 % 2 ^ 64) = cap
  have hge : b.curr + src.length ≤ cap := by
    subst hcap
    generalize (if (2 ^ 64 - 1) / cs / 2 ≤ b.mem.length then (2 ^ 64 - 1) / cs else b.mem.length * 2 % 2 ^ 64) = q
    split <;> omega
  obtain ⟨m, e1, l1, t1⟩ := copyAt_ok (mem := List.replicate cap none) (off := 0) (src := b.mem.take b.curr)
    (by simp; omega)
  obtain ⟨m', e2, l2, t2⟩ := copyAt_ok (mem := m) (off := b.curr) (src := src.map some)
    (by rw [l1]; simpa using hge)
  rw [e1]
  simp only [Option.bind_some]
  rw [e2]
  refine ⟨_, rfl, ⟨by simp [h1], ?_, ?_⟩, rfl, rfl⟩
  · show b.curr + src.length ≤ m'.length
    rw [l2, l1]; simpa using hge
  · show m'.take (b.curr + src.length) = _
    rw [List.length_map] at t2
    rw [t2, List.map_append]
    have : (b.mem.take b.curr).length = b.curr := by simp; omega
    rw [Nat.zero_add, this] at t1
    rw [t1, h3]; simp

theorem copyNext_ok {cs : Nat} {b : Buf} {acc src : List Nat} (h : Holds b acc) (hs : acc.length + src.length < 2 ^ 64) :
    ∃ b', copyNext cs b src = some b' ∧ Holds b' (acc ++ src) ∧ b'.view = b.view ∧ b'.inbuffer = b.inbuffer := by
  unfold copyNext
  simp only
  by_cases hf : b.mem.length - b.curr < src.length
  · rw [if_pos hf]; exact growCopy_ok h hs
  · rw [if_neg hf]
    obtain ⟨h1, h2, h3⟩ := h
    obtain ⟨m, e, l, t⟩ := copyAt_ok (mem := b.mem) (off := b.curr) (src := src.map some) (by rw [List.length_map]; omega)
    rw [e]
    refine ⟨_, rfl, ⟨by simp [h1], ?_, ?_⟩, rfl, rfl⟩
    · show b.curr + src.length ≤ m.length
      rw [l]; omega
    · rw [List.length_map] at t
      show m.take (b.curr + src.length) = _
      rw [t, h3, List.map_append]

/-- State between two looks at the input: `acc` is the part of the current line read so far. -/
def Pending (b : Buf) (acc : List Nat) : Prop :=
  LF ∉ acc ∧ if b.inbuffer then Holds b acc ∧ acc ≠ [] else acc = []

theorem mapM_id_some (l : List Nat) : (l.map some).mapM id = some l := by
  induction l with
  | nil => rfl
  | cons c l ih => rw [List.map_cons, List.mapM_cons, ih]; rfl

theorem readCells_own {b : Buf} {acc : List Nat} (h : Holds b acc) : readCells b.mem 0 b.curr = some acc := by
  obtain ⟨h1, h2, h3⟩ := h
  rw [readCells, if_pos ⟨by omega, h2⟩, List.drop_zero, Nat.sub_zero, h3, mapM_id_some]

theorem readCells_stream {data : List Nat} {b k : Nat} (h : b + k ≤ data.length) :
    readCells (data.map some) b (b + k) = some ((data.drop b).take k) := by
  rw [readCells, if_pos ⟨by omega, by simpa using h⟩, Nat.add_sub_cancel_left, ← List.map_drop, ← List.map_take, mapM_id_some]

/-- Splitting at the first LF. -/
theorem find_split {cfg : FindCfg} {l : List Nat} (h : cfg.cw = 8 → ∀ c ∈ l, c < 256) :
    (LF ∉ l ∧ findCh cfg 10 false l = []) ∨
    ∃ a r, l = a ++ LF :: r ∧ LF ∉ a ∧ findCh cfg 10 false l = LF :: r := by
  rw [findCh_eq (by norm_num) h]
  simp only [Bool.false_eq_true, if_false]
  clear h
  induction l with
  | nil => left; simp
  | cons c l ih =>
    by_cases hc : c = LF
    · right; refine ⟨[], l, by simp [hc], by simp, ?_⟩
      subst hc; simp [LF]
    · have hb : (c != 10) = true := by simpa [LF] using hc
      have hd : List.dropWhile (fun c => c != 10) (c :: l) = List.dropWhile (fun c => c != 10) l :=
        List.dropWhile_cons_of_pos hb
      rw [hd]
      rcases ih with ⟨h1, h2⟩ | ⟨a, r, h1, h2, h3⟩
      · left; exact ⟨by simp [h1, Ne.symm hc], h2⟩
      · right; exact ⟨c :: a, r, by simp [h1], by simp [h2, Ne.symm hc], h3⟩

/-- What the input still holds, from the stream position on. -/
def restOf (data : List Nat) (pos : Nat) (future : List (List Nat)) : List Nat := data.drop pos ++ future.flatten

/-- After the increment, when there was an LF: the line before it is visible, the rest remains. -/
def Gave (s : St) (line rest : List Nat) : Prop :=
  s.live = true ∧ s.lastEof = false ∧ deref s = some line ∧ s.pos ≤ s.data.length ∧ restOf s.data s.pos s.future = rest

theorem nextLine_none {cfg : FindCfg} {cs : Nat} {b : Buf} {acc l : List Nat} {first : Nat} (hp : Pending b acc)
    (hl : LF ∉ l) (hne : l ≠ []) (h : cfg.cw = 8 → ∀ c ∈ l, c < 256) (hs : acc.length + l.length < 2 ^ 64) :
    ∃ b', nextLine cfg cs b first l = some (b', l.length, false) ∧ Pending b' (acc ++ l) := by
  unfold nextLine
  simp only
  rcases find_split h with ⟨_, he⟩ | ⟨a, r, e, _, _⟩
  · rw [if_pos he, nextPartial]
    obtain ⟨hp1, hp2⟩ := hp
    by_cases hi : b.inbuffer = true
    · rw [if_pos hi] at hp2
      rw [if_neg (by simp [hi])]
      obtain ⟨b', e, g1, g2, g3⟩ := copyNext_ok (cs := cs) hp2.1 hs
      rw [e]
      refine ⟨b', rfl, by simp [hp1, hl], ?_⟩
      rw [g3, if_pos hi]; exact ⟨g1, by simp [hne]⟩
    · rw [if_neg hi] at hp2
      rw [if_pos (by simpa using hi)]
      obtain ⟨b', e, g1, g2, g3⟩ := copyNext_ok (cs := cs) (b := { b with inbuffer := true, curr := 0 }) (acc := []) (src := l)
        ⟨rfl, Nat.zero_le _, by simp⟩ (by simp at hs ⊢; omega)
      rw [e]
      refine ⟨b', rfl, by simp [hp1, hl], ?_⟩
      subst hp2
      rw [g3]; exact ⟨by simpa using g1, by simpa using hne⟩
  · exact absurd (by rw [e]; simp) hl

theorem nextLine_some {cfg : FindCfg} {cs : Nat} {b : Buf} {acc l a r : List Nat} {first : Nat} (hp : Pending b acc)
    (hl : l = a ++ LF :: r) (ha : LF ∉ a) (h : cfg.cw = 8 → ∀ c ∈ l, c < 256) (hs : acc.length + l.length < 2 ^ 64) :
    ∃ b', nextLine cfg cs b first l = some (b', a.length + 1, true) ∧
      ((Holds b' (acc ++ a) ∧ b'.view = .own 0 b'.curr) ∨ (acc = [] ∧ b'.view = .stream first (first + a.length))) := by
  unfold nextLine
  simp only
  rcases find_split h with ⟨h1, he⟩ | ⟨a', r', e, ha', he⟩
  · exact absurd (by rw [hl]; simp) h1
  · have : a' = a ∧ r' = r := by
      rw [hl] at e
      have key : ∀ (a a' r r' : List Nat), LF ∉ a → LF ∉ a' → a ++ LF :: r = a' ++ LF :: r' → a' = a ∧ r' = r := by
        intro a
        induction a with
        | nil =>
          intro a' r r' _ h2 e
          cases a' with
          | nil => simpa using e.symm
          | cons c a' => simp at e; exact absurd (by simp [e.1]) h2
        | cons c a ih =>
          intro a' r r' h1 h2 e
          cases a' with
          | nil => simp at e; exact absurd (by simp [e.1]) h1
          | cons c' a' =>
            simp at e h1 h2
            obtain ⟨g1, g2⟩ := ih a' r r' h1.2 h2.2 e.2
            exact ⟨by rw [g1, e.1], g2⟩
      exact key a a' r r' ha ha' e
    obtain ⟨rfl, rfl⟩ := this
    rw [he, if_neg (by simp)]
    have hk : l.length - (LF :: r').length = a'.length := by rw [e]; simp
    rw [hk]
    have ht : l.take a'.length = a' := by rw [e]; simp
    obtain ⟨hp1, hp2⟩ := hp
    by_cases hi : b.inbuffer = true
    · rw [if_pos hi] at hp2
      rw [if_pos hi, nextInbuffer, ht]
      obtain ⟨b', e', g1, g2, g3⟩ := copyNext_ok (cs := cs) (src := a') hp2.1 (by rw [e] at hs; simp at hs; omega)
      rw [e']
      exact ⟨_, rfl, Or.inl ⟨g1, rfl⟩⟩
    · rw [if_neg hi] at hp2
      rw [if_neg hi]
      exact ⟨_, rfl, Or.inr ⟨hp2, rfl⟩⟩

/-- The loop, given the part `acc` of the current line already taken. -/
theorem nextLoop_ok (cfg : FindCfg) (cs : Nat) (data : List Nat) (pos : Nat) (buf : Buf) (future : List (List Nat))
    (acc : List Nat) (hp : Pending buf acc) (hpos : pos ≤ data.length)
    (h8 : cfg.cw = 8 → ∀ c ∈ restOf data pos future, c < 256)
    (hs : acc.length + (restOf data pos future).length < 2 ^ 64) :
    (∀ a r, restOf data pos future = a ++ LF :: r → LF ∉ a →
      ∃ s, nextLoop cfg cs false data pos buf future = some s ∧ Gave s (acc ++ a) r) ∧
    (LF ∉ restOf data pos future →
      ∃ s, nextLoop cfg cs false data pos buf future = some s ∧ s.pos = s.data.length ∧ s.future = [] ∧
        (acc ++ restOf data pos future = [] → s.live = false) ∧
        (acc ++ restOf data pos future ≠ [] → s.live = true ∧ s.lastEof = true ∧
          deref s = some (acc ++ restOf data pos future))) := by
  induction hn : (future.map (fun c => c.length + 1)).sum + (data.length - pos) using Nat.strong_induction_on
    generalizing data pos buf future acc with
  | _ n ih =>
  rw [nextLoop.eq_def]
  by_cases he : pos = data.length
  · rw [if_pos he, if_neg (by simp)]
    have hd : data.drop pos = [] := by rw [he]; simp
    cases future with
    | nil =>
      have hr : restOf data pos [] = [] := by simp [restOf, hd]
      rw [hr]
      refine ⟨fun a r e => by simp at e, fun _ => ?_⟩
      obtain ⟨hp1, hp2⟩ := hp
      by_cases hi : buf.inbuffer = true
      · rw [if_pos hi] at hp2
        simp only [eofLine, hi, if_true]
        refine ⟨_, rfl, he, rfl, fun e => absurd (by simpa using e) hp2.2, fun _ => ⟨rfl, rfl, ?_⟩⟩
        rw [List.append_nil]
        exact readCells_own hp2.1
      · rw [if_neg hi] at hp2
        simp only [eofLine, hi, Bool.false_eq_true, if_false]
        exact ⟨_, rfl, he, rfl, fun _ => rfl, fun e => absurd (by simp [hp2]) e⟩
    | cons c future =>
      have hr : restOf data pos (c :: future) = restOf c 0 future := by simp [restOf, hd]
      rw [hr] at h8 hs ⊢
      exact ih _ (by rw [← hn]; simp; omega) c 0 buf future acc hp (Nat.zero_le _) h8 hs rfl
  · rw [if_neg he]
    have hne : data.drop pos ≠ [] := by
      intro e; have := congrArg List.length e; simp at this; omega
    have h8d : cfg.cw = 8 → ∀ c ∈ data.drop pos, c < 256 := fun h c hc => h8 h c (by simp [restOf, hc])
    have hsd : acc.length + (data.drop pos).length < 2 ^ 64 := by simp [restOf] at hs ⊢; omega
    by_cases hl : LF ∈ data.drop pos
    · obtain ⟨a, r, hsp, ha⟩ : ∃ a r, data.drop pos = a ++ LF :: r ∧ LF ∉ a := by
        rcases find_split h8d with ⟨h1, _⟩ | ⟨a, r, h1, h2, _⟩
        · exact absurd hl h1
        · exact ⟨a, r, h1, h2⟩
      obtain ⟨b', e, hb⟩ := nextLine_some (cs := cs) (first := pos) hp hsp ha h8d hsd
      have hlen := congrArg List.length hsp
      simp at hlen
      have hcond : ¬ (data.length < pos + (a.length + 1) ∨ a.length + 1 = 0) := by omega
      rw [e]
      simp only [dif_neg hcond, if_true]
      refine ⟨?_, fun h => absurd (by simp [restOf, hl]) h⟩
      intro a' r' e' ha'
      have key : a' = a ∧ r' = r ++ future.flatten := by
        have e2 : a ++ LF :: (r ++ future.flatten) = a' ++ LF :: r' := by
          rw [← e', restOf, hsp]; simp
        exact (by
          have key : ∀ (a a' r r' : List Nat), LF ∉ a → LF ∉ a' → a ++ LF :: r = a' ++ LF :: r' → a' = a ∧ r' = r := by
            intro a
            induction a with
            | nil =>
              intro a' r r' _ h2 e
              cases a' with
              | nil => simpa using e.symm
              | cons c a' => simp at e; exact absurd (by simp [e.1]) h2
            | cons c a ih =>
              intro a' r r' h1 h2 e
              cases a' with
              | nil => simp at e; exact absurd (by simp [e.1]) h1
              | cons c' a' =>
                simp at e h1 h2
                obtain ⟨g1, g2⟩ := ih a' r r' h1.2 h2.2 e.2
                exact ⟨by rw [g1, e.1], g2⟩
          exact key _ _ _ _ ha ha' e2)
      obtain ⟨rfl, rfl⟩ := key
      refine ⟨_, rfl, rfl, rfl, ?_, by show pos + (a'.length + 1) ≤ data.length; omega, ?_⟩
      · rcases hb with ⟨g1, g2⟩ | ⟨g1, g2⟩
        · simp only [deref, g2]; exact readCells_own g1
        · simp only [deref, g2]
          rw [readCells_stream (by omega), hsp, g1]; simp
      · show (data.drop (pos + (a'.length + 1))) ++ _ = _
        rw [← List.drop_drop, hsp, ← List.drop_drop]; simp
    · obtain ⟨b', e, hb⟩ := nextLine_none (cs := cs) (first := pos) hp hl hne h8d hsd
      have hlen : (data.drop pos).length = data.length - pos := by simp
      have hcond : ¬ (data.length < pos + (data.drop pos).length ∨ (data.drop pos).length = 0) := by omega
      rw [e]
      simp only [dif_neg hcond, Bool.false_eq_true, if_false]
      have hp' : pos + (data.drop pos).length = data.length := by omega
      rw [hp']
      have hr : restOf data data.length future = future.flatten := by simp [restOf]
      have hr' : restOf data pos future = data.drop pos ++ future.flatten := rfl
      have := ih _ (by rw [← hn]; simp; omega) data data.length b' future (acc ++ data.drop pos) hb (le_refl _)
        (fun h c hc => h8 h c (by rw [hr] at hc; simp [restOf, hc])) (by rw [hr]; rw [hr'] at hs; simp at hs ⊢; omega) rfl
      rw [hr] at this
      rw [hr']
      refine ⟨?_, ?_⟩
      · intro a r e' ha
        -- the LF lies in the future
        have : ∃ a', a = data.drop pos ++ a' ∧ future.flatten = a' ++ LF :: r := by
          generalize data.drop pos = d at hl e'
          clear this hr hr' hb e hlen hcond hp' h8d hsd hne
          induction d generalizing a with
          | nil => exact ⟨a, rfl, by simpa using e'⟩
          | cons x d ihd =>
            cases a with
            | nil => simp at e'; exact absurd (by simp [e'.1]) hl
            | cons y a =>
              simp at e'
              obtain ⟨rfl, e'⟩ := e'
              obtain ⟨a', g1, g2⟩ := ihd a (by simp at ha; exact ha.2) (by simp at hl; exact hl.2) e'
              exact ⟨a', by simp [g1], g2⟩
        obtain ⟨a', rfl, g2⟩ := this
        obtain ⟨s, e1, e2⟩ := this.1 a' r g2 (by simp at ha; exact ha.2)
        exact ⟨s, e1, by rw [← List.append_assoc]; exact e2⟩
      · intro h
        obtain ⟨s, e1, e2, e3, e4, e5⟩ := this.2 (by simp at h; simpa using h.2)
        rw [List.append_assoc] at e4 e5
        exact ⟨s, e1, e2, e3, e4, e5⟩

/-- One increment. -/
theorem advance_ok {cfg : FindCfg} {cs : Nat} {s : St} (hl : s.lastEof = false) (hpos : s.pos ≤ s.data.length)
    (h8 : cfg.cw = 8 → ∀ c ∈ restOf s.data s.pos s.future, c < 256)
    (hs : (restOf s.data s.pos s.future).length < 2 ^ 64) :
    (∀ a r, restOf s.data s.pos s.future = a ++ LF :: r → LF ∉ a →
      ∃ s', advance cfg cs s = some s' ∧ Gave s' a r) ∧
    (LF ∉ restOf s.data s.pos s.future →
      ∃ s', advance cfg cs s = some s' ∧ s'.pos = s'.data.length ∧ s'.future = [] ∧
        (restOf s.data s.pos s.future = [] → s'.live = false) ∧
        (restOf s.data s.pos s.future ≠ [] → s'.live = true ∧ s'.lastEof = true ∧
          deref s' = some (restOf s.data s.pos s.future))) := by
  unfold advance
  rw [hl]
  have := nextLoop_ok cfg cs s.data s.pos { s.buf with inbuffer := false } s.future [] ⟨by simp, by simp⟩ hpos h8 (by simpa using hs)
  simpa using this

theorem advance_end {cfg : FindCfg} {cs : Nat} {s : St} (hl : s.lastEof = true) (hpos : s.pos = s.data.length) :
    ∃ s', advance cfg cs s = some s' ∧ s'.live = false := by
  unfold advance
  rw [nextLoop.eq_def, if_pos hpos, if_pos hl]
  exact ⟨_, rfl, rfl⟩

theorem collect_dead {cfg : FindCfg} {cs n : Nat} {s : St} (h : s.live = false) : collect cfg cs n s = some ([], true) := by
  cases n <;> simp [collect, h]

theorem terminated_cons (l : List Nat) (ls : List (List Nat)) : terminated (l :: ls) = l ++ LF :: terminated ls := by
  simp [terminated]

/-- The loop over all lines, from a fresh or continued iterator. -/
theorem lines_ok (cfg : FindCfg) (cs : Nat) (ls : List (List Nat)) (s : St) (hl : s.lastEof = false)
    (hpos : s.pos ≤ s.data.length) (h8 : cfg.cw = 8 → ∀ c ∈ restOf s.data s.pos s.future, c < 256)
    (hs : (restOf s.data s.pos s.future).length < 2 ^ 64) (hls : LinesOf (restOf s.data s.pos s.future) ls)
    (n : Nat) (hn : ls.length ≤ n) : (advance cfg cs s).bind (collect cfg cs n) = some (ls, true) := by
  induction ls generalizing s n with
  | nil =>
    obtain ⟨_, h2⟩ := hls
    have he : restOf s.data s.pos s.future = [] := by
      rcases h2 with h | ⟨i, l, h, _⟩
      · simpa [terminated] using h
      · simp at h
    obtain ⟨s', e, _, _, g, _⟩ := (advance_ok hl hpos h8 hs).2 (by rw [he]; simp)
    rw [e, Option.bind_some, collect_dead (g he)]
  | cons l ls ih =>
    obtain ⟨h1, h2⟩ := hls
    obtain ⟨n, rfl⟩ : ∃ m, n = m + 1 := ⟨n - 1, by simp at hn; omega⟩
    have hn' : ls.length ≤ n := by simpa using hn
    by_cases hlast : ls = [] ∧ ∃ last, l :: ls = [] ++ [last] ∧ last ≠ [] ∧ restOf s.data s.pos s.future = last
    · obtain ⟨rfl, last, e1, e2, e3⟩ := hlast
      simp at e1; subst e1
      have hno : LF ∉ restOf s.data s.pos s.future := by rw [e3]; exact h1 l (by simp)
      obtain ⟨s', e, g1, _, _, g2⟩ := (advance_ok (cs := cs) hl hpos h8 hs).2 hno
      obtain ⟨k1, k2, k3⟩ := g2 (by rw [e3]; exact e2)
      rw [e, Option.bind_some, collect, if_pos k1, k3]
      obtain ⟨s'', e', k⟩ := advance_end (cfg := cfg) (cs := cs) k2 g1
      rw [e3, Option.bind_some, e', Option.bind_some, collect_dead k]
      rfl
    · -- the line ends with LF
      obtain ⟨r, hr, hls'⟩ : ∃ r, restOf s.data s.pos s.future = l ++ LF :: r ∧ LinesOf r ls := by
        rcases h2 with h | ⟨init, last, g1, g2, g3⟩
        · exact ⟨terminated ls, by rw [h, terminated_cons], fun x hx => h1 x (by simp [hx]), Or.inl rfl⟩
        · cases init with
          | nil =>
            simp at g1
            exact absurd ⟨g1.2, last, by simp [g1.1, g1.2], g2, by simpa [terminated] using g3⟩ hlast
          | cons x init =>
            simp at g1
            obtain ⟨rfl, g1⟩ := g1
            exact ⟨terminated init ++ last, by rw [g3, terminated_cons]; simp, fun x hx => h1 x (by simp [hx]),
              Or.inr ⟨init, last, g1, g2, rfl⟩⟩
      obtain ⟨s', e, k1, k2, k3, k4, k5⟩ := (advance_ok (cs := cs) hl hpos h8 hs).1 l r hr (h1 l (by simp))
      rw [e, Option.bind_some, collect, if_pos k1, k3, Option.bind_some]
      have := ih s' k2 k4 (by rw [k5]; intro h c hc; exact h8 h c (by rw [hr]; simp [hc]))
        (by rw [k5]; rw [hr] at hs; simp at hs; omega) (by rw [k5]; exact hls') n hn'
      cases hadv : advance cfg cs s' with
      | none => rw [hadv] at this; simp at this
      | some s'' =>
        rw [hadv] at this
        simp only [Option.bind_some] at this ⊢
        rw [this]; rfl

end Verif.Line
