import Verif.Http.Lemmas
/-! # Lemmas: the driver, and the status line -/
namespace Verif.Http
open Verif.Line (FindCfg findCh findCh_eq)

/-- The buffer holds the text `t`. -/
def Holds (b : HB) (t : List Nat) : Prop :=
  b.len = t.length ∧ b.len ≤ b.mem.length ∧ b.mem.take b.len = t

theorem tryCopy_ok {b : HB} {t src : List Nat} (h : Holds b t) (hm : b.mem.length < 2 ^ 64) :
    (t.length + src.length ≤ b.mem.length → ∃ b', tryCopy b src = some (b', true) ∧ Holds b' (t ++ src) ∧ b'.mem.length = b.mem.length) ∧
    (b.mem.length < t.length + src.length → tryCopy b src = some (b, false)) := by
  obtain ⟨h1, h2, h3⟩ := h
  have hr : (b.mem.length + 2 ^ 64 - b.len) % 2 ^ 64 = b.mem.length - b.len := by omega
  unfold tryCopy
  simp only
  rw [hr]
  constructor
  · intro hle
    rw [if_neg (by omega), if_neg (by omega)]
    refine ⟨_, rfl, ⟨by simp [h1], ?_, ?_⟩, ?_⟩
    · show b.len + src.length ≤ (b.mem.take b.len ++ src ++ b.mem.drop (b.len + src.length)).length
      simp; omega
    · show (b.mem.take b.len ++ src ++ b.mem.drop (b.len + src.length)).take (b.len + src.length) = _
      rw [h3]
      have : b.len + src.length = (t ++ src).length := by simp [h1]
      rw [this, List.take_left]
    · show (b.mem.take b.len ++ src ++ b.mem.drop (b.len + src.length)).length = _
      simp; omega
  · intro hlt
    rw [if_pos (by omega)]

theorem slice_text {b : HB} {t : List Nat} (h : Holds b t) (i j : Nat) (hij : i ≤ j) (hj : j ≤ t.length) :
    b.slice i j = some ((t.drop i).take (j - i)) := by
  obtain ⟨h1, h2, h3⟩ := h
  rw [HB.slice, if_pos ⟨hij, by omega⟩, ← h3, List.drop_take, List.take_take]
  congr 2
  omega

theorem endsFirst_unique {h h' s s' : List Nat} (e : h ++ s = h' ++ s') (h1 : EndsFirst h) (h2 : EndsFirst h') : h = h' ∧ s = s' := by
  rcases List.append_eq_append_iff.1 e with ⟨a, e1, e2⟩ | ⟨a, e1, e2⟩
  · rcases a with _ | ⟨x, a⟩
    · simp at e1 e2; exact ⟨e1.symm, e2⟩
    · exact absurd h1.1 (h2.2 h (x :: a) e1 (by simp))
  · rcases a with _ | ⟨x, a⟩
    · simp at e1 e2; exact ⟨e1, e2.symm⟩
    · exact absurd h2.1 (h1.2 h' (x :: a) e1 (by simp))

/-- A text none of whose prefixes ends with CR LF CR LF is a proper prefix of the header. -/
theorem prefix_of_noEnd {x y h body : List Nat} (e : x ++ y = h ++ body) (hn : NoEnd x) (hf : EndsFirst h) :
    ∃ r, r ≠ [] ∧ h = x ++ r ∧ y = r ++ body := by
  rcases List.append_eq_append_iff.1 e with ⟨a, e1, e2⟩ | ⟨a, e1, e2⟩
  · refine ⟨a, ?_, e1, e2⟩
    rintro rfl
    rw [List.append_nil] at e1
    exact hn x [] (by simp) (by rw [← e1]; exact hf.1)
  · exact absurd hf.1 (hn h a e1)

/-- `determine` never fails and keeps the text. -/
theorem determine_total {cfg : FindCfg} {b : HB} {t : List Nat} (h : Holds b t) :
    ∃ b' c, determine cfg b = some (b', c) ∧ b'.mem = b.mem ∧ b'.len = b.len ∧ c ≠ .part := by
  have hs := slice_text h 0 b.len (Nat.zero_le _) (le_of_eq h.1)
  unfold determine
  rw [hs]
  simp only [Option.bind_some]
  by_cases h1 : ((t.drop 0).take (b.len - 0)).head? = some 32
  · rw [if_pos h1]; exact ⟨_, _, rfl, rfl, rfl, by simp⟩
  · rw [if_neg h1]
    rcases findCh cfg 32 false ((t.drop 0).take (b.len - 0)) with _ | ⟨c, i⟩
    · exact ⟨_, _, rfl, rfl, rfl, by simp⟩
    · simp only
      by_cases h2 : findCh cfg 32 true i = []
      · rw [if_pos h2]; exact ⟨_, _, rfl, rfl, rfl, by simp⟩
      · rw [if_neg h2]
        by_cases h3 : findCh cfg 32 false (findCh cfg 32 true i) = []
        · rw [if_pos h3]; exact ⟨_, _, rfl, rfl, rfl, by simp⟩
        · rw [if_neg h3]
          by_cases h4 : findCh cfg 32 true (findCh cfg 32 false (findCh cfg 32 true i)) = []
          · rw [if_pos h4]; exact ⟨_, _, rfl, rfl, rfl, by simp⟩
          · rw [if_neg h4]
            by_cases h5 : findCh cfg 13 false (findCh cfg 32 true (findCh cfg 32 false (findCh cfg 32 true i))) = []
            · rw [if_pos h5]; exact ⟨_, _, rfl, rfl, rfl, by simp⟩
            · rw [if_neg h5]; exact ⟨_, _, rfl, rfl, rfl, by simp⟩

/-- What the scan of a stream delivers, given that `pre` has been read. -/
def Delivered (cfg : FindCfg) (cap : Nat) (text : List Nat) (o : Out) : Prop :=
  o.code ≠ .part ∧
  (o.code = .ok → ∃ h b1, text = h ++ o.rest ∧ EndsFirst h ∧ h.length ≤ cap ∧ Holds b1 h ∧ b1.mem.length = cap ∧
    determine cfg b1 = some (o.b, .ok)) ∧
  (∀ h body, text = h ++ body → EndsFirst h → NoLoneCR h →
    (h.length ≤ cap → o.rest = body ∧ ∃ b1, Holds b1 h ∧ b1.mem.length = cap ∧ determine cfg b1 = some (o.b, o.code)) ∧
    (cap < h.length → o.code = .invalid))

theorem scanHeader_ok (cfg : FindCfg) (ls : List (List Nat)) : ∀ (b : HB) (st : Nat) (pre : List Nat),
    Holds b pre → b.mem.length < 2 ^ 64 → Inv st pre → Fits cfg ls.flatten →
    ∃ o, scanHeader cfg b st ls = some o ∧ Delivered cfg b.mem.length (pre ++ ls.flatten) o := by
  induction ls with
  | nil =>
    intro b st pre hb hm hi _
    refine ⟨_, rfl, by simp, by simp, ?_⟩
    intro h body e hf _
    simp only [List.flatten_nil, List.append_nil] at e
    exact absurd hf.1 (hi.1 h body e)
  | cons l ls ih =>
    intro b st pre hb hm hi hfit
    have hfl : Fits cfg l := fun h c hc => hfit h c (by simp [hc])
    have hfls : Fits cfg ls.flatten := fun h c hc => hfit h c (by simp only [List.flatten_cons, List.mem_append]; exact Or.inr hc)
    rw [scanHeader]
    by_cases hl : l = []
    · subst hl
      simp only [scanBlock, if_true, Option.bind_some]
      simpa using ih b st pre hb hm hi hfls
    · rw [scanBlock_eq hfl hl]
      have hg := block_good (l := l) hi
      generalize block st l = w at hg
      obtain ⟨rest, w⟩ := w
      obtain ⟨a, ea, hg⟩ := hg
      simp only at ea hg
      have htake : l.take (l.length - rest.length) = a := by rw [ea]; simp
      cases w with
      | st q =>
        obtain ⟨hr, hq⟩ := hg
        subst hr
        have ea' : a = l := by simpa using ea.symm
        subst ea'
        simp only [finish, leave]
        rw [htake]
        by_cases hfits : pre.length + a.length ≤ b.mem.length
        · obtain ⟨b', e, g1, g2⟩ := (tryCopy_ok (src := a) hb hm).1 hfits
          rw [e]
          simp only [Option.bind_some, if_true]
          have := ih b' q (pre ++ a) g1 (by omega) hq hfls
          rw [g2] at this
          simpa using this
        · rw [(tryCopy_ok (src := a) hb hm).2 (by omega)]
          simp only [Option.bind_some, Bool.false_eq_true, if_false]
          refine ⟨_, rfl, by simp, by simp, ?_⟩
          intro h body e hf _
          rw [List.flatten_cons, ← List.append_assoc] at e
          obtain ⟨r, _, e1, _⟩ := prefix_of_noEnd e hq.1 hf
          refine ⟨fun hle => ?_, fun _ => rfl⟩
          rw [e1] at hle; simp at hle; omega
      | done =>
        simp only [finish, done]
        rw [htake]
        have htext : pre ++ (l :: ls).flatten = (pre ++ a) ++ (rest ++ ls.flatten) := by
          rw [List.flatten_cons, ea]; simp
        by_cases hfits : pre.length + a.length ≤ b.mem.length
        · obtain ⟨b', e, g1, g2⟩ := (tryCopy_ok (src := a) hb hm).1 hfits
          rw [e]
          obtain ⟨b2, c2, e2, _, _, g5⟩ := determine_total (cfg := cfg) g1
          simp only [Option.bind_some, if_true, e2, if_neg g5]
          refine ⟨_, rfl, g5, ?_, ?_⟩
          · intro hok
            simp only at hok
            subst hok
            exact ⟨pre ++ a, b', htext, hg, by simpa using hfits, g1, g2, e2⟩
          · intro h body e' hf _
            obtain ⟨rfl, e4⟩ := endsFirst_unique (htext.symm.trans e') hg hf
            exact ⟨fun _ => ⟨e4, b', g1, g2, e2⟩, fun hlt => by simp at hlt; omega⟩
        · rw [(tryCopy_ok (src := a) hb hm).2 (by omega)]
          simp only [Option.bind_some, Bool.false_eq_true, if_false]
          refine ⟨_, rfl, by simp, by simp, ?_⟩
          intro h body e' hf _
          obtain ⟨rfl, e4⟩ := endsFirst_unique (htext.symm.trans e') hg hf
          exact ⟨fun hle => by simp at hle; omega, fun _ => rfl⟩
      | bad =>
        simp only [finish, Option.bind_some]
        refine ⟨_, rfl, by simp, by simp, ?_⟩
        intro h body e hf hcr
        obtain ⟨p, c, s, e1, hc, hn⟩ := hg
        exfalso
        have e2 : (p ++ [13]) ++ (c :: (s ++ ls.flatten)) = h ++ body := by
          rw [← e, List.flatten_cons, ← List.append_assoc, e1]; simp
        obtain ⟨r, hr, e3, e4⟩ := prefix_of_noEnd e2 hn hf
        rcases r with _ | ⟨x, r⟩
        · exact hr rfl
        · simp at e4
          exact hc (hcr p c r (by rw [e3, e4.1]; simp))

/-! ## The status line -/

theorem dropWhile_first {p : Nat → Bool} {a r : List Nat} {x : Nat} (ha : ∀ c ∈ a, p c = true) (hx : p x = false) :
    (a ++ x :: r).dropWhile p = x :: r := by
  induction a with
  | nil => simp [List.dropWhile, hx]
  | cons c a ih =>
    rw [List.cons_append, List.dropWhile_cons_of_pos (ha c (by simp))]
    exact ih (fun y hy => ha y (by simp [hy]))

theorem findCh_first {cfg : FindCfg} {ch : Nat} {a r : List Nat} (hc : ch < 256) (hf : Fits cfg (a ++ ch :: r)) (ha : ch ∉ a) :
    findCh cfg ch false (a ++ ch :: r) = ch :: r := by
  rw [findCh_eq hc hf]
  apply dropWhile_first
  · intro c hm
    have : c ≠ ch := by rintro rfl; exact ha hm
    simpa using this
  · simp

theorem findCh_not {cfg : FindCfg} {ch : Nat} {n : Nat} {r : List Nat} (hc : ch < 256) (hf : Fits cfg (List.replicate n ch ++ r))
    (hr : r.head? ≠ some ch) : findCh cfg ch true (List.replicate n ch ++ r) = r := by
  rw [findCh_eq hc hf]
  rcases r with _ | ⟨x, r⟩
  · have := Verif.IntScan.dropWhile_append_all (p := fun c => if true = true then c == ch else c != ch) (List.replicate n ch) []
      (by intro c hm; rw [List.mem_replicate] at hm; simp [hm.2])
    rw [this]; rfl
  · apply dropWhile_first
    · intro c hm
      rw [List.mem_replicate] at hm; simp [hm.2]
    · have : x ≠ ch := by intro e; exact hr (by simp [e])
      simpa using this

/-- The status line `request␠…code␠…reason CR …` is taken apart correctly. -/
theorem determine_status {cfg : FindCfg} {b : HB} {req code reason tail : List Nat} {m n : Nat}
    (hb : Holds b (req ++ List.replicate (m + 1) 32 ++ code ++ List.replicate (n + 1) 32 ++ reason ++ 13 :: tail))
    (hf : Fits cfg (req ++ List.replicate (m + 1) 32 ++ code ++ List.replicate (n + 1) 32 ++ reason ++ 13 :: tail))
    (h1 : req ≠ [] ∧ 32 ∉ req) (h2 : code ≠ [] ∧ 32 ∉ code) (h3 : 13 ∉ reason ∧ reason.head? ≠ some 32) :
    ∃ b', determine cfg b = some (b', .ok) ∧ b'.mem = b.mem ∧ b'.len = b.len ∧
      b'.request = some req ∧ b'.code = some code ∧ b'.reason = some reason ∧
      b'.reasonEnd = (req ++ List.replicate (m + 1) 32 ++ code ++ List.replicate (n + 1) 32 ++ reason).length := by
  generalize ht : req ++ List.replicate (m + 1) 32 ++ code ++ List.replicate (n + 1) 32 ++ reason ++ 13 :: tail = t at hb hf
  -- the successive rests
  have t1 : t = req ++ 32 :: (List.replicate m 32 ++ (code ++ List.replicate (n + 1) 32 ++ reason ++ 13 :: tail)) := by
    rw [← ht, List.replicate_succ]; simp
  have t2 : t = (req ++ List.replicate (m + 1) 32) ++ (code ++ 32 :: (List.replicate n 32 ++ reason ++ 13 :: tail)) := by
    rw [← ht, List.replicate_succ (n := n)]; simp
  have t3 : t = (req ++ List.replicate (m + 1) 32 ++ code) ++ (List.replicate (n + 1) 32 ++ (reason ++ 13 :: tail)) := by
    rw [← ht]; simp
  have t4 : t = (req ++ List.replicate (m + 1) 32 ++ code ++ List.replicate (n + 1) 32) ++ (reason ++ 13 :: tail) := by
    rw [← ht]; simp
  have fits : ∀ x y : List Nat, t = x ++ y → Fits cfg y := fun x y e h8 c hc => hf h8 c (by rw [e]; simp [hc])
  have hlen := hb.1
  have hs := slice_text hb 0 b.len (Nat.zero_le _) (le_of_eq hb.1)
  have htt : (t.drop 0).take (b.len - 0) = t := by rw [List.drop_zero, Nat.sub_zero, hlen, List.take_length]
  rw [htt] at hs
  have hh : t.head? ≠ some 32 := by
    rw [t1]
    rcases req with _ | ⟨x, req⟩
    · exact absurd rfl h1.1
    · intro e
      simp at e
      exact h1.2 (by simp [e])
  have e1 : findCh cfg 32 false t = 32 :: (List.replicate m 32 ++ (code ++ List.replicate (n + 1) 32 ++ reason ++ 13 :: tail)) := by
    rw [t1]; exact findCh_first (by norm_num) (t1 ▸ hf) h1.2
  have hcode : code.head? ≠ some 32 ∧ ∀ r : List Nat, (code ++ r).head? ≠ some 32 := by
    rcases code with _ | ⟨x, code⟩
    · exact absurd rfl h2.1
    · have : x ≠ 32 := by rintro rfl; exact h2.2 (by simp)
      exact ⟨by simpa using this, fun r => by simpa using this⟩
  have e2 : findCh cfg 32 true (List.replicate m 32 ++ (code ++ List.replicate (n + 1) 32 ++ reason ++ 13 :: tail)) =
      code ++ List.replicate (n + 1) 32 ++ reason ++ 13 :: tail := by
    refine findCh_not (by norm_num) (fits (req ++ [32]) _ (by rw [t1]; simp)) ?_
    have := hcode.2 (List.replicate (n + 1) 32 ++ reason ++ 13 :: tail)
    simpa using this
  have e3 : findCh cfg 32 false (code ++ List.replicate (n + 1) 32 ++ reason ++ 13 :: tail) =
      List.replicate (n + 1) 32 ++ (reason ++ 13 :: tail) := by
    have := findCh_first (cfg := cfg) (ch := 32) (a := code) (r := List.replicate n 32 ++ reason ++ 13 :: tail) (by norm_num)
      (fits _ _ t2) h2.2
    rw [List.replicate_succ]
    simpa using this
  have e4 : findCh cfg 32 true (List.replicate (n + 1) 32 ++ (reason ++ 13 :: tail)) = reason ++ 13 :: tail := by
    refine findCh_not (by norm_num) (fits _ _ t3) ?_
    rcases reason with _ | ⟨x, reason⟩
    · simp
    · simpa using h3.2
  have e5 : findCh cfg 13 false (reason ++ 13 :: tail) = 13 :: tail :=
    findCh_first (by norm_num) (fits _ _ t4) h3.1
  unfold determine
  rw [hs]
  simp only [Option.bind_some]
  rw [if_neg hh, e1]
  simp only
  rw [e2, if_neg (by simp), e3, if_neg (by simp), e4, if_neg (by simp), e5, if_neg (by simp)]
  have l1 := congrArg List.length ht
  simp at l1
  refine ⟨_, rfl, rfl, rfl, ?_, ?_, ?_, ?_⟩
  · have e : b.len - (32 :: (List.replicate m 32 ++ (code ++ List.replicate (n + 1) 32 ++ reason ++ 13 :: tail))).length = req.length := by
      rw [hlen]; simp; omega
    show HB.slice _ 0 _ = _
    simp only [HB.slice] at hs ⊢
    rw [e]
    have hb' := hb.2.1
    rw [if_pos ⟨Nat.zero_le _, by omega⟩]
    have := slice_text hb 0 req.length (Nat.zero_le _) (by omega)
    rw [HB.slice, if_pos ⟨Nat.zero_le _, by omega⟩] at this
    rw [this, t1]; simp
  · have e : b.len - (code ++ List.replicate (n + 1) 32 ++ reason ++ 13 :: tail).length = (req ++ List.replicate (m + 1) 32).length := by
      rw [hlen]; simp; omega
    have e' : b.len - (List.replicate (n + 1) 32 ++ (reason ++ 13 :: tail)).length = (req ++ List.replicate (m + 1) 32).length + code.length := by
      rw [hlen]; simp; omega
    have := slice_text hb (req ++ List.replicate (m + 1) 32).length ((req ++ List.replicate (m + 1) 32).length + code.length)
      (Nat.le_add_right _ _) (by simp; omega)
    show HB.slice _ _ _ = _
    simp only [e, e']
    refine Eq.trans (this) ?_
    conv_lhs => rw [t2]
    rw [List.drop_left, Nat.add_sub_cancel_left, List.take_left]
  · have e : b.len - (reason ++ 13 :: tail).length = (req ++ List.replicate (m + 1) 32 ++ code ++ List.replicate (n + 1) 32).length := by
      rw [hlen]; simp; omega
    have e' : b.len - (13 :: tail).length = (req ++ List.replicate (m + 1) 32 ++ code ++ List.replicate (n + 1) 32).length + reason.length := by
      rw [hlen]; simp; omega
    have := slice_text hb (req ++ List.replicate (m + 1) 32 ++ code ++ List.replicate (n + 1) 32).length
      ((req ++ List.replicate (m + 1) 32 ++ code ++ List.replicate (n + 1) 32).length + reason.length)
      (Nat.le_add_right _ _) (by simp; omega)
    show HB.slice _ _ _ = _
    simp only [e, e']
    refine Eq.trans (this) ?_
    conv_lhs => rw [t4]
    rw [List.drop_left, Nat.add_sub_cancel_left, List.take_left]
  · show b.len - (13 :: tail).length = _
    rw [hlen]; simp; omega

end Verif.Http
