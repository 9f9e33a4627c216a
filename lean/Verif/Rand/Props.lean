import Verif.Rand.Model
import Mathlib.Tactic.ByContra
/-!
# C88: random numbers from the system

Everything read is random bytes of the system, each used once.
-/
namespace Verif.Rand

/-- One `read`: all bytes of the elements it returns are fresh random bytes, elements before and behind the range keep their values, and it
returns at least one element if the system gave enough bytes for it. -/
theorem c88_read (w : Nat) (hw : 0 < w) (s : St) (bg ed n : Nat) (hb : bg ≤ ed) (hl : Legal ((ed - bg) * w) n) :
    ∃ s' it, read w s bg (some n) = some (s', it) ∧ bg ≤ it ∧ it ≤ ed ∧ Fresh s'.mem (bg * w) ((it - bg) * w) s.pos s'.pos ∧
      s.pos ≤ s'.pos ∧ (∀ a, a < bg * w ∨ ed * w ≤ a → s'.mem a = s.mem a) ∧ (w ≤ n → bg < it) := by
  have hd : n / w * w ≤ n := Nat.div_mul_le_self n w
  have h1 : n / w ≤ ed - bg := by
    have : n / w ≤ (ed - bg) * w / w := Nat.div_le_div_right hl.1
    rwa [Nat.mul_div_cancel _ hw] at this
  refine ⟨_, _, rfl, by simp, ?_, ⟨fun i => s.pos + i, ?_, ?_⟩, by simp, ?_, ?_⟩
  · show bg + n / w ≤ ed
    omega
  · intro i hi
    have hi' : i < n := by
      have : (bg + n / w - bg) * w = n / w * w := by rw [Nat.add_sub_cancel_left]
      simp only [this] at hi
      omega
    simp only [Nat.le_add_right, true_and]
    refine ⟨?_, by omega⟩
    rw [if_pos (by omega), Nat.add_sub_cancel_left]
  · intro i j hij _
    show s.pos + i < s.pos + j
    omega
  · intro a ha
    have : ed * w = bg * w + (ed - bg) * w := by rw [← Nat.add_mul]; congr 1; omega
    have := hl.1
    simp only
    rw [if_neg (by omega)]
  · intro hn
    have : 0 < n / w := Nat.div_pos hn hw
    show bg < bg + n / w
    omega

/-- Two neighbouring pieces. -/
theorem Fresh.append {m m' : Mem} {a n k lo mid hi : Nat} (h1 : Fresh m a n lo mid) (h2 : Fresh m' (a + n) k mid hi) (hm : lo ≤ mid)
    (he : mid ≤ hi) (h : ∀ i < n, m' (a + i) = m (a + i)) : Fresh m' a (n + k) lo hi := by
  obtain ⟨f, f1, f2⟩ := h1
  obtain ⟨g, g1, g2⟩ := h2
  refine ⟨fun i => if i < n then f i else g (i - n), fun i hi => ?_, fun i j hij hj => ?_⟩
  · by_cases h3 : i < n
    · simp only [if_pos h3]
      rw [h i h3]
      exact ⟨(f1 i h3).1, (f1 i h3).2.1, Nat.lt_of_lt_of_le (f1 i h3).2.2 he⟩
    · simp only [if_neg h3]
      have := g1 (i - n) (by omega)
      rw [show a + n + (i - n) = a + i by omega] at this
      exact ⟨this.1, Nat.le_trans hm this.2.1, this.2.2⟩
  · by_cases h4 : j < n
    · simp only [if_pos h4, if_pos (show i < n by omega)]
      exact f2 i j hij h4
    · by_cases h3 : i < n
      · simp only [if_pos h3, if_neg h4]
        exact Nat.lt_of_lt_of_le (f1 i h3).2.2 (g1 (j - n) (by omega)).2.1
      · simp only [if_neg h3, if_neg h4]
        exact g2 _ _ (by omega) (by omega)

/-- `read_all` for elements of any size: if it returns, all bytes of the range are fresh random bytes, however the system cuts them; nothing else is
changed. (It can throw for an end that does not exist: `c88_end_violated`.) -/
theorem c88_all (w : Nat) (hw : 0 < w) (as : List (Option Nat)) : ∀ (s s' : St) (first last : Nat), first ≤ last →
    LegalAll w s first last as → readAll w s first last as = some (s', .done) →
    Fresh s'.mem (first * w) ((last - first) * w) s.pos s'.pos ∧ s.pos ≤ s'.pos ∧
      ∀ a, a < first * w ∨ last * w ≤ a → s'.mem a = s.mem a := by
  induction as with
  | nil =>
    intro s s' first last hf _ h
    unfold readAll at h
    split at h
    · rename_i e
      subst e
      cases h
      simp only [Nat.sub_self, Nat.zero_mul]
      exact ⟨⟨id, fun i hi => absurd hi (by omega), fun i j _ hj => absurd hj (by omega)⟩, Nat.le_refl _, fun _ _ => trivial⟩
    · cases h
  | cons a as ih =>
    intro s s' first last hf hl h
    unfold readAll at h
    unfold LegalAll at hl
    split at h
    · rename_i e
      subst e
      cases h
      simp only [Nat.sub_self, Nat.zero_mul]
      exact ⟨⟨id, fun i hi => absurd hi (by omega), fun i j _ hj => absurd hj (by omega)⟩, Nat.le_refl _, fun _ _ => trivial⟩
    · rename_i e
      rw [if_neg e] at hl
      cases a with
      | none => simp [read, getrandom] at h
      | some n =>
        obtain ⟨s1, it, h1, hb, he, fr, hp, hk, -⟩ := c88_read w hw s first last n hf (hl.1 n rfl)
        have hl2 := hl.2
        simp only [h1] at h hl2
        split at h
        · cases h
        · rename_i e2
          rw [if_neg e2] at hl2
          obtain ⟨fr2, hp2, hk2⟩ := ih s1 s' it last he hl2 h
          have e1 : first * w + (it - first) * w = it * w := by rw [← Nat.add_mul]; congr 1; omega
          have e3 : (it - first) * w + (last - it) * w = (last - first) * w := by rw [← Nat.add_mul]; congr 1; omega
          have e4 : it * w ≤ last * w := Nat.mul_le_mul_right w he
          refine ⟨?_, Nat.le_trans hp hp2, ?_⟩
          · rw [← e3]
            refine fr.append (by rw [e1]; exact fr2) hp hp2 fun i hi => hk2 _ (.inl (by omega))
          · intro a ha
            rw [hk2 a (by omega), hk a ha]

/-- Bytes: it never throws for an end, and takes exactly as many random bytes as it needs: the next ones, in order. -/
theorem c88_bytes (as : List (Option Nat)) : ∀ (s s' : St) (first last : Nat) (r : Res), first ≤ last → LegalAll 1 s first last as →
    readAll 1 s first last as = some (s', r) → r ≠ .eof ∧
      (r = .done → s'.pos = s.pos + (last - first) ∧ (∀ i < last - first, s'.mem (first + i) = some (s.pos + i)) ∧
        ∀ a, a < first ∨ last ≤ a → s'.mem a = s.mem a) := by
  induction as with
  | nil =>
    intro s s' first last r hf _ h
    unfold readAll at h
    split at h
    · rename_i e; subst e; cases h
      exact ⟨by simp, fun _ => ⟨by simp, by simp, fun _ _ => rfl⟩⟩
    · cases h
  | cons a as ih =>
    intro s s' first last r hf hl h
    unfold readAll at h
    unfold LegalAll at hl
    split at h
    · rename_i e; subst e; cases h
      exact ⟨by simp, fun _ => ⟨by simp, by simp, fun _ _ => rfl⟩⟩
    · rename_i e
      rw [if_neg e] at hl
      cases a with
      | none => simp [read, getrandom] at h; obtain ⟨rfl, rfl⟩ := h; exact ⟨by simp, by simp⟩
      | some n =>
        obtain ⟨hn1, hn2⟩ := hl.1 n rfl
        have hn3 := hn2 (by omega)
        have hl2 := hl.2
        simp only [read, getrandom, Option.map_some, Nat.mul_one, Nat.div_one] at h hl2
        rw [if_neg (by omega)] at h hl2
        obtain ⟨g1, g2⟩ := ih _ s' (first + n) last r (by omega) hl2 h
        refine ⟨g1, fun hr => ?_⟩
        obtain ⟨p1, p2, p3⟩ := g2 hr
        simp only at p1 p2 p3
        refine ⟨by omega, fun i hi => ?_, fun a ha => ?_⟩
        · by_cases hin : i < n
          · rw [p3 _ (.inl (by omega)), if_pos (by omega)]
            congr 1
            omega
          · have := p2 (i - n) (by omega)
            rw [show first + n + (i - n) = first + i by omega] at this
            rw [this]
            congr 1
            omega
        · rw [p3 _ (by omega), if_neg (by omega)]

/-- Successive numbers, each stored at its own address `8*k`: all draws succeed or the system refused; the answers of the system are given for
each draw. -/
def draws (s : St) : Nat → List (List (Option Nat)) → Option (St × Res)
  | _, [] => some (s, .done)
  | k, as :: rest =>
    match draw s (8 * k) as with
    | none => none
    | some (s, .done) => draws s (k + 1) rest
    | some (s, r) => some (s, r)

/-- The answers are legal. -/
def LegalDraws (s : St) : Nat → List (List (Option Nat)) → Prop
  | _, [] => True
  | k, as :: rest => LegalAll 1 s (8 * k) (8 * k + 8) as ∧ ∀ s', draw s (8 * k) as = some (s', .done) → LegalDraws s' (k + 1) rest

/-- Numbers drawn one after another from an engine consist of successive bytes of the system, in order and without gaps, however the system cuts them:
no byte is used twice, none is left out, and the engine never reports an end. -/
theorem c88_engine (ass : List (List (Option Nat))) : ∀ (s s' : St) (k : Nat) (r : Res), LegalDraws s k ass → draws s k ass = some (s', r) →
    r ≠ .eof ∧ (r = .done → s'.pos = s.pos + 8 * ass.length ∧ (∀ i < 8 * ass.length, s'.mem (8 * k + i) = some (s.pos + i)) ∧
      ∀ a, a < 8 * k → s'.mem a = s.mem a) := by
  induction ass with
  | nil =>
    intro s s' k r _ h
    cases h
    exact ⟨by simp, fun _ => ⟨by simp, by simp, fun _ _ => rfl⟩⟩
  | cons as rest ih =>
    intro s s' k r hl h
    unfold draws at h
    obtain ⟨l1, l2⟩ := hl
    cases hd : draw s (8 * k) as with
    | none => rw [hd] at h; cases h
    | some p =>
      obtain ⟨s1, r1⟩ := p
      obtain ⟨b1, b2⟩ := c88_bytes as s s1 (8 * k) (8 * k + 8) r1 (by omega) l1 hd
      rw [hd] at h
      cases r1 with
      | eof => exact absurd rfl b1
      | error => simp only at h; cases h; exact ⟨by simp, by simp⟩
      | done =>
        simp only at h
        obtain ⟨q1, q2, q3⟩ := b2 rfl
        obtain ⟨g1, g2⟩ := ih s1 s' (k + 1) r (l2 s1 hd) h
        refine ⟨g1, fun hr => ?_⟩
        obtain ⟨t1, t2, t3⟩ := g2 hr
        simp only [List.length_cons]
        refine ⟨by omega, fun i hi => ?_, fun a ha => ?_⟩
        · by_cases h8 : i < 8
          · rw [t3 _ (by omega)]
            exact q2 i (by omega)
          · have := t2 (i - 8) (by omega)
            rw [show 8 * (k + 1) + (i - 8) = 8 * k + i by omega] at this
            rw [this]
            congr 1
            omega
        · rw [t3 a (by omega), q3 a (.inl ha)]

/-- It succeeds if the system gives bytes: whatever the pieces, eight answers are enough. -/
theorem c88_engine_returns (s : St) (p : Nat) (as : List Nat) (h1 : ∀ n ∈ as, n = 1) (h8 : as.length = 8) :
    ∃ s', draw s p (as.map some) = some (s', .done) := by
  have key : ∀ (as : List Nat) (s : St) (first last : Nat), (∀ n ∈ as, n = 1) → first + as.length = last →
      ∃ s', readAll 1 s first last (as.map some) = some (s', .done) := by
    intro as
    induction as with
    | nil => intro s first last _ hl; exact ⟨s, by unfold readAll; rw [if_pos (by simpa using hl)]⟩
    | cons n as ih =>
      intro s first last hn hl
      have := hn n (by simp)
      subst this
      simp only [List.length_cons] at hl
      obtain ⟨s', h⟩ := ih ⟨s.pos + 1, fun a => if first ≤ a ∧ a < first + 1 then some (s.pos + (a - first)) else s.mem a⟩ (first + 1) last
        (fun n hn' => hn n (by simp [hn'])) (by omega)
      refine ⟨s', ?_⟩
      unfold readAll
      rw [if_neg (by omega)]
      simp only [List.map_cons, read, getrandom, Option.map_some, Nat.mul_one, Nat.div_one]
      rw [if_neg (by omega)]
      exact h
  exact key as s p (p + 8) h1 (by omega)

/-- **C88, the end of a source without end: violated** for elements wider than a byte: if the system gives fewer bytes than an element has,
`read_all` throws "end of file". -/
theorem c88_end_violated (w n : Nat) (hn : 0 < n) (hw : n < w) (s : St) (first last : Nat) (h : first < last) (as : List (Option Nat)) :
    Legal ((last - first) * w) n ∧ ∃ s', readAll w s first last (some n :: as) = some (s', .eof) := by
  refine ⟨⟨?_, fun _ => hn⟩, ?_⟩
  · have : 1 * w ≤ (last - first) * w := Nat.mul_le_mul_right w (by omega)
    omega
  · unfold readAll
    rw [if_neg (by omega)]
    simp only [read, getrandom, Option.map_some, Nat.div_eq_of_lt hw, Nat.add_zero, if_true]
    exact ⟨_, rfl⟩

/-- **C88, entropy: violated.** The request has the wrong number: whatever the system has, 0 is returned. -/
theorem c88_entropy_violated (count : Nat) : entropy count = 0 := by
  simp [entropy, myRandomEntropy, ioctl, RNDGETENTCNT]

/-! ## Cases -/

/-- Nothing drawn yet. -/
def fresh : St := ⟨0, fun _ => none⟩

example : (draws fresh 0 [[some 3, some 5], [some 8]]).map (fun r => ((List.range 17).map r.1.mem, r.1.pos, r.2)) =
    some ((List.range 16).map some ++ [none], 16, .done) := by decide +kernel
example : LegalAll 1 fresh 0 8 [some 3, some 5] := by simp [LegalAll, Legal, read, getrandom]
example : LegalAll 4 fresh 1 3 [some 6, some 4] := by simp [LegalAll, Legal, read, getrandom]
example : (readAll 4 fresh 1 3 [some 6, some 4]).map (fun r => ((List.range 13).map r.1.mem, r.2)) =
    some ([none, none, none, none, some 0, some 1, some 2, some 3, some 6, some 7, some 8, some 9, none], .done) := by decide +kernel

end Verif.Rand
