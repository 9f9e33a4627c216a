import Verif.IntScan.Lemmas
/-! White space, zero skipping, and one number by the portable path. -/
namespace Verif.IntScan
open Verif Verif.IntPrint

/-! ### Skipping -/

theorem skipWhile_eq (p : Nat → Bool) (l : List Nat) : skipWhile p l = l.dropWhile p := by
  induction l with
  | nil => rfl
  | cons c l ih => simp only [skipWhile, List.dropWhile]; split <;> simp_all

theorem dropWhile_append_all {p : Nat → Bool} (a b : List Nat) (h : ∀ c ∈ a, p c = true) :
    (a ++ b).dropWhile p = b.dropWhile p := by
  induction a with
  | nil => rfl
  | cons c a ih => simp [h c (by simp)]; exact ih (fun x hx => h x (by simp [hx]))

theorem simdLoop_skip {n : Nat} {stop : List Nat → Bool} {p : Nat → Bool} (P : Nat → Prop)
    (hstop : ∀ v, (∀ c ∈ v, P c) → stop v = false → ∀ c ∈ v, p c = true) (l : List Nat) (hl : ∀ c ∈ l, P c) :
    (simdLoop n stop l).dropWhile p = l.dropWhile p := by
  induction hn : l.length using Nat.strong_induction_on generalizing l with
  | _ k ih =>
    unfold simdLoop
    split
    · rename_i h
      split
      · rfl
      · rename_i hs
        rw [ih (l.drop n).length (by simp; omega) (l.drop n) (fun c hc => hl c (List.mem_of_mem_drop hc)) rfl]
        have := hstop (l.take n) (fun c hc => hl c (List.mem_of_mem_take hc)) (by simpa using hs)
        conv_rhs => rw [← List.take_append_drop n l]
        rw [dropWhile_append_all _ _ this]
    · rfl

theorem smallLoop_skip (p : Nat → Bool) (k : Nat) (l : List Nat) :
    (∃ pre, l = pre ++ (smallLoop p k l).2 ∧ ∀ c ∈ pre, p c = true) ∧
    ((smallLoop p k l).1 ≠ 0 → (smallLoop p k l).2 = l.dropWhile p) ∧
    ((smallLoop p k l).1 = 0 → (∀ c ∈ l.take k, p c = true) ∧ (smallLoop p k l).2 = l.drop k) := by
  induction k generalizing l with
  | zero => exact ⟨⟨[], rfl, by simp⟩, by simp [smallLoop], by simp [smallLoop]⟩
  | succ k ih =>
    cases l with
    | nil => exact ⟨⟨[], rfl, by simp⟩, by simp [smallLoop], by simp [smallLoop]⟩
    | cons c l =>
      simp only [smallLoop]
      split
      · rename_i h
        obtain ⟨⟨pre, h1, h2⟩, h3, h4⟩ := ih l
        refine ⟨⟨c :: pre, by simpa using h1, ?_⟩, ?_, ?_⟩
        · intro x hx; rcases List.mem_cons.mp hx with rfl | hx
          · exact h
          · exact h2 x hx
        · intro hh; rw [h3 hh, List.dropWhile_cons_of_pos h]
        · intro hh
          refine ⟨fun x hx => ?_, by rw [List.drop_succ_cons]; exact (h4 hh).2⟩
          rw [List.take_succ_cons] at hx
          rcases List.mem_cons.mp hx with rfl | hx
          · exact h
          · exact (h4 hh).1 x hx
      · rename_i h
        refine ⟨⟨[], rfl, by simp⟩, fun _ => ?_, fun hh => by simp at hh⟩
        simp [h]

theorem smallOpt_skip {simd : Nat} {p : Nat → Bool} {func : List Nat → List Nat} (l : List Nat)
    (hf : ∀ pre l', l = pre ++ l' → (2 < simd → (∀ c ∈ l.take simd, p c = true) ∧ l' = l.drop simd) → func l' = l'.dropWhile p) : smallOpt simd p func l = l.dropWhile p := by
  unfold smallOpt
  split
  · simp only
    have hk : l.take (if simd < l.length then simd else l.length) = l.take simd := by
      split
      · rfl
      · rename_i h; rw [List.take_of_length_le (le_refl _), List.take_of_length_le (by omega)]
    have hd : l.drop (if simd < l.length then simd else l.length) = l.drop simd := by
      split
      · rfl
      · rename_i h; rw [List.drop_eq_nil_of_le (le_refl _), List.drop_eq_nil_of_le (by omega)]
    generalize (if simd < l.length then simd else l.length) = k at *
    obtain ⟨⟨pre, h1, h2⟩, h3, h4⟩ := smallLoop_skip p k l
    split
    · rename_i h; exact h3 h
    · rename_i h
      rw [hf pre _ h1 (fun _ => by rw [← hk, ← hd]; exact h4 (by simpa using h))]
      conv_rhs => rw [h1]
      rw [dropWhile_append_all _ _ h2]
  · rename_i h; exact hf [] l rfl (fun h' => absurd h' h)

theorem isCSpace_iff {w c : Nat} (hw : w = 8 ∨ w = 32) (hc : c < 2 ^ w) : isCSpace w c = true ↔ IsSpace c := by
  unfold isCSpace IsSpace
  simp only [Bool.or_eq_true, beq_iff_eq, decide_eq_true_eq]
  rcases hw with h | h <;> subst h <;> norm_num at * <;> omega

/-- Where the vectorised white space test is exact: if it is used at all (the first `simd` characters are white
space), there are no control characters below tab and no code units at or above `2^(cw-1)+9`; and with the inverted test
(`ptestm`) the text ends there. -/
def SpaceSafe (cfg : Cfg) (l : List Nat) : Prop :=
  cfg.simd ≠ 0 → (∀ c ∈ l.take cfg.simd, IsSpace c) →
    (∀ c ∈ l, 9 ≤ c ∧ c < 2 ^ (cfg.cw - 1) + 9) ∧ (cfg.ptestm = true → l.length ≤ cfg.simd)

theorem laneSpace_iff {cw c : Nat} (hw : CharWidth cw) (h1 : 9 ≤ c) (h2 : c < 2 ^ (cw - 1) + 9) :
    laneSpace cw c = true ↔ IsSpace c := by
  have key : laneSpace cw c = true ↔ ((c = 32) ≠ (c ≤ 13)) := by
    unfold laneSpace
    simp only
    have : (c + 2 ^ cw - (9 + 2 ^ (cw - 1)) % 2 ^ cw) % 2 ^ cw < (5 + 2 ^ (cw - 1)) % 2 ^ cw ↔ c ≤ 13 := by
      rcases hw with h | h | h <;> subst h <;> norm_num at * <;> omega
    rw [Bool.xor_iff_ne, ne_eq, ne_eq, eq_iff_iff, Bool.eq_iff_iff]
    simp [this]
  rw [key]
  unfold IsSpace
  by_cases h : c = 32
  · subst h; simp
  · simp only [h, ne_eq, eq_iff_iff, false_iff, Decidable.not_not, false_or]; omega

theorem spaceWidth_ok (cw : Nat) (hw : CharWidth cw) : (spaceWidth cw = 8 ∨ spaceWidth cw = 32) ∧
    2 ^ cw ≤ 2 ^ spaceWidth cw := by
  rcases hw with h | h | h <;> subst h <;> simp [spaceWidth]

theorem findSpace_eq {cfg : Cfg} (hv : Valid cfg) (l : List Nat) (hl : CodeUnits cfg.cw l) (hs : SpaceSafe cfg l) :
    findSpace cfg l = l.dropWhile (isCSpace (spaceWidth cfg.cw)) := by
  unfold findSpace
  have hw := spaceWidth_ok cfg.cw hv.charWidth
  apply smallOpt_skip
  intro pre l' h hfirst
  have hsub : ∀ c ∈ l', c ∈ l := by intro c hc; rw [h]; simp [hc]
  unfold spaceCold
  simp only
  rw [skipWhile_eq]
  split
  · rename_i h0
    have h2 : 2 < cfg.simd := by rcases hv.simd with h | h | h | h <;> omega
    have hall : ∀ c ∈ l.take cfg.simd, IsSpace c := fun x hx =>
      (isCSpace_iff hw.1 (lt_of_lt_of_le (hl x (List.mem_of_mem_take hx)) hw.2)).mp ((hfirst h2).1 x hx)
    obtain ⟨hr, hp⟩ := hs h0 hall
    by_cases hpt : cfg.ptestm = true
    · have : l' = [] := by rw [(hfirst h2).2]; exact List.drop_eq_nil_of_le (hp hpt)
      subst this
      rw [simdLoop, dif_neg (by simp)]
    refine simdLoop_skip (fun c => c < 2 ^ cfg.cw ∧ 9 ≤ c ∧ c < 2 ^ (cfg.cw - 1) + 9) ?_ _
      (fun c hc => ⟨hl c (hsub c hc), hr c (hsub c hc)⟩)
    intro v hv' hst c hc
    obtain ⟨h1, h2, h3⟩ := hv' c hc
    simp only [stopTest, hpt, Bool.false_eq_true, if_false, List.any_eq_false, Bool.not_eq_true', Bool.not_eq_false] at hst
    rw [isCSpace_iff hw.1 (by omega), ← laneSpace_iff hv.charWidth h2 h3]
    exact hst c hc
  · rfl

theorem findNoneZero_eq {cfg : Cfg} (hp : cfg.ptestm = false) (l : List Nat) : findNoneZero cfg l = l.dropWhile (fun c => c == 48) := by
  unfold findNoneZero
  apply smallOpt_skip
  intro pre l' _ _
  rw [skipWhile_eq]
  split
  · refine simdLoop_skip (fun _ => True) ?_ _ (by simp)
    intro v _ hst c hc
    simp [stopTest, hp] at hst
    simpa using hst c hc
  · rfl

theorem Valid.noTest {cfg : Cfg} (hv : Valid cfg) (h : cfg.skipzero = true) : cfg.ptestm = false := by
  have := hv.zeros
  cases hp : cfg.ptestm
  · rfl
  · rw [this hp] at h; cases h

/-- Splitting at the first character that violates a predicate. -/
theorem dropWhile_split (p : Nat → Bool) (l : List Nat) :
    ∃ pre, l = pre ++ l.dropWhile p ∧ (∀ c ∈ pre, p c = true) ∧
      ∀ c t, l.dropWhile p = c :: t → p c = false := by
  induction l with
  | nil => exact ⟨[], rfl, by simp, by simp⟩
  | cons c l ih =>
    by_cases h : p c = true
    · obtain ⟨pre, h1, h2, h3⟩ := ih
      rw [List.dropWhile_cons_of_pos h]
      refine ⟨c :: pre, by rw [List.cons_append, ← h1], ?_, h3⟩
      intro x hx; rcases List.mem_cons.mp hx with rfl | hx
      · exact h
      · exact h2 x hx
    · rw [List.dropWhile_cons_of_neg h]
      refine ⟨[], rfl, by simp, ?_⟩
      intro c' t he; simp at he; rw [← he.1]; simpa using h

/-! ### The final conversion -/

/-- The outcome the specification asks for once the digits are known. -/
noncomputable def expect (cfg : Cfg) (neg : Bool) (ds rest : List Nat) : Outcome :=
  open Classical in
  if InRange cfg.bits cfg.signed (signedValue neg (digitsValue cfg.base ds)) then
    ⟨rest, .ok, some (signedValue neg (digitsValue cfg.base ds))⟩
  else ⟨rest, .overflow, none⟩

theorem expect_overflow {cfg : Cfg} (hv : Valid cfg) {neg : Bool} {ds : List Nat} (rest : List Nat)
    (hneg : cfg.signed = false → neg = false) (h : 2 ^ cfg.bits ≤ digitsValue cfg.base ds) :
    expect cfg neg ds rest = ⟨rest, .overflow, none⟩ := by
  unfold expect
  rw [if_neg]
  unfold InRange signedValue
  generalize digitsValue cfg.base ds = V at *
  rcases hv.width with hb | hb | hb | hb | hb <;> rw [hb] at h ⊢ <;> cases hsg : cfg.signed <;>
    cases neg <;> simp_all <;> norm_num at * <;> omega

theorem finish_eq {cfg : Cfg} (hv : Valid cfg) {neg : Bool} {ds : List Nat} (rest : List Nat)
    (hneg : cfg.signed = false → neg = false) (h : digitsValue cfg.base ds < 2 ^ cfg.bits) :
    finish cfg neg rest (digitsValue cfg.base ds) = expect cfg neg ds rest := by
  unfold finish expect
  generalize digitsValue cfg.base ds = V at *
  cases hsg : cfg.signed
  · have hn := hneg hsg
    subst hn
    simp only [Bool.false_eq_true, if_false]
    rw [if_pos]
    · simp [signedValue]
    · unfold InRange signedValue
      simp only [Bool.false_eq_true, if_false]
      have : (V : Int) < ((2 ^ cfg.bits : Nat) : Int) := by exact_mod_cast h
      push_cast at this
      exact ⟨by omega, this⟩
  · simp only [if_true]
    rcases hv.width with hb | hb | hb | hb | hb <;> rw [hb] at h ⊢ <;> cases neg <;>
      simp only [InRange, signedValue, toSigned, if_true, Bool.false_eq_true, if_false] <;> norm_num at * <;>
      (split_ifs <;> first | rfl | (exfalso; omega) | (simp; omega))

theorem scalarBranch_eq {cfg : Cfg} (hv : Valid cfg) {cs ds rest : List Nat} {neg : Bool}
    (h : DigitRun cfg.base cs ds) (hn : NoDigitFirst cfg.base rest) (hc : Clean cfg rest)
    (hz : ds.head? ≠ some 0) (hneg : cfg.signed = false → neg = false) :
    scalarBranch cfg neg (cs ++ rest) = some (expect cfg neg ds rest) := by
  obtain ⟨r, h1, h2⟩ := noSimdPart_eq hv h hn hc hz
  unfold scalarBranch
  rw [h1]
  simp only [Option.bind_some]
  by_cases hov : 2 ^ cfg.bits ≤ digitsValue cfg.base ds
  · rw [expect_overflow hv rest hneg hov]; simp [hov]
  · simp only [hov, decide_false, Bool.false_eq_true, if_false]
    rw [h2 (by omega), finish_eq hv rest hneg (by omega)]

end Verif.IntScan
