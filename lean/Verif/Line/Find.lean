import Verif.IntScan.Lemmas2
import Verif.Line.Model
import Mathlib.Tactic.Ring
import Mathlib.Tactic.IntervalCases
/-! # Lemmas: the character search finds the first occurrence -/
namespace Verif.Line
open Verif.IntScan

theorem land_split {a b a' b' : Nat} (ha : a < 256) (hb : b < 256) :
    (a + 256 * a') &&& (b + 256 * b') = (a &&& b) + 256 * (a' &&& b') := by
  have hab : a &&& b < 2 ^ 8 := Nat.and_lt_two_pow _ hb
  apply Nat.eq_of_testBit_eq
  intro i
  rw [show a + 256 * a' = 2 ^ 8 * a' + a by omega, show b + 256 * b' = 2 ^ 8 * b' + b by omega,
    show (a &&& b) + 256 * (a' &&& b') = 2 ^ 8 * (a' &&& b') + (a &&& b) by omega]
  rw [Nat.testBit_and, Nat.testBit_two_pow_mul_add _ ha, Nat.testBit_two_pow_mul_add _ hb,
    Nat.testBit_two_pow_mul_add _ hab]
  split <;> simp

theorem xor_split {a b a' b' : Nat} (ha : a < 256) (hb : b < 256) :
    (a + 256 * a') ^^^ (b + 256 * b') = (a ^^^ b) + 256 * (a' ^^^ b') := by
  have hab : a ^^^ b < 2 ^ 8 := Nat.xor_lt_two_pow ha hb
  apply Nat.eq_of_testBit_eq
  intro i
  rw [show a + 256 * a' = 2 ^ 8 * a' + a by omega, show b + 256 * b' = 2 ^ 8 * b' + b by omega,
    show (a ^^^ b) + 256 * (a' ^^^ b') = 2 ^ 8 * (a' ^^^ b') + (a ^^^ b) by omega]
  rw [Nat.testBit_xor, Nat.testBit_two_pow_mul_add _ ha, Nat.testBit_two_pow_mul_add _ hb,
    Nat.testBit_two_pow_mul_add _ hab]
  split <;> simp

/-- 1 + 256 + … (n terms). -/
def onesN : Nat → Nat
  | 0 => 0
  | n + 1 => 1 + 256 * onesN n

theorem onesN_lt (n : Nat) : onesN n < 256 ^ n := by
  induction n with
  | zero => simp [onesN]
  | succ n ih => rw [onesN, pow_succ]; omega

/-- The zero-byte test on words of `n` bytes. -/
def vN (n x : Nat) : Nat := ((x + 256 ^ n - onesN n) % 256 ^ n) &&& (256 ^ n - 1 - x) &&& (128 * onesN n)

theorem low_zero : ∀ b : Fin 255, ((b.val) &&& (255 - (b.val + 1))) &&& 128 = 0 := by decide +kernel

theorem vN_succ_pos {n b x : Nat} (hb : b < 256) (h1 : 1 ≤ b) (hx : x < 256 ^ n) :
    vN (n + 1) (b + 256 * x) = 256 * vN n x := by
  have ho := onesN_lt n
  unfold vN
  rw [onesN, pow_succ]
  generalize 256 ^ n = p at *
  generalize onesN n = o at *
  have e1 : (b + 256 * x + p * 256 - (1 + 256 * o)) % (p * 256) = (b - 1) + 256 * ((x + p - o) % p) := by
    rw [show b + 256 * x + p * 256 - (1 + 256 * o) = (b - 1) + 256 * (x + p - o) by omega, Nat.mul_comm p 256,
      Nat.mod_mul, Nat.add_mul_mod_self_left, Nat.add_mul_div_left _ _ (by norm_num), Nat.mod_eq_of_lt (by omega : b - 1 < 256),
      Nat.div_eq_of_lt (by omega : b - 1 < 256), Nat.zero_add]
  have e2 : p * 256 - 1 - (b + 256 * x) = (255 - b) + 256 * (p - 1 - x) := by omega
  have e3 : 128 * (1 + 256 * o) = 128 + 256 * (128 * o) := by ring
  rw [e1, e2, e3, land_split (by omega) (by omega), land_split (lt_of_le_of_lt Nat.and_le_left (by omega)) (by omega)]
  have := low_zero ⟨b - 1, by omega⟩
  simp only at this
  rw [Nat.sub_add_cancel h1] at this
  rw [this, Nat.zero_add]

theorem vN_succ_zero {n x : Nat} (hx : x < 256 ^ n) : vN (n + 1) (256 * x) ≠ 0 := by
  have ho := onesN_lt n
  unfold vN
  rw [onesN, pow_succ]
  generalize 256 ^ n = p at *
  generalize onesN n = o at *
  have e1 : (256 * x + p * 256 - (1 + 256 * o)) % (p * 256) = 255 + 256 * ((x + (p - 1 - o)) % p) := by
    rw [show 256 * x + p * 256 - (1 + 256 * o) = 255 + 256 * (x + (p - 1 - o)) by omega, Nat.mul_comm p 256,
      Nat.mod_mul, Nat.add_mul_mod_self_left, Nat.add_mul_div_left _ _ (by norm_num), Nat.mod_eq_of_lt (by omega : 255 < 256),
      Nat.div_eq_of_lt (by omega : 255 < 256), Nat.zero_add]
  have e2 : p * 256 - 1 - 256 * x = 255 + 256 * (p - 1 - x) := by omega
  have e3 : 128 * (1 + 256 * o) = 128 + 256 * (128 * o) := by ring
  rw [e1, e2, e3, land_split (by omega) (by omega), land_split (lt_of_le_of_lt Nat.and_le_left (by omega)) (by omega)]
  have : (255 &&& 255) &&& 128 = 128 := by decide
  rw [this]; omega

theorem leWord_lt {l : List Nat} (h : ∀ c ∈ l, c < 256) : leWord l < 256 ^ l.length := by
  induction l with
  | nil => simp [leWord]
  | cons c l ih =>
    have := ih (fun x hx => h x (by simp [hx])); have := h c (by simp)
    rw [leWord, List.length_cons, pow_succ]; omega

theorem vN_leWord {l : List Nat} (h : ∀ c ∈ l, c < 256) : vN l.length (leWord l) = 0 ↔ ∀ c ∈ l, c ≠ 0 := by
  induction l with
  | nil => simp [vN, onesN]
  | cons c l ih =>
    have hl := fun x (hx : x ∈ l) => h x (by simp [hx])
    have hc := h c (by simp)
    rcases Nat.eq_zero_or_pos c with rfl | hp
    · simp only [List.length_cons, leWord, Nat.zero_add]
      constructor
      · intro e; exact absurd e (vN_succ_zero (leWord_lt hl))
      · intro e; exact absurd rfl (e 0 (by simp))
    · rw [List.length_cons, leWord, vN_succ_pos hc hp (leWord_lt hl)]
      simp only [List.mem_cons, forall_eq_or_imp]
      rw [← ih hl]
      constructor
      · intro e; exact ⟨by omega, by omega⟩
      · rintro ⟨_, e⟩; rw [e]

/-- If the first byte is not zero, not every marker is set. -/
theorem vN_first {n b x : Nat} (hb : b < 256) (h1 : 1 ≤ b) (hx : x < 256 ^ n) :
    vN (n + 1) (b + 256 * x) ≠ 128 * onesN (n + 1) := by
  rw [vN_succ_pos hb h1 hx, onesN]; omega

theorem ones_eq : ones = onesN 8 := by decide +kernel
theorem highs_eq : highs = 128 * onesN 8 := by decide +kernel

theorem leWord_replicate (n ch : Nat) : leWord (List.replicate n ch) = onesN n * ch := by
  induction n with
  | zero => simp [leWord, onesN]
  | succ n ih => rw [List.replicate_succ, leWord, ih, onesN]; ring

theorem leWord_xor {l : List Nat} (ch : Nat) (hc : ch < 256) (h : ∀ c ∈ l, c < 256) :
    leWord l ^^^ leWord (List.replicate l.length ch) = leWord (l.map (· ^^^ ch)) := by
  induction l with
  | nil => simp [leWord]
  | cons c l ih =>
    rw [List.length_cons, List.replicate_succ, leWord, leWord, List.map_cons, leWord,
      xor_split (h c (by simp)) hc, ih (fun x hx => h x (by simp [hx]))]

theorem swarV_eq {ch : Nat} {l : List Nat} (hc : ch < 256) (h : ∀ c ∈ l, c < 256) (h8 : l.length = 8) :
    swarV ch l = vN 8 (leWord (l.map (· ^^^ ch))) := by
  have e : leWord l ^^^ ones * ch % 2 ^ 64 = leWord (l.map (· ^^^ ch)) := by
    rw [← leWord_xor ch hc h, h8, leWord_replicate, ones_eq, Nat.mod_eq_of_lt]
    have : onesN 8 = 72340172838076673 := by decide +kernel
    rw [this]; omega
  unfold swarV vN
  simp only
  rw [e, highs_eq, ones_eq, show (256 : Nat) ^ 8 = 2 ^ 64 by norm_num]

theorem xor_byte {c ch : Nat} (h : c < 256) (hc : ch < 256) : c ^^^ ch < 256 ∧ (c ^^^ ch = 0 ↔ c = ch) :=
  ⟨Nat.xor_lt_two_pow (n := 8) h hc, by
    constructor
    · intro e
      have : (c ^^^ ch) ^^^ ch = 0 ^^^ ch := by rw [e]
      simpa [Nat.xor_assoc] using this
    · rintro rfl; simp⟩

theorem swarStop_false {ch : Nat} {l : List Nat} (hc : ch < 256) (h : ∀ c ∈ l, c < 256) (h8 : l.length = 8) :
    swarStop false ch l = false ↔ ∀ c ∈ l, c ≠ ch := by
  simp only [swarStop, Bool.false_eq_true, if_false]
  rw [swarV_eq hc h h8]
  have hb : ∀ c ∈ l.map (· ^^^ ch), c < 256 := by
    intro c hm
    obtain ⟨a, ha, rfl⟩ := List.mem_map.1 hm
    exact (xor_byte (h a ha) hc).1
  have := vN_leWord hb
  rw [List.length_map, h8] at this
  simp only [bne_eq_false_iff_eq]
  rw [this]
  constructor
  · intro g c hm e; exact g _ (List.mem_map.2 ⟨c, hm, rfl⟩) (by simp [e])
  · intro g c hm
    obtain ⟨a, ha, rfl⟩ := List.mem_map.1 hm
    intro e; exact g a ha ((xor_byte (h a ha) hc).2.1 e)

theorem swarStop_true {ch c : Nat} {l : List Nat} (hc : ch < 256) (h : ∀ x ∈ c :: l, x < 256) (h8 : l.length = 7) (hne : c ≠ ch) :
    swarStop true ch (c :: l) = true := by
  simp only [swarStop, if_true]
  rw [swarV_eq hc h (by simp [h8]), List.map_cons, leWord, highs_eq]
  have := (xor_byte (h c (by simp)) hc)
  have hl : leWord (l.map (· ^^^ ch)) < 256 ^ 7 := by
    rw [← h8, ← List.length_map (f := (· ^^^ ch)) (as := l)]
    apply leWord_lt
    intro x hm
    obtain ⟨a, ha, rfl⟩ := List.mem_map.1 hm
    exact (xor_byte (h a (by simp [ha])) hc).1
  have hp : 1 ≤ c ^^^ ch := Nat.one_le_iff_ne_zero.2 (fun e => hne (this.2.1 e))
  simpa using vN_first (n := 7) this.1 hp hl

theorem simdLoop_skipN {n : Nat} {stop : List Nat → Bool} {p : Nat → Bool} (P : Nat → Prop)
    (hstop : ∀ v, (∀ c ∈ v, P c) → v.length = n → stop v = false → ∀ c ∈ v, p c = true) (l : List Nat) (hl : ∀ c ∈ l, P c) :
    (simdLoop n stop l).dropWhile p = l.dropWhile p := by
  induction hn : l.length using Nat.strong_induction_on generalizing l with
  | _ k ih =>
    unfold simdLoop
    split
    · rename_i h
      split
      · rfl
      · rename_i hs
        rw [ih (l.drop n).length (by simp; omega) (l.drop n) (fun c hc => hl c (List.mem_of_mem_drop hc)) rfl]
        have := hstop (l.take n) (fun c hc => hl c (List.mem_of_mem_take hc)) (by simp; omega) (by simpa using hs)
        conv_rhs => rw [← List.take_append_drop n l]
        rw [dropWhile_append_all _ _ this]
    · rfl

theorem findMusl_eq {ch : Nat} {findnot : Bool} {l : List Nat} (hc : ch < 256) (h : ∀ c ∈ l, c < 256) :
    findMusl findnot ch l = l.dropWhile (fun c => if findnot then c == ch else c != ch) := by
  unfold findMusl
  simp only
  rw [skipWhile_eq]
  cases l with
  | nil => rfl
  | cons c l =>
    simp only
    by_cases hcc : c = ch
    · rw [if_neg (by simpa using hcc)]
    · rw [if_pos hcc]
      cases findnot with
      | false =>
        refine simdLoop_skipN (P := fun c => c < 256) ?_ _ h
        intro v hv h8 hs x hx
        have := (swarStop_false hc hv h8).1 hs x hx
        simpa using this
      | true =>
        rw [simdLoop]
        by_cases hn : 0 < 8 ∧ 8 ≤ (c :: l).length
        · rw [dif_pos hn]
          have ht : (c :: l).take 8 = c :: l.take 7 := rfl
          rw [if_pos]
          rw [ht]
          refine swarStop_true hc (fun x hx => h x ?_) ?_ hcc
          · rw [← ht] at hx; exact List.mem_of_mem_take hx
          · simp at hn ⊢; omega
        · rw [dif_neg hn]

theorem findCold_eq {cfg : FindCfg} {ch : Nat} {findnot : Bool} {l : List Nat} (hc : ch < 256)
    (h : cfg.cw = 8 → ∀ c ∈ l, c < 256) :
    findCold cfg ch findnot false l = l.dropWhile (fun c => if findnot then c == ch else c != ch) := by
  unfold findCold
  by_cases h1 : (cfg.libc && !findnot && (cfg.cw == 8 || cfg.cw == 32)) = true
  · rw [if_pos h1, skipWhile_eq]
    have : findnot = false := by cases findnot <;> simp_all
    subst this; simp
  · rw [if_neg h1]
    by_cases h2 : cfg.simd ≠ 0
    · rw [if_pos h2, skipWhile_eq]
      refine simdLoop_skip (P := fun _ => True) ?_ l (fun _ _ => trivial)
      intro v _ hs x hx
      simp only [stopTest, Bool.false_eq_true, if_false] at hs
      have := List.any_eq_false.1 hs x hx
      cases findnot <;> simp_all
    · rw [if_neg h2]
      by_cases h3 : cfg.cw = 8
      · rw [if_pos (by simpa using h3), findMusl_eq hc (h h3)]
      · rw [if_neg (by simpa using h3), skipWhile_eq]

/-- The search stops at the first character equal to (different from) `ch`, whichever way it was compiled. -/
theorem findCh_eq {cfg : FindCfg} {ch : Nat} {findnot : Bool} {l : List Nat} (hc : ch < 256)
    (h : cfg.cw = 8 → ∀ c ∈ l, c < 256) :
    findCh cfg ch findnot l = l.dropWhile (fun c => if findnot then c == ch else c != ch) := by
  unfold findCh findChT
  apply smallOpt_skip
  intro pre l' hl _
  exact findCold_eq hc (fun h8 c hm => h h8 c (by rw [hl]; simp [hm]))

end Verif.Line
