import Verif.IntScan.Model
import Verif.IntPrint.Lemmas2
import Mathlib.Tactic.IntervalCases
/-! Helper lemmas about integer scanning. -/
namespace Verif.IntScan
open Verif Verif.IntPrint

/-- Character widths. -/
def CharWidth (cw : Nat) : Prop := cw = 8 ∨ cw = 16 ∨ cw = 32

/-- Template parameters that can occur. -/
structure Valid (cfg : Cfg) : Prop where
  base_lo : 2 ≤ cfg.base
  base_hi : cfg.base ≤ 36
  width : Width cfg.bits
  charWidth : CharWidth cfg.cw
  simd : cfg.simd = 0 ∨ cfg.simd = 16 ∨ cfg.simd = 32 ∨ cfg.simd = 64
  slack : 1 ≤ cfg.extra ∧ cfg.extra ≤ 3
  /-- Zeros are not skipped with the inverted vector test (see `c06_avx512_zeros_violated`). -/
  zeros : cfg.ptestm = true → cfg.skipzero = false

/-- The input consists of code units of the character type. -/
def CodeUnits (cw : Nat) (l : List Nat) : Prop := ∀ c ∈ l, c < 2 ^ cw

/-- The one code unit for which the digit table is indexed out of bounds (bases above 10). -/
def trapChar (cw base : Nat) : Nat := if cw = 8 then 255 else 87 + base

/-- The input avoids that code unit. -/
def NoTrap (cw base : Nat) (l : List Nat) : Prop := 10 < base → trapChar cw base ∉ l

theorem tbEntry_spec {base c : Nat} (hb : 10 < base) (hb2 : base ≤ 36) (hc : c < 256) :
    ∀ d, tbEntry base c = some d ↔ IsDigit base c d := by
  intro d
  have h2 : 65 ≤ c ∧ (c + 256 - 65) % 256 = c - 65 ∨ c < 65 ∧ (c + 256 - 65) % 256 = c + 191 := by omega
  have h3 : 97 ≤ c ∧ (c + 256 - 97) % 256 = c - 97 ∨ c < 97 ∧ (c + 256 - 97) % 256 = c + 159 := by omega
  have h1 : 48 ≤ c ∧ (c + 256 - 48) % 256 = c - 48 ∨ c < 48 ∧ (c + 256 - 48) % 256 = c + 208 := by omega
  unfold tbEntry IsDigit
  simp only
  generalize (c + 256 - 65) % 256 = x2 at *
  generalize (c + 256 - 97) % 256 = x3 at *
  generalize (c + 256 - 48) % 256 = x1 at *
  have hdc : (c = digitChar false d ∨ c = digitChar true d) ↔
      (d < 10 ∧ c = 48 + d) ∨ (10 ≤ d ∧ (c = 97 + (d - 10) ∨ c = 65 + (d - 10))) := by
    unfold digitChar
    by_cases hd : d < 10
    · simp [hd] <;> omega
    · simp [hd] <;> omega
  rw [hdc]
  have hmod : ∀ x, x < base - 10 → (x + 10) % 256 = x + 10 := by intro x hx; omega
  split
  · rename_i h; rw [hmod _ h]
    simp only [Option.some.injEq]; omega
  · split
    · rename_i h; rw [hmod _ h]
      simp only [Option.some.injEq]; omega
    · split
      · simp only [reduceCtorEq, false_iff]; omega
      · simp only [Option.some.injEq]; omega

theorem tbSizeLoop_eq {base : Nat} (hb : 10 < base) (hb2 : base ≤ 36) : tbSizeLoop base 256 = 87 + base := by
  have key : ∀ k, 87 + base + k ≤ 256 → tbSizeLoop base (87 + base + k) = 87 + base := by
    intro k
    induction k with
    | zero =>
      intro h
      obtain ⟨n, hn⟩ : ∃ n, 87 + base + 0 = n + 1 := ⟨86 + base, by omega⟩
      rw [hn, tbSizeLoop]
      have : tbEntry base n = some (base - 1) := by
        rw [tbEntry_spec hb hb2 (by omega)]
        refine ⟨by omega, Or.inl ?_⟩
        simp [digitChar, show ¬ (base - 1 < 10) by omega]; omega
      simp [this]; omega
    | succ k ih =>
      intro h
      have : 87 + base + (k + 1) = (87 + base + k) + 1 := by omega
      rw [this, tbSizeLoop]
      have hn : tbEntry base (87 + base + k) = none := by
        cases he : tbEntry base (87 + base + k) with
        | none => rfl
        | some d =>
          rw [tbEntry_spec hb hb2 (by omega)] at he
          obtain ⟨h1, h2⟩ := he
          simp only [digitChar] at h2
          split_ifs at h2 <;> simp at * <;> omega
      simp [hn]; exact ih (by omega)
  have := key (256 - (87 + base)) (by omega)
  rwa [show 87 + base + (256 - (87 + base)) = 256 by omega] at this

theorem tbSize_eq {cw base : Nat} (hb : 10 < base) (hb2 : base ≤ 36) : tbSize cw base = trapChar cw base := by
  unfold tbSize trapChar
  split
  · rfl
  · exact tbSizeLoop_eq hb hb2

theorem isDigit_lt {base c d : Nat} (hb2 : base ≤ 36) (h : IsDigit base c d) : c < 123 ∧ 48 ≤ c := by
  obtain ⟨h1, h2⟩ := h
  simp only [digitChar] at h2
  split_ifs at h2 <;> simp at * <;> omega

theorem isDigit_unique {base c d d' : Nat} (hb2 : base ≤ 36) (h : IsDigit base c d) (h' : IsDigit base c d') : d = d' := by
  obtain ⟨h1, h2⟩ := h
  obtain ⟨h3, h4⟩ := h'
  simp only [digitChar] at h2 h4
  split_ifs at * <;> simp at * <;> omega

theorem charDigit_some {cw base c d : Nat} (hcw : CharWidth cw) (hb2 : base ≤ 36)
    (h : IsDigit base c d) : charDigit cw base c = some (some d) := by
  have hlt := isDigit_lt hb2 h
  unfold charDigit
  split
  · rename_i hb
    obtain ⟨h1, h2⟩ := h
    simp only [digitChar, show d < 10 by omega, if_true, or_self] at h2
    subst h2
    have : (48 + d + 2 ^ cw - 48) % 2 ^ cw = d := by
      rcases hcw with h | h | h <;> subst h <;> norm_num <;> omega
    simp [this, h1]
  · rename_i hb
    have hc : c < 256 := by omega
    have he : tbEntry base c = some d := (tbEntry_spec (by omega) hb2 hc d).mpr h
    have hts := @tbSize_eq cw base (by omega) hb2
    have hsz : c < tbSize cw base := by
      rw [hts]; unfold trapChar
      split
      · omega
      · obtain ⟨h1, h2⟩ := h
        simp only [digitChar] at h2
        split_ifs at h2 <;> simp at * <;> omega
    split
    · simp [tbRead, hsz, he]
    · rw [if_neg (by omega)]; simp [tbRead, hsz, he]

theorem charDigit_none {cw base c : Nat} (hcw : CharWidth cw) (hb2 : base ≤ 36)
    (h : ∀ d, ¬ IsDigit base c d) (hc : c < 2 ^ cw) (ht : 10 < base → c ≠ trapChar cw base) :
    charDigit cw base c = some none := by
  unfold charDigit
  split
  · rename_i hb
    have : base ≤ (c + 2 ^ cw - 48) % 2 ^ cw := by
      by_contra hcon
      have h48 : 48 ≤ c ∧ (c + 2 ^ cw - 48) % 2 ^ cw = c - 48 := by
        rcases hcw with h | h | h <;> subst h <;> norm_num at * <;> omega
      apply h (c - 48)
      refine ⟨by omega, Or.inl ?_⟩
      simp [digitChar, show c - 48 < 10 by omega]; omega
    simp [this]
  · rename_i hb
    have ht' := ht (by omega)
    have hts := @tbSize_eq cw base (by omega) hb2
    have hn : ∀ hc' : c < 256, tbEntry base c = none := by
      intro hc'
      cases he : tbEntry base c with
      | none => rfl
      | some d => exact absurd ((tbEntry_spec (by omega) hb2 hc' d).mp he) (h d)
    rw [← hts] at ht'
    split
    · rename_i h8; subst h8
      have h255 : tbSize 8 base = 255 := rfl
      have : c < tbSize 8 base := by omega
      simp [tbRead, this, hn (by omega)]
    · rename_i h8
      split
      · rfl
      · have : c < tbSize cw base := by omega
        have h256 : c < 256 := by rw [hts] at this; simp [trapChar, h8] at this; omega
        simp [tbRead, this, hn h256]

/-- Every text splits into its longest run of digits and the remainder. -/
theorem exists_run (base : Nat) (l : List Nat) :
    ∃ cs ds rest, l = cs ++ rest ∧ DigitRun base cs ds ∧ NoDigitFirst base rest := by
  induction l with
  | nil => exact ⟨[], [], [], rfl, .nil, by intro c t d h; simp at h⟩
  | cons c l ih =>
    by_cases h : ∃ d, IsDigit base c d
    · obtain ⟨d, hd⟩ := h
      obtain ⟨cs, ds, rest, h1, h2, h3⟩ := ih
      exact ⟨c :: cs, d :: ds, rest, by simp [h1], .cons hd h2, h3⟩
    · refine ⟨[], [], c :: l, rfl, .nil, ?_⟩
      intro c' t d he hd
      simp only [List.cons.injEq] at he
      exact h ⟨d, he.1 ▸ hd⟩

theorem digitRun_length {b : Nat} {cs ds : List Nat} (h : DigitRun b cs ds) : cs.length = ds.length :=
  List.Forall₂.length_eq h

theorem digitRun_lt {b : Nat} {cs ds : List Nat} (h : DigitRun b cs ds) : ∀ d ∈ ds, d < b := by
  induction h with
  | nil => simp
  | cons h1 _ ih => intro d hd; rcases List.mem_cons.mp hd with h | h
                    · exact h ▸ h1.1
                    · exact ih d h

theorem digitRun_append {b : Nat} {cs ds cs' ds' : List Nat} (h : DigitRun b cs ds) (h' : DigitRun b cs' ds') :
    DigitRun b (cs ++ cs') (ds ++ ds') := List.rel_append h h'

/-- The decomposition into run and remainder is unique. -/
theorem run_unique {base : Nat} (hb2 : base ≤ 36) {cs ds rest cs' ds' rest' : List Nat}
    (h : cs ++ rest = cs' ++ rest') (h1 : DigitRun base cs ds) (h2 : NoDigitFirst base rest)
    (h3 : DigitRun base cs' ds') (h4 : NoDigitFirst base rest') : cs = cs' ∧ ds = ds' ∧ rest = rest' := by
  induction h1 generalizing cs' ds' with
  | nil =>
    cases h3 with
    | nil => simpa using h
    | cons hd _ => exact absurd hd (h2 _ _ _ (by simpa using h))
  | cons hd hr ih =>
    cases h3 with
    | nil => exact absurd hd (h4 _ _ _ (by simpa using h.symm))
    | cons hd' hr' =>
      simp only [List.cons_append, List.cons.injEq] at h
      obtain ⟨hc, hl⟩ := h
      subst hc
      have := ih hl hr'
      have hdd := isDigit_unique hb2 hd hd'
      simp [this, hdd]

/-! ### The portable loop -/

/-- What the classification needs of the text that follows. -/
def Clean (cfg : Cfg) (l : List Nat) : Prop := CodeUnits cfg.cw l ∧ NoTrap cfg.cw cfg.base l

theorem Clean.tail {cfg : Cfg} {l r : List Nat} (h : Clean cfg (l ++ r)) : Clean cfg r :=
  ⟨fun c hc => h.1 c (by simp [hc]), fun hb hm => h.2 hb (by simp [hm])⟩

theorem Clean.cons {cfg : Cfg} {c : Nat} {r : List Nat} (h : Clean cfg (c :: r)) : Clean cfg r :=
  Clean.tail (l := [c]) h

theorem Clean.head {cfg : Cfg} {c : Nat} {r : List Nat} (h : Clean cfg (c :: r)) (hv : Valid cfg)
    (hn : ∀ d, ¬ IsDigit cfg.base c d) : charDigit cfg.cw cfg.base c = some none :=
  charDigit_none hv.charWidth hv.base_hi hn (h.1 c (by simp)) (fun hb hc => h.2 hb (by simp [hc]))

/-- Horner accumulation from a start value. -/
def horner (b acc : Nat) (ds : List Nat) : Nat := ds.foldl (fun acc d => acc * b + d) acc

theorem horner_lt {b : Nat} (ds : List Nat) (hd : ∀ d ∈ ds, d < b) (acc : Nat) :
    horner b acc ds < (acc + 1) * b ^ ds.length := by
  induction ds generalizing acc with
  | nil => simp [horner]
  | cons d ds ih =>
    have h1 := ih (fun x hx => hd x (by simp [hx])) (acc * b + d)
    have h2 : acc * b + d + 1 ≤ (acc + 1) * b := by
      have := hd d (by simp)
      rw [Nat.add_mul]; omega
    have h3 := Nat.mul_le_mul_right (b ^ ds.length) h2
    have h4 : horner b acc (d :: ds) = horner b (acc * b + d) ds := rfl
    rw [h4, List.length_cons, Nat.pow_succ]
    calc _ < _ := h1
      _ ≤ _ := h3
      _ = _ := by ring

theorem horner_ge {b : Nat} (ds : List Nat) (acc : Nat) : acc * b ^ ds.length ≤ horner b acc ds := by
  induction ds generalizing acc with
  | nil => simp [horner]
  | cons d ds ih =>
    have h1 := ih (acc * b + d)
    have h4 : horner b acc (d :: ds) = horner b (acc * b + d) ds := rfl
    rw [h4, List.length_cons, Nat.pow_succ]
    calc acc * (b ^ ds.length * b) = (acc * b) * b ^ ds.length := by ring
      _ ≤ (acc * b + d) * b ^ ds.length := Nat.mul_le_mul_right _ (by omega)
      _ ≤ _ := h1

theorem horner_append (b acc : Nat) (ds es : List Nat) : horner b acc (ds ++ es) = horner b (horner b acc ds) es := by
  simp [horner]

theorem skipDigits_eq {cfg : Cfg} (hv : Valid cfg) {cs ds rest : List Nat} (h : DigitRun cfg.base cs ds)
    (hn : NoDigitFirst cfg.base rest) (hc : Clean cfg rest) : skipDigits cfg (cs ++ rest) = some rest := by
  induction h with
  | nil =>
    cases rest with
    | nil => rfl
    | cons c t =>
      have := hc.head hv (fun d hd => hn c t d rfl hd)
      simp [skipDigits, this]
  | cons hd _ ih =>
    simp only [List.cons_append, skipDigits, charDigit_some hv.charWidth hv.base_hi hd, Option.bind_some]
    exact ih

/-- First phase, ending inside the run. -/
theorem firstPhase_inside {cfg : Cfg} (hv : Valid cfg) {cs ds : List Nat} (rest : List Nat) (h : DigitRun cfg.base cs ds)
    (acc : Nat) (hacc : (acc + 1) * cfg.base ^ ds.length ≤ 2 ^ cfg.bits) :
    firstPhase cfg cs.length (cs ++ rest) acc = some (rest, horner cfg.base acc ds) := by
  induction h generalizing acc with
  | nil => simp [firstPhase, horner]
  | @cons c d cs ds hd hr ih =>
    simp only [List.length_cons, List.cons_append, firstPhase, charDigit_some hv.charWidth hv.base_hi hd, Option.bind_some]
    have hb : 0 < cfg.base ^ ds.length := Nat.pow_pos (by have := hv.base_lo; omega)
    have hstep : acc * cfg.base + d + 1 ≤ (acc + 1) * cfg.base := by
      have := hd.1
      rw [Nat.add_mul]; omega
    have hle : (acc * cfg.base + d + 1) * cfg.base ^ ds.length ≤ 2 ^ cfg.bits := by
      refine le_trans (Nat.mul_le_mul_right _ hstep) ?_
      rw [List.length_cons, Nat.pow_succ] at hacc
      calc _ = (acc + 1) * (cfg.base ^ ds.length * cfg.base) := by ring
        _ ≤ _ := hacc
    have hlt : acc * cfg.base + d < 2 ^ cfg.bits := by
      have : acc * cfg.base + d + 1 ≤ (acc * cfg.base + d + 1) * cfg.base ^ ds.length := Nat.le_mul_of_pos_right _ hb
      omega
    rw [Nat.mod_eq_of_lt (show acc * cfg.base < 2 ^ cfg.bits by omega), Nat.mod_eq_of_lt hlt]
    exact ih _ hle

/-- First phase, ending at the end of the run. -/
theorem firstPhase_all {cfg : Cfg} (hv : Valid cfg) {cs ds rest : List Nat} (h : DigitRun cfg.base cs ds)
    (hn : NoDigitFirst cfg.base rest) (hc : Clean cfg rest) (n : Nat)
    (hlen : cs.length ≤ n) (hlen2 : n ≤ (cs ++ rest).length)
    (acc : Nat) (hacc : (acc + 1) * cfg.base ^ ds.length ≤ 2 ^ cfg.bits) :
    firstPhase cfg n (cs ++ rest) acc = some (rest, horner cfg.base acc ds) := by
  induction h generalizing acc n with
  | nil =>
    cases n with
    | zero => simp [firstPhase, horner]
    | succ n =>
      cases rest with
      | nil => simp at hlen2
      | cons c t =>
        have := hc.head hv (fun d hd => hn c t d rfl hd)
        simp [firstPhase, this, horner]
  | @cons c d cs ds hd hr ih =>
    obtain ⟨n, rfl⟩ : ∃ k, n = k + 1 := ⟨n - 1, by simp at hlen; omega⟩
    simp only [List.cons_append, firstPhase, charDigit_some hv.charWidth hv.base_hi hd, Option.bind_some]
    have hb : 0 < cfg.base ^ ds.length := Nat.pow_pos (by have := hv.base_lo; omega)
    have hstep : acc * cfg.base + d + 1 ≤ (acc + 1) * cfg.base := by
      have := hd.1
      rw [Nat.add_mul]; omega
    have hle : (acc * cfg.base + d + 1) * cfg.base ^ ds.length ≤ 2 ^ cfg.bits := by
      refine le_trans (Nat.mul_le_mul_right _ hstep) ?_
      rw [List.length_cons, Nat.pow_succ] at hacc
      calc _ = (acc + 1) * (cfg.base ^ ds.length * cfg.base) := by ring
        _ ≤ _ := hacc
    have hlt : acc * cfg.base + d < 2 ^ cfg.bits := by
      have : acc * cfg.base + d + 1 ≤ (acc * cfg.base + d + 1) * cfg.base ^ ds.length := Nat.le_mul_of_pos_right _ hb
      omega
    rw [Nat.mod_eq_of_lt (show acc * cfg.base < 2 ^ cfg.bits by omega), Nat.mod_eq_of_lt hlt]
    exact ih n (by simp at hlen; omega) (by simp at hlen2 ⊢; omega) _ hle

/-- Size facts: `base^(maxSize)` against the range of the unsigned type. -/
theorem maxSize_special {cfg : Cfg} (hv : Valid cfg) (hs : isSpecialBase cfg.base = true) :
    cfg.base ^ maxIntSize cfg.bits false cfg.base = 2 ^ cfg.bits := by
  obtain ⟨k, hk, hk2⟩ : ∃ k, (k = 1 ∨ k = 2 ∨ k = 4) ∧ cfg.base = 2 ^ k := by
    simp only [isSpecialBase, Bool.or_eq_true, beq_iff_eq] at hs
    rcases hs with (h | h) | h
    · exact ⟨1, by simp, by simp [h]⟩
    · exact ⟨2, by simp, by simp [h]⟩
    · exact ⟨4, by simp, by simp [h]⟩
  have hb := hv.base_lo
  have hw := hv.width
  have hlen : (numeral cfg.base (2 ^ cfg.bits - 1)).length = cfg.bits / k := by
    rw [hk2]
    apply numeral_length_eq (by rcases hk with h | h | h <;> subst h <;> norm_num)
    · rcases hw with h | h | h | h | h <;> rw [h] <;> rcases hk with h | h | h <;> subst h <;> norm_num
    · rcases hw with h | h | h | h | h <;> rw [h] <;> rcases hk with h | h | h <;> subst h <;> norm_num
    · right
      rcases hw with h | h | h | h | h <;> rw [h] <;> rcases hk with h | h | h <;> subst h <;> norm_num
  rw [maxIntSize_eq hb _ _ (intMax_ne _ _ hw)]
  simp only [intMax, Bool.false_eq_true, if_false]
  rw [hlen, hk2, ← pow_mul]
  congr 1
  rcases hw with h | h | h | h | h <;> rw [h] <;> rcases hk with h | h | h <;> subst h <;> norm_num

theorem maxSize_general {cfg : Cfg} (hv : Valid cfg) :
    0 < maxIntSize cfg.bits false cfg.base ∧
    2 ^ cfg.bits - 1 < cfg.base ^ maxIntSize cfg.bits false cfg.base ∧
    cfg.base ^ (maxIntSize cfg.bits false cfg.base - 1) ≤ 2 ^ cfg.bits - 1 := by
  have hb := hv.base_lo
  rw [maxIntSize_eq hb _ _ (intMax_ne _ _ hv.width)]
  simp only [intMax, Bool.false_eq_true, if_false]
  have hp := numeral_length_pos cfg.base (2 ^ cfg.bits - 1)
  have h2 : 4 ≤ 2 ^ cfg.bits := by rcases hv.width with h | h | h | h | h <;> rw [h] <;> norm_num
  refine ⟨hp, (numeral_length_le hb _ _ hp).mp le_rfl, ?_⟩
  by_contra hcon
  rcases Nat.eq_zero_or_pos ((numeral cfg.base (2 ^ cfg.bits - 1)).length - 1) with h | h
  · rw [h] at hcon; simp at hcon; omega
  · have := (numeral_length_le hb _ _ h).mpr (by omega : 2 ^ cfg.bits - 1 < _)
    omega

theorem digitsValue_eq_horner (b : Nat) (ds : List Nat) : digitsValue b ds = horner b 0 ds := rfl

/-- The portable loop: position after the run, overflow exactly when the value does not fit. -/
theorem noSimdPart_eq {cfg : Cfg} (hv : Valid cfg) {cs ds rest : List Nat} (h : DigitRun cfg.base cs ds)
    (hn : NoDigitFirst cfg.base rest) (hc : Clean cfg rest) (hz : ds.head? ≠ some 0) :
    ∃ r, noSimdPart cfg (cs ++ rest) = some (rest, decide (2 ^ cfg.bits ≤ digitsValue cfg.base ds), r) ∧
      (digitsValue cfg.base ds < 2 ^ cfg.bits → r = digitsValue cfg.base ds) := by
  have hb := hv.base_lo
  have hlen := digitRun_length h
  have hmg := maxSize_general hv
  have hlt := digitRun_lt h
  have hhead : ∀ k, k < ds.length → cfg.base ^ k ≤ digitsValue cfg.base ds := by
    intro k hk
    cases ds with
    | nil => simp at hk
    | cons d ds =>
      have hd : 0 < d := by rcases Nat.eq_zero_or_pos d with h | h
                            · simp [h] at hz
                            · exact h
      rw [digitsValue_eq_horner]
      have h1 : horner cfg.base 0 (d :: ds) = horner cfg.base d ds := by simp [horner]
      rw [h1]
      refine le_trans ?_ (horner_ge ds d)
      refine le_trans (Nat.pow_le_pow_right (by omega) (by simp at hk; omega : k ≤ ds.length)) ?_
      exact Nat.le_mul_of_pos_left _ hd
  have hup : digitsValue cfg.base ds < cfg.base ^ ds.length := by
    have := horner_lt ds hlt 0
    simpa [digitsValue_eq_horner] using this
  unfold noSimdPart
  simp only
  by_cases hs : isSpecialBase cfg.base = true
  · have hsp := maxSize_special hv hs
    simp only [hs, if_true, Nat.sub_zero]
    generalize hM : maxIntSize cfg.bits false cfg.base = M at *
    by_cases hle : cs.length ≤ M
    · have hfit : digitsValue cfg.base ds < 2 ^ cfg.bits := by
        rw [← hsp]; exact lt_of_lt_of_le hup (Nat.pow_le_pow_right (by omega) (by omega))
      have hacc : (0 + 1) * cfg.base ^ ds.length ≤ 2 ^ cfg.bits := by
        rw [← hsp]; simpa using Nat.pow_le_pow_right (n := cfg.base) (by omega) (by omega : ds.length ≤ M)
      rw [firstPhase_all hv h hn hc _ (by rw [List.length_append]; split <;> omega) (by split <;> omega) 0 hacc]
      have hdec : decide (2 ^ cfg.bits ≤ digitsValue cfg.base ds) = false := by simp; omega
      refine ⟨digitsValue cfg.base ds, ?_, fun _ => rfl⟩
      simp only [Option.bind_some]
      cases rest with
      | nil => simp [secondSpecial, ← digitsValue_eq_horner, hdec]
      | cons c t =>
        have := hc.head hv (fun d hd => hn c t d rfl hd)
        simp [secondSpecial, this, ← digitsValue_eq_horner, hdec]
    · -- overflow
      have hov : 2 ^ cfg.bits ≤ digitsValue cfg.base ds := by rw [← hsp]; exact hhead M (by omega)
      rw [if_neg (by simp; omega)]
      obtain ⟨cs1, cs2, rfl, hl1⟩ : ∃ a b, cs = a ++ b ∧ a.length = M :=
        ⟨cs.take M, cs.drop M, by simp, by simp; omega⟩
      obtain ⟨d1, d2, hd12, hr1, hr2⟩ : ∃ d1 d2, ds = d1 ++ d2 ∧ DigitRun cfg.base cs1 d1 ∧ DigitRun cfg.base cs2 d2 := by
        have h1 := List.forall₂_take_append ds cs1 cs2 (R := fun a b => IsDigit cfg.base b a) h.flip
        have h2 := List.forall₂_drop_append ds cs1 cs2 (R := fun a b => IsDigit cfg.base b a) h.flip
        exact ⟨_, _, (List.take_append_drop cs1.length ds).symm, h1.flip, h2.flip⟩
      have hl2 := digitRun_length hr1
      have hfp := firstPhase_inside hv (cs2 ++ rest) hr1 0 (by simp [← hl2, hl1, hsp])
      rw [hl1] at hfp
      rw [List.append_assoc, hfp]
      refine ⟨horner cfg.base 0 d1, ?_, fun hh => absurd hov (by omega)⟩
      simp only [Option.bind_some]
      cases hr2 with
      | nil => simp at hle; omega
      | @cons c d cs2 d2 hd hr2 =>
        simp only [secondSpecial, List.cons_append, charDigit_some hv.charWidth hv.base_hi hd, Option.bind_some,
          skipDigits_eq hv hr2 hn hc]
        simp [hov]
  · simp only [hs, Bool.false_eq_true, if_false]
    generalize hM : maxIntSize cfg.bits false cfg.base = M at *
    obtain ⟨hM0, hM1, hM2⟩ := hmg
    have hpos : 1 ≤ 2 ^ cfg.bits := Nat.one_le_two_pow
    by_cases hle : cs.length ≤ M - 1
    · have hacc0 : cfg.base ^ ds.length ≤ 2 ^ cfg.bits - 1 :=
        le_trans (Nat.pow_le_pow_right (by omega) (by omega)) hM2
      have hfit : digitsValue cfg.base ds < 2 ^ cfg.bits := by omega
      rw [firstPhase_all hv h hn hc _ (by rw [List.length_append]; split <;> omega) (by split <;> omega) 0 (by omega)]
      have hdec : decide (2 ^ cfg.bits ≤ digitsValue cfg.base ds) = false := by simp; omega
      refine ⟨digitsValue cfg.base ds, ?_, fun _ => rfl⟩
      simp only [Option.bind_some]
      cases rest with
      | nil => simp [secondGeneral, ← digitsValue_eq_horner, hdec]
      | cons c t =>
        have := hc.head hv (fun d hd => hn c t d rfl hd)
        simp [secondGeneral, this, ← digitsValue_eq_horner, hdec]
    · rw [if_neg (by simp; omega)]
      obtain ⟨cs1, cs2, rfl, hl1⟩ : ∃ a b, cs = a ++ b ∧ a.length = M - 1 :=
        ⟨cs.take (M - 1), cs.drop (M - 1), by simp, by simp; omega⟩
      obtain ⟨d1, d2, hd12, hr1, hr2⟩ : ∃ d1 d2, ds = d1 ++ d2 ∧ DigitRun cfg.base cs1 d1 ∧ DigitRun cfg.base cs2 d2 := by
        have h1 := List.forall₂_take_append ds cs1 cs2 (R := fun a b => IsDigit cfg.base b a) h.flip
        have h2 := List.forall₂_drop_append ds cs1 cs2 (R := fun a b => IsDigit cfg.base b a) h.flip
        exact ⟨_, _, (List.take_append_drop cs1.length ds).symm, h1.flip, h2.flip⟩
      have hl2 := digitRun_length hr1
      have hfp := firstPhase_inside hv (cs2 ++ rest) hr1 0 (by rw [← hl2, hl1]; omega)
      rw [hl1] at hfp
      rw [List.append_assoc, hfp]
      simp only [Option.bind_some]
      cases hr2 with
      | nil => simp at hle; omega
      | @cons c d cs2 d2 hd hr2 =>
        simp only [secondGeneral, List.cons_append, charDigit_some hv.charWidth hv.base_hi hd, Option.bind_some]
        set res := horner cfg.base 0 d1 with hres
        cases hr2 with
        | nil =>
          have hV : digitsValue cfg.base ds = res * cfg.base + d := by
            rw [digitsValue_eq_horner, hd12, horner_append]; simp [horner, hres]
          have hovf : (decide ((2 ^ cfg.bits - 1) / cfg.base < res) ||
              ((2 ^ cfg.bits - 1) / cfg.base == res && decide ((2 ^ cfg.bits - 1) % cfg.base < d))) =
              decide (2 ^ cfg.bits ≤ digitsValue cfg.base ds) := by
            rw [hV]
            have hdm := Nat.div_add_mod (2 ^ cfg.bits - 1) cfg.base
            have hml := Nat.mod_lt (2 ^ cfg.bits - 1) (show cfg.base > 0 by omega)
            set q := (2 ^ cfg.bits - 1) / cfg.base
            set m := (2 ^ cfg.bits - 1) % cfg.base
            rw [Bool.eq_iff_iff]
            simp only [Bool.or_eq_true, Bool.and_eq_true, decide_eq_true_eq, beq_iff_eq]
            have hdlt := hd.1
            constructor
            · rintro (h | ⟨h1, h2⟩)
              · have : cfg.base * (q + 1) ≤ cfg.base * res := Nat.mul_le_mul_left _ h
                rw [Nat.mul_add] at this
                rw [Nat.mul_comm res]; omega
              · rw [← h1, Nat.mul_comm q]; omega
            · intro h
              rcases Nat.lt_trichotomy q res with h1 | h1 | h1
              · left; exact h1
              · right; refine ⟨h1, ?_⟩; rw [← h1, Nat.mul_comm q] at h; omega
              · exfalso
                have : cfg.base * (res + 1) ≤ cfg.base * q := Nat.mul_le_mul_left _ h1
                rw [Nat.mul_add] at this
                rw [Nat.mul_comm res] at h; omega
          rw [hovf]
          have hall : ∀ r, afterLastDigit cfg ([] ++ rest) (decide (2 ^ cfg.bits ≤ digitsValue cfg.base ds)) r =
              some (rest, decide (2 ^ cfg.bits ≤ digitsValue cfg.base ds), r) := by
            intro r
            cases rest with
            | nil => rfl
            | cons c t =>
              have := hc.head hv (fun d hd => hn c t d rfl hd)
              simp [afterLastDigit, this]
          rw [hall]
          refine ⟨_, rfl, ?_⟩
          intro hf
          have hnd : ¬ (2 ^ cfg.bits ≤ digitsValue cfg.base ds) := by omega
          simp only [hnd, decide_false, Bool.false_eq_true, if_false]
          rw [hV] at hf ⊢
          rw [Nat.mod_eq_of_lt (show res * cfg.base < 2 ^ cfg.bits by omega), Nat.mod_eq_of_lt hf]
        | @cons c' d' cs2 d2 hd' hr2 =>
          have hov : 2 ^ cfg.bits ≤ digitsValue cfg.base ds := by
            have := hhead M (by rw [← hlen]; simp; omega)
            omega
          simp only [List.cons_append, afterLastDigit, charDigit_some hv.charWidth hv.base_hi hd', Option.bind_some,
            skipDigits_eq hv hr2 hn hc]
          rw [decide_eq_true hov]
          exact ⟨_, rfl, fun hh => absurd hov (by omega)⟩

end Verif.IntScan
