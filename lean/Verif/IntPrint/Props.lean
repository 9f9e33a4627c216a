import Verif.IntPrint.Spec
import Verif.IntPrint.Lemmas2
import Mathlib.Tactic.IntervalCases
/-!
# Properties C01-C05: integer printing
-/
namespace Verif.IntPrint
open Verif

/-- The supported formats whose printing is correct: `uint128` printing in the bases other than 2, 4, 10, 16
and in upper case base 16 is wrong (see `c03_u128_oct_violated`, `c03_u128_hexupper_violated`). -/
def Supported (bits base : Nat) (upper : Bool) : Prop :=
  bits = 128 → base = 10 ∨ base = 2 ∨ base = 4 ∨ (base = 16 ∧ upper = false)

theorem absBits_eq (bits : Nat) (hw : Width bits) (signed : Bool) (t : Int) (h : InRange bits signed t) :
    absBits bits t = t.natAbs ∧ t.natAbs < 2 ^ bits := by
  unfold absBits InRange at *
  rcases hw with hb | hb | hb | hb | hb <;> subst hb <;> cases signed <;>
    simp only [if_true, if_false, Bool.false_eq_true] at h <;> norm_num at h ⊢ <;> split <;> omega

theorem signChars_eq (signed showpos : Bool) (t : Int) (h : signed = false → 0 ≤ t) :
    signChars signed showpos t = signText showpos t := by
  unfold signChars signText ascii
  cases signed <;> cases showpos <;> by_cases ht : t < 0 <;> simp [ht]
  all_goals first | rfl | (have := h rfl; omega)

theorem basePrefix_eq (base : Nat) (upper : Bool) (h2 : 2 ≤ base) (h36 : base ≤ 36) :
    basePrefix base upper = prefixText base upper := by
  interval_cases base <;> cases upper <;>
    simp [basePrefix, prefixText, ascii, decText, numeral, digitChar]

/-- Body of a non-padded print. -/
theorem withFull_eq (bits base : Nat) (hw : Width bits) (hb : 2 ≤ base) (upper : Bool)
    (hs : Supported bits base upper) (m : Mem) (first u : Nat) (hu : u < 2 ^ bits) :
    withFull bits false base upper m first u =
      some (store m first ((numeral base u).map (digitChar upper)), first + (numeral base u).length) := by
  unfold withFull
  simp only [Bool.false_eq_true, if_false]
  split
  · rename_i h; subst h
    rw [jeaMain_eq bits hw m first u hu]
    have : (numeral 10 u).map (digitChar upper) = decText u := by
      unfold decText
      apply List.map_congr_left
      intro d hd
      have := (numeral_isNumeral (b := 10) (by omega) u).digits_lt d hd
      simp [digitChar, this]
    simp [Printed, this, decText]
  · rename_i h10
    have hlen := charsLen_eq bits base u hw hb hu
    have hlt : u < base ^ (numeral base u).length :=
      (numeral_length_le hb _ u (numeral_length_pos _ _)).mp (le_refl _)
    have hnp : numeral base u = padded base (numeral base u).length u := by
      obtain ⟨k, hk⟩ : ∃ k, (numeral base u).length = k + 1 :=
        ⟨(numeral base u).length - 1, by have := numeral_length_pos base u; omega⟩
      rw [hk]
      apply numeral_eq_padded hb k u (by rw [← hk]; exact hlt)
      rcases Nat.eq_zero_or_pos k with h | h
      · left; exact h
      · right
        by_contra hh
        have := (numeral_length_le hb k u h).mpr (by omega)
        omega
    rw [hlen]
    have hgen : genMain bits base upper m (first + (numeral base u).length) u (numeral base u).length =
        some (store m first ((padded base (numeral base u).length u).map (digitChar upper))) := by
      unfold genMain
      split
      · rename_i h128; subst h128
        have := hs rfl
        rcases this with h | h | h | ⟨h, hup⟩
        · exact absurd h h10
        · subst h
          rw [if_pos (by simp)]
          have hg := gen128Pow_eq 1 (by simp) m first u (numeral 2 u).length (by simpa using hlt) hu
          have hcase : ∀ d ∈ padded 2 (numeral 2 u).length u, digitChar upper d = digitChar false d := by
            intro d hd
            have := padded_lt 2 _ u (by omega) d hd
            simp [digitChar, show d < 10 by omega]
          rw [List.map_congr_left hcase]
          simpa using hg
        · subst h
          rw [if_pos (by simp)]
          have hg := gen128Pow_eq 2 (by simp) m first u (numeral 4 u).length (by simpa using hlt) hu
          have hcase : ∀ d ∈ padded 4 (numeral 4 u).length u, digitChar upper d = digitChar false d := by
            intro d hd
            have := padded_lt 4 _ u (by omega) d hd
            simp [digitChar, show d < 10 by omega]
          rw [List.map_congr_left hcase]
          simpa using hg
        · subst h; subst hup
          rw [if_pos (by simp)]
          have hg := gen128Pow_eq 4 (by simp) m first u (numeral 16 u).length (by simpa using hlt) hu
          simpa using hg
      · exact genWord_eq base hb upper m first u _ hlt
    rw [hgen, ← hnp]; rfl

/-- Full statement for one print: the text is exactly the expected one and nothing else is written. -/
theorem printInt_eq (bits : Nat) (hw : Width bits) (signed : Bool) (f : Fmt) (hfull : f.full = false)
    (hb2 : 2 ≤ f.base) (hb36 : f.base ≤ 36) (hs : Supported bits f.base f.upper) (t : Int)
    (ht : InRange bits signed t) (m : Mem) (p : Nat) :
    printInt bits signed f m p t =
      (let txt := signText f.showpos t ++ (if f.showbase then prefixText f.base f.upperShow else []) ++
          (numeral f.base t.natAbs).map (digitChar f.upper)
       some (store m p txt, p + txt.length)) := by
  obtain ⟨hab, hlt⟩ := absBits_eq bits hw signed t ht
  have hsg := signChars_eq signed f.showpos t (by
    intro h; subst h; simp only [InRange, Bool.false_eq_true, if_false] at ht; exact ht.1)
  have hp : (if f.showbase = true ∧ f.base ≠ 10 then basePrefix f.base f.upperShow else []) =
      (if f.showbase then prefixText f.base f.upperShow else []) := by
    rw [basePrefix_eq _ _ hb2 hb36]
    by_cases h10 : f.base = 10
    · cases f.showbase <;> simp [h10, prefixText, ascii]
    · simp [h10]
  unfold printInt
  simp only [hab, hsg, hp, hfull]
  rw [withFull_eq bits f.base hw hb2 f.upper hs _ _ _ hlt]
  rw [store_store_append, store_store_at _ _ _ _ _ (by simp [Nat.add_assoc])]
  simp [Nat.add_assoc]

/-! ## C01 -/

/-- **C01**: printing an unsigned integer of any width writes exactly its canonical decimal numeral at `p`
(and nothing else) and returns the position after it. -/
theorem c01_unsigned_decimal (bits : Nat) (hw : Width bits) (n : Nat) (hn : n < 2 ^ bits) (m : Mem) (p : Nat) :
    ∃ txt, IsNumeralText 10 false txt n ∧
      printInt bits false {} m p n = some (store m p txt, p + txt.length) := by
  refine ⟨decText n, ⟨_, numeral_isNumeral (by omega) n, rfl⟩, ?_⟩
  have := printInt_eq bits hw false {} rfl (by decide) (by decide) (by intro; simp) (n : Int)
    (by simp only [InRange, Bool.false_eq_true, if_false]; exact ⟨by omega, by exact_mod_cast hn⟩) m p
  rw [this]
  have : ¬ ((n : Int) < 0) := by omega
  simp [signText, this, ascii, decText]

example : ∃ txt, IsNumeralText 10 false txt 340282366920938463463374607431768211455 ∧
    printInt 128 false {} (fun _ => 0) 1000 (340282366920938463463374607431768211455 : Nat)
      = some (store (fun _ => 0) 1000 txt, 1000 + txt.length) :=
  c01_unsigned_decimal 128 (by simp [Width]) _ (by norm_num) _ _

/-! ## C02 -/

/-- **C02**: printing a signed integer writes `-` exactly when it is negative (`+` otherwise when `showpos`)
followed by the canonical decimal numeral of its magnitude; includes the minimum value. -/
theorem c02_signed_decimal (bits : Nat) (hw : Width bits) (showpos : Bool) (t : Int)
    (hlo : -(2 ^ (bits - 1) : Int) ≤ t) (hhi : t < (2 ^ (bits - 1) : Int)) (m : Mem) (p : Nat) :
    ∃ txt, IsNumeralText 10 false txt t.natAbs ∧
      let all := (if t < 0 then [45] else if showpos then [43] else []) ++ txt
      printInt bits true { showpos := showpos } m p t = some (store m p all, p + all.length) := by
  refine ⟨decText t.natAbs, ⟨_, numeral_isNumeral (by omega) _, rfl⟩, ?_⟩
  have := printInt_eq bits hw true { showpos := showpos } rfl (by simp) (by simp) (by intro; simp) t
    (by simp only [InRange, if_true]; exact ⟨hlo, hhi⟩) m p
  rw [this]
  by_cases h : t < 0 <;> cases showpos <;> simp [signText, h, ascii, decText]

example : ∃ txt, IsNumeralText 10 false txt (9223372036854775808 : Nat) ∧
    printInt 64 true {} (fun _ => 0) 0 (-9223372036854775808)
      = some (store (fun _ => 0) 0 (45 :: txt), txt.length + 1) := by
  obtain ⟨txt, h, e⟩ := c02_signed_decimal 64 (by simp [Width]) false (-9223372036854775808)
    (by norm_num) (by norm_num) (fun _ => 0) 0
  exact ⟨txt, h, by simpa using e⟩

/-! ## C03 -/

/-- **C03** (partial: for 128-bit types only bases 2, 4, 10 and lower case 16; the `full` variant is
`c03_full_partial`): printing in any base 2..36 writes the expected text. -/
theorem c03_base_partial (bits : Nat) (hw : Width bits) (signed : Bool) (f : Fmt) (hfull : f.full = false)
    (hb2 : 2 ≤ f.base) (hb36 : f.base ≤ 36) (hs : Supported bits f.base f.upper) (t : Int)
    (ht : InRange bits signed t) (m : Mem) (p : Nat) :
    ∃ txt, IsIntText f.base f.upper f.showbase f.upperShow f.showpos txt t ∧
      printInt bits signed f m p t = some (store m p txt, p + txt.length) :=
  ⟨_, ⟨_, ⟨_, numeral_isNumeral hb2 _, rfl⟩, rfl⟩, printInt_eq bits hw signed f hfull hb2 hb36 hs t ht m p⟩

example : ∃ txt, IsIntText 36 true true false false txt (-123456789) ∧
    printInt 64 true { base := 36, upper := true, showbase := true } (fun _ => 0) 10 (-123456789) =
      some (store (fun _ => 0) 10 txt, 10 + txt.length) :=
  c03_base_partial 64 (by simp [Width]) true { base := 36, upper := true, showbase := true } rfl (by simp)
    (by simp) (by intro h; simp at h) (-123456789) (by simp [InRange]) _ _

/-- **C03, zero-padded printing** (partial: same restriction on 128-bit types, base 10 excluded there): exactly
as many digits as the largest value of the unsigned type has, zero padded. -/
theorem c03_full_partial (bits : Nat) (hw : Width bits) (f : Fmt) (hfull : f.full = true)
    (hb2 : 2 ≤ f.base) (hb36 : f.base ≤ 36) (hs : bits = 128 → f.base = 2 ∨ f.base = 4 ∨
      (f.base = 16 ∧ f.upper = false)) (signed : Bool) (t : Int)
    (ht : InRange bits signed t) (m : Mem) (p : Nat) :
    ∃ ds, (∀ d ∈ ds, d < f.base) ∧ digitsValue f.base ds = t.natAbs ∧
      (∀ maxds, IsNumeral f.base maxds (2 ^ bits - 1) → ds.length = maxds.length) ∧
      (let txt := signText f.showpos t ++ (if f.showbase then prefixText f.base f.upperShow else []) ++
          ds.map (digitChar f.upper)
       printInt bits signed f m p t = some (store m p txt, p + txt.length)) := by
  obtain ⟨hab, hlt⟩ := absBits_eq bits hw signed t ht
  have hsg := signChars_eq signed f.showpos t (by
    intro h; subst h; simp only [InRange, Bool.false_eq_true, if_false] at ht; exact ht.1)
  have hmi : maxIntSize bits false f.base = (numeral f.base (2 ^ bits - 1)).length := by
    rw [maxIntSize_eq hb2 bits false (intMax_ne bits false hw)]; rfl
  have hlen : t.natAbs < f.base ^ maxIntSize bits false f.base := by
    have := (numeral_length_le hb2 _ (2 ^ bits - 1) (numeral_length_pos f.base (2 ^ bits - 1))).mp (le_refl _)
    rw [hmi]; omega
  refine ⟨padded f.base (maxIntSize bits false f.base) t.natAbs, padded_lt _ _ _ (by omega),
    padded_value _ _ _ hlen, ?_, ?_⟩
  · intro maxds h
    rw [isNumeral_unique hb2 h, padded_length, hmi]
  · have hp : (if f.showbase = true ∧ f.base ≠ 10 then basePrefix f.base f.upperShow else []) =
        (if f.showbase then prefixText f.base f.upperShow else []) := by
      rw [basePrefix_eq _ _ hb2 hb36]
      by_cases h10 : f.base = 10
      · cases f.showbase <;> simp [h10, prefixText, ascii]
      · simp [h10]
    unfold printInt
    simp only [hab, hsg, hp, withFull, hfull, if_true]
    have hgen : ∀ m first, genMain bits f.base f.upper m (first + maxIntSize bits false f.base) t.natAbs
        (maxIntSize bits false f.base) =
        some (store m first ((padded f.base (maxIntSize bits false f.base) t.natAbs).map
          (digitChar f.upper))) := by
      intro m first
      unfold genMain
      split
      · rename_i h128
        have hcase : ∀ k, (k = 1 ∨ k = 2 ∨ k = 4) → f.base = 2 ^ k → (k = 4 → f.upper = false) →
            gen128Pow f.base m (first + maxIntSize bits false f.base) t.natAbs (maxIntSize bits false f.base)
              = some (store m first ((padded f.base (maxIntSize bits false f.base) t.natAbs).map
                (digitChar f.upper))) := by
          intro k hk hbk hup
          have hg := gen128Pow_eq k hk m first t.natAbs (maxIntSize bits false f.base)
            (by rw [← hbk]; exact hlen) (by rw [← h128]; exact hlt)
          rw [← hbk] at hg
          rw [hg]
          apply congrArg; apply congrArg
          apply List.map_congr_left
          intro d hd
          have hdl := padded_lt f.base _ _ (by omega) d hd
          rcases hk with h | h | h
          · subst h; simp [digitChar, show d < 10 by omega]
          · subst h; simp [digitChar, show d < 10 by omega]
          · rw [hup h]
        rcases hs h128 with h | h | ⟨h, hup⟩
        · rw [if_pos (by simp [h])]; exact hcase 1 (by simp) (by simpa using h) (by omega)
        · rw [if_pos (by simp [h])]; exact hcase 2 (by simp) (by simpa using h) (by omega)
        · rw [if_pos (by simp [h])]; exact hcase 4 (by simp) (by simpa using h) (fun _ => hup)
      · exact genWord_eq _ hb2 _ _ _ _ _ hlen
    rw [hgen, store_store_append, store_store_at _ _ _ _ _ (by simp [Nat.add_assoc])]
    simp [Nat.add_assoc]

/-- `bool` prints as `0`/`1` with the same sign and prefix rules. -/
theorem c03_bool (f : Fmt) (hb2 : 2 ≤ f.base) (hb36 : f.base ≤ 36) (t : Bool) (m : Mem) (p : Nat) :
    let txt := (if f.showpos then [43] else []) ++ (if f.showbase then prefixText f.base f.upperShow else []) ++
      [if t then 49 else 48]
    printBool f m p t = (store m p txt, p + txt.length) := by
  have hp : (if f.showbase = true ∧ f.base ≠ 10 then basePrefix f.base f.upperShow else []) =
      (if f.showbase then prefixText f.base f.upperShow else []) := by
    rw [basePrefix_eq _ _ hb2 hb36]
    by_cases h10 : f.base = 10
    · cases f.showbase <;> simp [h10, prefixText, ascii]
    · simp [h10]
  simp only [printBool, hp]
  rw [store_store_append, store_store_at _ _ _ _ _ (by simp [Nat.add_assoc])]
  simp [Nat.add_assoc]

/-- **C03 is false for 128-bit octal**: `oct(uint128 10^21)` prints `001` followed by 21 zeros (the code divides
by powers of ten whatever the base). -/
theorem c03_u128_oct_violated :
    ∃ n : Nat, n < 2 ^ 128 ∧ ∀ m p, ¬ ∃ txt, IsIntText 8 false false false false txt (n : Int) ∧
      printInt 128 false { base := 8 } m p n = some (store m p txt, p + txt.length) := by
  refine ⟨1000000000000000000000, by norm_num, ?_⟩
  rintro m p ⟨txt, ⟨body, hb, rfl⟩, heq⟩
  have hnat : ((1000000000000000000000 : Nat) : Int).natAbs = 1000000000000000000000 := by norm_num
  rw [hnat, isNumeralText_iff (by omega)] at hb
  have hnum : numeral 8 1000000000000000000000 = padded 8 24 1000000000000000000000 :=
    numeral_eq_padded (by omega) 23 _ (by norm_num) (Or.inr (by norm_num))
  have m64 : maxIntSize 64 false 8 = 22 := by
    rw [maxIntSize_eq (by omega) _ _ (by decide)]
    exact numeral_length_eq (by omega) 22 _ (by omega) (by norm_num [intMax]) (Or.inr (by norm_num [intMax]))
  have m128 : maxIntSize 128 false 8 = 43 := by
    rw [maxIntSize_eq (by omega) _ _ (by decide)]
    exact numeral_length_eq (by omega) 43 _ (by omega) (by norm_num [intMax]) (Or.inr (by norm_num [intMax]))
  have hlen : charsLen 128 8 1000000000000000000000 = 24 := by
    rw [charsLen_eq 128 8 _ (by simp [Width]) (by omega) (by norm_num), hnum]; simp
  have hab : absBits 128 ((1000000000000000000000 : Nat) : Int) = 1000000000000000000000 := by decide
  have hpos : ¬ (((1000000000000000000000 : Nat) : Int) < 0) := by norm_num
  simp only [printInt, hab, signChars, signText, withFull, hlen, genMain, gen128Other, m64, m128, hpos] at heq
  norm_num at heq
  rw [show p + 24 - 21 = p + 3 by omega] at heq
  rw [genWord_eq 8 (by omega) false m p 1 3 (by norm_num)] at heq
  simp only [Option.bind_some] at heq
  rw [show p + 24 = p + 3 + 21 by omega, genWord_eq 8 (by omega) false _ (p + 3) 0 21 (by norm_num)] at heq
  rw [store_store_at _ _ _ _ _ (by simp)] at heq
  simp only [Option.bind_some, Option.some.injEq, Prod.mk.injEq] at heq
  have h0 := congrFun heq.1 p
  rw [hb, hnum, padded_add 8 (by omega) 1 23] at h0
  simp [store_apply, padded, digitChar, ascii] at h0

/-- **C03 is false for 128-bit upper case hexadecimal**: `hexupper(uint128 10)` prints `a`. -/
theorem c03_u128_hexupper_violated :
    ∃ n : Nat, n < 2 ^ 128 ∧ ∀ m p, ¬ ∃ txt, IsIntText 16 true false false false txt (n : Int) ∧
      printInt 128 false { base := 16, upper := true } m p n = some (store m p txt, p + txt.length) := by
  refine ⟨10, by norm_num, ?_⟩
  rintro m p ⟨txt, ⟨body, hb, rfl⟩, heq⟩
  have hnat : ((10 : Nat) : Int).natAbs = 10 := by norm_num
  rw [hnat, isNumeralText_iff (by omega)] at hb
  have hnum : numeral 16 10 = [10] := numeral_small (by omega)
  have hlen : charsLen 128 16 10 = 1 := by
    rw [charsLen_eq 128 16 _ (by simp [Width]) (by omega) (by norm_num), hnum]; simp
  have hab : absBits 128 (10 : Int) = 10 := by decide
  have hg : gen128Pow 16 m (p + 1) 10 1 = some (store m p [97]) := by
    have := gen128Pow_eq 4 (by simp) m p 10 1 (by norm_num) (by norm_num)
    simpa [padded, digitChar] using this
  have hpr : printInt 128 false { base := 16, upper := true } m p ((10 : Nat) : Int) =
      some (store m p [97], p + 1) := by
    simp [printInt, hab, signChars, withFull, hlen, genMain, hg]
  rw [hpr] at heq
  simp only [Option.some.injEq, Prod.mk.injEq] at heq
  have h0 := congrFun heq.1 p
  rw [hb, hnum] at h0
  simp [store_apply, digitChar, signText, ascii] at h0

/-! ## C04 -/

theorem signText_length (showpos : Bool) (t : Int) : (signText showpos t).length ≤ 1 := by
  unfold signText ascii; split <;> [decide; (split <;> decide)]

theorem prefixText_length (base : Nat) (u : Bool) (h2 : 2 ≤ base) (h36 : base ≤ 36) :
    (prefixText base u).length = prefixSize base := by
  rw [← basePrefix_eq base u h2 h36]
  interval_cases base <;> cases u <;> rfl

/-- Number of digits of the magnitude is covered by the size computed from the maximum of the type. -/
theorem digits_le_max (bits : Nat) (hw : Width bits) (signed : Bool) (base : Nat) (hb : 2 ≤ base) (t : Int)
    (ht : InRange bits signed t)
    (hmin : signed = true → (∀ k, base ^ k ≠ 2 ^ (bits - 1)) ∨ t ≠ -(2 ^ (bits - 1) : Int)) :
    (numeral base t.natAbs).length ≤ maxIntSize bits signed base := by
  rw [maxIntSize_eq hb bits signed (intMax_ne bits signed hw)]
  by_cases hle : t.natAbs ≤ intMax bits signed
  · exact numeral_length_mono hb hle
  · -- only the minimum value of a signed type
    have hs : signed = true := by
      by_contra h
      have : signed = false := by simpa using h
      subst this
      have := (absBits_eq bits hw false t ht).2
      simp only [intMax, Bool.false_eq_true, if_false] at hle
      omega
    subst hs
    have hM : intMax bits true + 1 = 2 ^ (bits - 1) := by
      rcases hw with h | h | h | h | h <;> subst h <;> norm_num [intMax]
    have heq : t.natAbs = 2 ^ (bits - 1) ∧ t = -(2 ^ (bits - 1) : Int) := by
      simp only [InRange, if_true] at ht
      have : (2 ^ (bits - 1) : Int) = ((2 ^ (bits - 1) : Nat) : Int) := by push_cast; rfl
      rw [this] at ht ⊢
      omega
    rcases hmin rfl with h | h
    · have hp := numeral_length_pos base (intMax bits true)
      rw [numeral_length_le hb _ _ hp]
      have h1 := (numeral_length_le hb _ (intMax bits true) hp).mp (le_refl _)
      have h2 := h (numeral base (intMax bits true)).length
      omega
    · exact absurd heq.2 h

/-- **C04** (partial: not for the minimum value of a signed type in a base of which `2^(bits-1)` is a power -
there it is false, see `c04_violated` - and with the restrictions of `Supported`, `full = false`): everything that
is written lies in the announced number of characters. -/
theorem c04_reserved_size_partial (bits : Nat) (hw : Width bits) (signed : Bool) (f : Fmt)
    (hfull : f.full = false) (hb2 : 2 ≤ f.base) (hb36 : f.base ≤ 36) (hs : Supported bits f.base f.upper)
    (t : Int) (ht : InRange bits signed t)
    (hmin : signed = true → (∀ k, f.base ^ k ≠ 2 ^ (bits - 1)) ∨ t ≠ -(2 ^ (bits - 1) : Int))
    (m : Mem) (p : Nat) :
    ∃ m' e, printInt bits signed f m p t = some (m', e) ∧
      p < e ∧ e ≤ p + reserveSize bits signed f.base f.showbase f.showpos ∧
      ∀ a, (a < p ∨ p + reserveSize bits signed f.base f.showbase f.showpos ≤ a) → m' a = m a := by
  have hd := digits_le_max bits hw signed f.base hb2 t ht hmin
  have hlen : (signText f.showpos t ++ (if f.showbase then prefixText f.base f.upperShow else []) ++
      (numeral f.base t.natAbs).map (digitChar f.upper)).length ≤
        reserveSize bits signed f.base f.showbase f.showpos := by
    have h1 := signText_length f.showpos t
    have h2 := prefixText_length f.base f.upperShow hb2 hb36
    have h3 : (signText f.showpos t).length ≤
        (if f.showpos then 1 else 0) + (if !f.showpos && signed then 1 else 0) := by
      cases hsp : f.showpos
      · cases signed
        · have : 0 ≤ t := by simp only [InRange, Bool.false_eq_true, if_false] at ht; exact ht.1
          have : ¬ t < 0 := by omega
          simp [signText, this, ascii]
        · simpa [hsp] using h1
      · simpa [hsp] using h1
    unfold reserveSize
    simp only [List.length_append, List.length_map]
    split <;> simp_all <;> omega
  have hpos := numeral_length_pos f.base t.natAbs
  refine ⟨_, _, printInt_eq bits hw signed f hfull hb2 hb36 hs t ht m p, ?_, ?_, ?_⟩
  · simp only [List.length_append, List.length_map]; omega
  · omega
  · intro a ha
    apply store_outside
    rcases ha with h | h
    · left; exact h
    · right; omega

/-- Decimal printing always fits, for every value including the minimum. -/
theorem c04_decimal (bits : Nat) (hw : Width bits) (signed showpos : Bool) (t : Int)
    (ht : InRange bits signed t) (m : Mem) (p : Nat) :
    ∃ m' e, printInt bits signed { showpos := showpos } m p t = some (m', e) ∧
      p < e ∧ e ≤ p + reserveSize bits signed 10 false showpos ∧
      ∀ a, (a < p ∨ p + reserveSize bits signed 10 false showpos ≤ a) → m' a = m a := by
  refine c04_reserved_size_partial bits hw signed { showpos := showpos } rfl (by simp) (by simp)
    (by intro; simp) t ht ?_ m p
  intro _
  left
  intro k hk
  rcases Nat.eq_zero_or_pos k with h | h
  · subst h
    rcases hw with h | h | h | h | h <;> subst h <;> norm_num at hk
  · obtain ⟨j, rfl⟩ : ∃ j, k = j + 1 := ⟨k - 1, by omega⟩
    have hd : 5 ∣ 2 ^ (bits - 1) := by
      rw [← hk, pow_succ]
      exact Dvd.dvd.mul_left (by norm_num) _
    have : Nat.Coprime 5 (2 ^ (bits - 1)) := Nat.Coprime.pow_right _ (by decide)
    have h1 := Nat.Coprime.eq_one_of_dvd this hd
    omega

example : ∃ m' e, printInt 64 true {} (fun _ => 7) 100 (-9223372036854775808) = some (m', e) ∧
    100 < e ∧ e ≤ 100 + reserveSize 64 true 10 false false ∧
    ∀ a, (a < 100 ∨ 100 + reserveSize 64 true 10 false false ≤ a) → m' a = 7 :=
  c04_decimal 64 (by simp [Width]) true false _ (by simp [InRange]) _ _


/-- **C04 is false**: `bin(INT32_MIN)` stores a character one past the 32 announced ones. -/
theorem c04_violated :
    ∃ t : Int, InRange 32 true t ∧ ∀ p, ∃ m' e,
      printInt 32 true { base := 2 } (fun _ => 0) p t = some (m', e) ∧
      reserveSize 32 true 2 false false = 32 ∧ m' (p + 32) ≠ 0 := by
  refine ⟨-2147483648, by simp [InRange], fun p => ?_⟩
  refine ⟨_, _, printInt_eq 32 (by simp [Width]) true { base := 2 } rfl (by simp) (by simp) (by intro h; simp at h)
    (-2147483648) (by simp [InRange]) _ p, ?_, ?_⟩
  · have : maxIntSize 32 true 2 = 31 := by
      rw [maxIntSize_eq (by omega) _ _ (by decide)]
      exact numeral_length_eq (by omega) 31 _ (by omega) (by norm_num [intMax]) (Or.inr (by norm_num [intMax]))
    simp [reserveSize, this]
  · have hnum : numeral 2 2147483648 = padded 2 32 2147483648 :=
      numeral_eq_padded (by omega) 31 _ (by norm_num) (Or.inr (by norm_num))
    have : ((-2147483648 : Int)).natAbs = 2147483648 := rfl
    rw [this]
    simp [hnum, signText, ascii, store_apply, padded, digitChar]

/-! ## C05 -/

/-- The announced size and the exact-size printer agree with plain printing.  **C05** (partial): plain
(`full = false`) formats; without sign character in base 10, and without a negative value under `showpos`; the
excluded cases are false, see the witnesses below. -/
theorem c05_precise_partial (bits : Nat) (hw : Width bits) (signed : Bool) (f : Fmt)
    (hfull : f.full = false) (hb2 : 2 ≤ f.base) (hb36 : f.base ≤ 36) (hs : Supported bits f.base f.upper)
    (t : Int) (ht : InRange bits signed t) (h10 : f.base = 10 → f.showpos = false ∧ 0 ≤ t)
    (hpos : f.showpos = true → 0 ≤ t) (m : Mem) (p : Nat) :
    ∃ m', printInt bits signed f m p t = some (m', p + preciseSize bits signed f t) ∧
      printIntPrecise bits signed f m p (preciseSize bits signed f t) t = some m' := by
  obtain ⟨hab, hlt⟩ := absBits_eq bits hw signed t ht
  have hsg := signChars_eq signed f.showpos t (by
    intro h; subst h; simp only [InRange, Bool.false_eq_true, if_false] at ht; exact ht.1)
  have hp : (if f.showbase = true ∧ f.base ≠ 10 then basePrefix f.base f.upperShow else []) =
      (if f.showbase then prefixText f.base f.upperShow else []) := by
    rw [basePrefix_eq _ _ hb2 hb36]
    by_cases h10 : f.base = 10
    · cases f.showbase <;> simp [h10, prefixText, ascii]
    · simp [h10]
  have hsl : (signText f.showpos t).length = (if f.showpos then 1 else 0) + (if t < 0 then 1 else 0) := by
    unfold signText ascii
    by_cases h0 : t < 0
    · have : f.showpos = false := by
        by_contra h
        have := hpos (by simpa using h)
        omega
      simp [h0, this]
    · cases f.showpos <;> simp [h0]
  have hpl := prefixText_length f.base f.upperShow hb2 hb36
  have hcl := charsLen_eq bits f.base t.natAbs hw hb2 hlt
  have hps : preciseSize bits signed f t =
      (signText f.showpos t ++ (if f.showbase then prefixText f.base f.upperShow else []) ++
      (numeral f.base t.natAbs).map (digitChar f.upper)).length := by
    simp only [preciseSize, hfull, Bool.false_eq_true, if_false, preciseCache, hab, hcl, List.length_append,
      List.length_map, hsl]
    have hun : signed = false → ¬ t < 0 := by
      intro h; subst h
      simp only [InRange, Bool.false_eq_true, if_false] at ht; omega
    cases hsb : f.showbase <;> cases hsd : signed <;> simp [hpl] <;> first | omega | skip
    all_goals (have := hun hsd; omega)
  have hplain := printInt_eq bits hw signed f hfull hb2 hb36 hs t ht m p
  refine ⟨_, by rw [hplain, hps], ?_⟩
  have hlt' : t.natAbs < f.base ^ (numeral f.base t.natAbs).length :=
    (numeral_length_le hb2 _ _ (numeral_length_pos _ _)).mp (le_refl _)
  unfold printIntPrecise
  simp only [hab, hsg, hp]
  by_cases hb10 : f.base = 10
  · obtain ⟨hsp, h0⟩ := h10 hb10
    have hst : signText f.showpos t = [] := by
      have : ¬ t < 0 := by omega
      simp [signText, hsp, this, ascii]
    have hpt : (if f.showbase = true then prefixText f.base f.upperShow else []) = [] := by
      rw [hb10]; split <;> simp [prefixText, ascii]
    rw [if_pos hb10, hps, hst, hpt]
    have hmap : (numeral f.base t.natAbs).map (digitChar f.upper) = decText t.natAbs := by
      unfold decText
      rw [hb10]
      apply List.map_congr_left
      intro d hd
      have := (numeral_isNumeral (b := 10) (by omega) t.natAbs).digits_lt d hd
      simp [digitChar, this]
    rw [hmap]
    have hl39 := (decText_len_le t.natAbs 39 (by omega)).mpr (lt_of_lt_of_le hlt (by
      rcases hw with h | h | h | h | h <;> subst h <;> norm_num))
    simp only [List.nil_append, List.length_nil, Nat.add_zero, store_nil]
    rw [Nat.mod_eq_of_lt (by omega)]
    exact jeaMainLen_eq bits hw m p t.natAbs hlt
  · rw [if_neg hb10]
    -- both branches write the digits right after the prefix
    have hwf := withFull_eq bits f.base hw hb2 f.upper hs
    have hcharge : ∀ m first, genMain bits f.base f.upper m
        (first + (numeral f.base t.natAbs).length) t.natAbs (numeral f.base t.natAbs).length =
        some (store m first ((numeral f.base t.natAbs).map (digitChar f.upper))) := by
      intro m first
      have := hwf m first t.natAbs hlt
      simp only [withFull, Bool.false_eq_true, if_false, if_neg hb10, hcl] at this
      cases hg : genMain bits f.base f.upper m (first + (numeral f.base t.natAbs).length) t.natAbs
        (numeral f.base t.natAbs).length with
      | none => simp [hg] at this
      | some x => simp [hg] at this; rw [this]
    have e : p + preciseSize bits signed f t =
        p + (signText f.showpos t).length +
          (if f.showbase = true then prefixText f.base f.upperShow else []).length +
          (numeral f.base t.natAbs).length := by
      rw [hps]; simp [Nat.add_assoc]
    split
    · rename_i hcond
      have hst : signText f.showpos t = [] := by
        have h0 : ¬ t < 0 := by
          have : signed = false := by simpa using hcond.1
          subst this
          simp only [InRange, Bool.false_eq_true, if_false] at ht; omega
        have : f.showpos = false := by simpa using hcond.2.2
        simp [signText, this, h0, ascii]
      have hsb : f.showbase = false := by simpa using hcond.2.1
      have hn : preciseSize bits signed f t = (numeral f.base t.natAbs).length := by
        rw [hps, hst, hsb]; simp
      rw [hn, hst, hsb]
      simp only [Bool.false_eq_true, if_false, store_nil, List.nil_append]
      exact hcharge m p
    · rw [e]
      have e2 : p + (signText f.showpos t).length +
          (if f.showbase = true then prefixText f.base f.upperShow else []).length +
          (numeral f.base t.natAbs).length - (p + (signText f.showpos t).length +
          (if f.showbase = true then prefixText f.base f.upperShow else []).length) =
          (numeral f.base t.natAbs).length := by omega
      rw [e2, hcharge]
      rw [store_store_append, store_store_at _ _ _ _ _ (by simp [Nat.add_assoc])]
      simp

example : ∃ m', printInt 64 true { base := 16, showbase := true } (fun _ => 0) 5 (-255)
      = some (m', 5 + preciseSize 64 true { base := 16, showbase := true } (-255)) ∧
    printIntPrecise 64 true { base := 16, showbase := true } (fun _ => 0) 5
      (preciseSize 64 true { base := 16, showbase := true } (-255)) (-255) = some m' :=
  c05_precise_partial 64 (by simp [Width]) true _ rfl (by simp) (by simp) (by intro h; simp at h) _
    (by simp [InRange]) (by simp) (by simp) _ _

/-- **C05 is false for negative decimals**: for `-5` the announced size is 2, plain printing writes `-5`, but the
exact-size printer writes `-05`, i.e. other characters, one of them beyond the announced size. -/
theorem c05_negative_decimal_violated :
    preciseSize 32 true {} (-5) = 2 ∧
    ∀ m p, printInt 32 true {} m p (-5) = some (store m p [45, 53], p + 2) ∧
      printIntPrecise 32 true {} m p 2 (-5) = some (store m p [45, 48, 53]) := by
  refine ⟨by decide, fun m p => ⟨?_, ?_⟩⟩
  · rw [printInt_eq 32 (by simp [Width]) true {} rfl (by simp) (by simp) (by intro; simp) (-5)
      (by simp [InRange]) m p]
    simp [signText, ascii, numeral_small (show 5 < 10 by omega), digitChar]
  · have hab : absBits 32 (-5) = 5 := by decide
    have hc : jeaMainLen 32 (store m p [45]) (p + 1) 5 2 = some (store m p [45, 48, 53]) := by
      have h1 := jeaC_eq 1 (store m p [45]) (p + 1) 5 (by omega) (by omega) (by omega) (by omega)
      rw [store_store_at _ _ _ _ _ (by simp)] at h1
      have h2 : jeaMainLen 32 (store m p [45]) (p + 1) 5 2 = jeaC 1 (store m p [45]) (p + 1) 5 := rfl
      rw [h2, h1]
      simp [padded, digitChar]
    simp [printIntPrecise, hab, signChars, hc]

/-- **C05 is false with `showpos` and a negative value**: the sign is counted twice. -/
theorem c05_showpos_violated :
    preciseSize 32 true { base := 16, showpos := true } (-5) = 3 ∧
    ∀ m p, printInt 32 true { base := 16, showpos := true } m p (-5) = some (store m p [45, 53], p + 2) := by
  refine ⟨by decide, fun m p => ?_⟩
  rw [printInt_eq 32 (by simp [Width]) true { base := 16, showpos := true } rfl (by simp) (by simp)
    (by intro; simp_all) (-5) (by simp [InRange]) m p]
  simp [signText, ascii, numeral_small (show 5 < 16 by omega), digitChar]

/-- **C05 is false for zero-padded printing without prefix**: the announced size is 0, eight characters are
written. -/
theorem c05_full_violated :
    preciseSize 32 false { base := 16, full := true } 255 = 0 ∧
    ∀ m p, ∃ m', printInt 32 false { base := 16, full := true } m p 255 = some (m', p + 8) := by
  refine ⟨by decide, fun m p => ?_⟩
  have m32 : maxIntSize 32 false 16 = 8 := by
    rw [maxIntSize_eq (by omega) _ _ (by decide)]
    exact numeral_length_eq (by omega) 8 _ (by omega) (by norm_num [intMax]) (Or.inr (by norm_num [intMax]))
  have hab : absBits 32 255 = 255 := by decide
  have hg := genWord_eq 16 (by omega) false m p 255 8 (by norm_num)
  refine ⟨store m p ((padded 16 8 255).map (digitChar false)), ?_⟩
  simp [printInt, hab, signChars, withFull, m32, genMain, hg]

end Verif.IntPrint
