import Verif.LcFloat.Room32
import Verif.LcFloat.Hex
/-!
# C76: floating point numbers printed with a locale

`print` with a locale of a `float` or `double`, in every format: the text printed without the locale, with the integer part
grouped and the decimal point of the locale.
-/
namespace Verif.LcFloat
open Verif Verif.IntPrint Verif.Float Verif.Lc

/-- The general statement, given that the digits of the decimal format fit into their buffer. -/
theorem lcPrintFlt_eq {t : Trait} {d : DB} (hp : Pair t d) (st : Bool) (fmt : Format) (fl : Flags) (nu : LcNum) (m : Mem)
    (iter bits : Nat)
    (hroom : ∀ k n, Spec.expField t.mbits t.ebits bits < 2 ^ t.ebits - 1 →
      ¬ (Spec.fracField t.mbits bits = 0 ∧ Spec.expField t.mbits t.ebits bits = 0) →
      dragonImpl d st (Spec.fracField t.mbits bits) (Spec.expField t.mbits t.ebits bits) = some (k, n) → n ≤ 5 →
      (decText k).length + n ≤ t.m10digits + t.e10digits + 2) :
    ∃ plain txt, printFlt t d st fmt { fl with comma := false } m iter bits = some (store m iter plain, iter + plain.length) ∧
      lcPrintFlt t d st fmt fl nu m iter bits = some (store m iter txt, iter + txt.length) ∧
      Localised nu.grouping nu.sep nu.dp plain txt ∧ (Roomy fmt nu → txt.length ≤ lcSize t fmt nu) := by
  have hf : Spec.fracField t.mbits bits < 2 ^ t.mbits := Nat.mod_lt _ (Nat.pow_pos (by omega))
  have he := expField_lt t.mbits t.ebits bits
  have h7 : 7 ≤ lcSize t fmt nu := by
    rcases hp with ⟨rfl, -⟩ | ⟨rfl, -⟩ <;> cases fmt <;> simp only [lcSize, fltSize, tF64, tF32] <;> omega
  have hsign : ∀ b : Bool, Spec.signText fl.showpos b = [] ∨ Spec.signText fl.showpos b = [43] ∨
      Spec.signText fl.showpos b = [45] := by
    intro b
    unfold Spec.signText
    split
    · simp
    · split <;> simp
  have hsl : ∀ b : Bool, (Spec.signText fl.showpos b).length ≤ 1 := by
    intro b
    rcases hsign b with h | h | h <;> rw [h] <;> simp
  unfold printFlt lcPrintFlt
  simp only [punned_eq, fpSign_eq]
  generalize Spec.signBit t.mbits t.ebits bits = sb at *
  have hs := hsign sb
  have hsl := hsl sb
  generalize Spec.signText fl.showpos sb = sg at *
  generalize Spec.expField t.mbits t.ebits bits = e at *
  generalize Spec.fracField t.mbits bits = f at *
  by_cases hspec : e = 2 ^ t.ebits - 1
  · simp only [if_pos hspec]
    have hfin : some (fpNan fl.upper (store m iter sg) (iter + sg.length) (decide (f ≠ 0))) =
        some (store m iter (sg ++ Spec.specialText fl.upper (decide (f ≠ 0))),
          iter + (sg ++ Spec.specialText fl.upper (decide (f ≠ 0))).length) := by
      rw [fpNan_eq, store_store_at _ _ _ _ _ rfl, List.length_append, Nat.add_assoc]
    refine ⟨sg ++ Spec.specialText fl.upper (decide (f ≠ 0)), sg ++ Spec.specialText fl.upper (decide (f ≠ 0)), hfin, hfin, ?_, ?_⟩
    · refine loc0_sign ?_ sg hs
      refine ⟨[], Spec.specialText fl.upper (decide (f ≠ 0)), [], (List.nil_append _).symm, by simp, ?_, .nil, ?_⟩
      · intro c hc
        unfold Spec.specialText at hc
        unfold IsDigit
        split at hc <;> split at hc <;> simp at hc <;> omega
      · rw [withPoint_none, List.nil_append]
        intro c hc
        unfold Spec.specialText at hc
        split at hc <;> split at hc <;> simp at hc <;> omega
    · intro _
      have : (Spec.specialText fl.upper (decide (f ≠ 0))).length = 3 := by
        unfold Spec.specialText; split <;> split <;> rfl
      rw [List.length_append, this]; omega
  · simp only [if_neg hspec]
    by_cases hz : f = 0 ∧ e = 0
    · simp only [if_pos hz]
      have key : ∀ tail : List Nat, (∀ c, tail.head? = some c → ¬ IsDigit c) → (∀ c ∈ tail, c ≠ 46) →
          Localised nu.grouping nu.sep nu.dp (sg ++ (48 :: tail)) (sg ++ (48 :: tail)) := by
        intro tail h1 h2
        refine loc0_sign ⟨[48], tail, [48], rfl, ?_, h1, grouped_one _ _ _, ?_⟩ sg hs
        · intro c hc
          rw [List.mem_singleton.mp hc]
          unfold IsDigit
          omega
        · rw [withPoint_none _ _ h2]; rfl
      by_cases hsc : fmt = .scientific
      · subst hsc
        simp only [ne_eq, not_true_eq_false, if_false, dece0, lit]
        refine ⟨sg ++ (48 :: (if fl.upper then [69, 43, 48] else [101, 43, 48])),
          sg ++ (48 :: (if fl.upper then [69, 43, 48] else [101, 43, 48])), ?_, ?_, key _ ?_ ?_, ?_⟩
        · rw [store_store_at _ _ _ _ _ rfl]
          cases fl.upper <;> simp [Nat.add_assoc]
        · rw [store_store_at _ _ _ _ _ rfl]
          cases fl.upper <;> simp [Nat.add_assoc]
        · intro c hc
          unfold IsDigit
          split at hc <;> simp at hc <;> omega
        · intro c hc
          split at hc <;> simp at hc <;> omega
        · intro _
          have : (if fl.upper = true then [69, 43, 48] else [101, 43, 48] : List Nat).length = 3 := by split <;> rfl
          rw [List.length_append, List.length_cons, this]
          omega
      · simp only [ne_eq, hsc, not_false_eq_true, if_true]
        have hfin : some (store (store m iter sg) (iter + sg.length) [48], iter + sg.length + 1) =
            some (store m iter (sg ++ [48]), iter + (sg ++ [48]).length) := by
          rw [store_store_at _ _ _ _ _ rfl]; simp [Nat.add_assoc]
        refine ⟨_, _, hfin, hfin, key [] (by simp) (by simp), ?_⟩
        intro _
        rw [List.length_append, List.length_singleton]
        omega
    · simp only [if_neg hz]
      obtain ⟨k, n, h1, h2, h3, h4', h5, h6, -⟩ := dragonImpl_weak hp st f e hf (by omega) hz
      have h4 := digits_bound hp h4'
      rw [h1]
      simp only [Option.bind_eq_bind, Option.bind_some]
      obtain ⟨plain, txt, g1, g2, g3, g4⟩ := lcDecision_eq t hp.isT fmt nu fl.upperE (store m iter sg) (iter + sg.length) k n
        h4 h5 h6 (fun _ hn => hroom k n (by omega) hz h1 hn)
      have fin : ∀ txt : List Nat, some (store (store m iter sg) (iter + sg.length) txt, iter + sg.length + txt.length) =
          some (store m iter (sg ++ txt), iter + (sg ++ txt).length) := by
        intro txt
        rw [store_store_at _ _ _ _ _ rfl, List.length_append, Nat.add_assoc]
      refine ⟨sg ++ plain, sg ++ txt, g1.trans (fin _), g2.trans (fin _), loc0_sign g3 sg hs, ?_⟩
      intro hr
      have := g4 hr
      rw [List.length_append]
      omega

/-- **C76, `double`.** For every `double`, every format and all flags, every locale: printing is free of undefined behaviour, with
and without the locale, and the text with the locale is the text without, its integer part grouped and its decimal point that of
the locale. -/
theorem c76_double_text (sizet64 : Bool) (fmt : Format) (fl : Flags) (nu : LcNum) (m : Mem) (iter bits : Nat) :
    ∃ plain txt,
      printFlt tF64 db64 sizet64 fmt { fl with comma := false } m iter bits = some (store m iter plain, iter + plain.length) ∧
      lcPrintFlt tF64 db64 sizet64 fmt fl nu m iter bits = some (store m iter txt, iter + txt.length) ∧
      Localised nu.grouping nu.sep nu.dp plain txt := by
  obtain ⟨plain, txt, h1, h2, h3, -⟩ := lcPrintFlt_eq pair64 sizet64 fmt fl nu m iter bits (by
    intro k n he hnz hi hn
    obtain ⟨k', n', g1, -, -, g2, -, -⟩ := dragonImpl_good pair64 sizet64 (Spec.fracField tF64.mbits bits)
      (Spec.expField tF64.mbits tF64.ebits bits) (Nat.mod_lt _ (Nat.pow_pos (by norm_num))) he hnz
      (fieldsOk64 _ _)
    rw [hi] at g1
    obtain ⟨rfl, rfl⟩ : k = k' ∧ n = n' := by simpa using g1
    have := (decText_len_le k 17 (by norm_num)).mpr g2
    change (decText k).length + n ≤ 17 + 3 + 2
    omega)
  exact ⟨plain, txt, h1, h2, h3⟩

/-- **C76, `float`.** The same for every `float`. -/
theorem c76_float_text (sizet64 : Bool) (fmt : Format) (fl : Flags) (nu : LcNum) (m : Mem) (iter bits : Nat) :
    ∃ plain txt,
      printFlt tF32 db32 sizet64 fmt { fl with comma := false } m iter bits = some (store m iter plain, iter + plain.length) ∧
      lcPrintFlt tF32 db32 sizet64 fmt fl nu m iter bits = some (store m iter txt, iter + txt.length) ∧
      Localised nu.grouping nu.sep nu.dp plain txt := by
  obtain ⟨plain, txt, h1, h2, h3, -⟩ := lcPrintFlt_eq pair32 sizet64 fmt fl nu m iter bits (by
    intro k n he hnz hi hn
    exact room32_decimal sizet64 _ _ k n (Nat.mod_lt _ (Nat.pow_pos (by norm_num))) he hnz hi hn)
  exact ⟨plain, txt, h1, h2, h3⟩

/-- **C76, space (partial).** The text of a `double` fits into the announced space in the fixed and the scientific format, and in
the general and the decimal format when the separator has at most one character or the locale has no groups of one digit (and its
decimal point is not empty). Missing: other locales, where it is false (`c76_space_violated`). -/
theorem c76_double_space_partial (sizet64 : Bool) (fmt : Format) (fl : Flags) (nu : LcNum) (m : Mem) (iter bits : Nat)
    (hr : fmt = .fixed ∨ fmt = .scientific ∨ (nu.dp ≠ [] ∧ (nu.sep.length ≤ 1 ∨ 1 ∉ nu.grouping))) :
    ∃ m' e, lcPrintFlt tF64 db64 sizet64 fmt fl nu m iter bits = some (m', e) ∧ iter ≤ e ∧ e ≤ iter + lcSize tF64 fmt nu := by
  obtain ⟨plain, txt, -, h2, -, h4⟩ := lcPrintFlt_eq pair64 sizet64 fmt fl nu m iter bits (by
    intro k n he hnz hi hn
    obtain ⟨k', n', g1, -, -, g2, -, -⟩ := dragonImpl_good pair64 sizet64 (Spec.fracField tF64.mbits bits)
      (Spec.expField tF64.mbits tF64.ebits bits) (Nat.mod_lt _ (Nat.pow_pos (by norm_num))) he hnz
      (fieldsOk64 _ _)
    rw [hi] at g1
    obtain ⟨rfl, rfl⟩ : k = k' ∧ n = n' := by simpa using g1
    have := (decText_len_le k 17 (by norm_num)).mpr g2
    change (decText k).length + n ≤ 17 + 3 + 2
    omega)
  have := h4 hr
  exact ⟨_, _, h2, by omega, by omega⟩

/-- **C76, space, `float` (partial).** The same for `float`. -/
theorem c76_float_space_partial (sizet64 : Bool) (fmt : Format) (fl : Flags) (nu : LcNum) (m : Mem) (iter bits : Nat)
    (hr : fmt = .fixed ∨ fmt = .scientific ∨ (nu.dp ≠ [] ∧ (nu.sep.length ≤ 1 ∨ 1 ∉ nu.grouping))) :
    ∃ m' e, lcPrintFlt tF32 db32 sizet64 fmt fl nu m iter bits = some (m', e) ∧ iter ≤ e ∧ e ≤ iter + lcSize tF32 fmt nu := by
  obtain ⟨plain, txt, -, h2, -, h4⟩ := lcPrintFlt_eq pair32 sizet64 fmt fl nu m iter bits (by
    intro k n he hnz hi hn
    exact room32_decimal sizet64 _ _ k n (Nat.mod_lt _ (Nat.pow_pos (by norm_num))) he hnz hi hn)
  have := h4 hr
  exact ⟨_, _, h2, by omega, by omega⟩

/-- A locale with `,` as decimal point, groups of three separated by a two-character space, for the examples. -/
def exLocale : LcNum := ⟨[44], [194, 160], [3]⟩

/-- `-1234567.25` in the fixed format: `-1 234 567,25`. -/
example : (lcPrintFlt tF64 db64 true .fixed {} exLocale (fun _ => 0) 0 0xC132D68740000000).map (fun r => load r.1 0 r.2) =
    some [45, 49, 194, 160, 50, 51, 52, 194, 160, 53, 54, 55, 44, 50, 53] := by decide +kernel

/-- `1e23` in the general format, `0.1f` in the decimal format, `1.5e300` in the scientific format. -/
example : (lcPrintFlt tF64 db64 true .general {} exLocale (fun _ => 0) 0 0x44B52D02C7E14AF6).map (fun r => load r.1 0 r.2) =
      some [49, 101, 43, 50, 51] ∧
    (lcPrintFlt tF32 db32 true .decimal {} exLocale (fun _ => 0) 0 0x3DCCCCCD).map (fun r => load r.1 0 r.2) = some [48, 44, 49] ∧
    (lcPrintFlt tF64 db64 true .scientific {} exLocale (fun _ => 0) 0 0x7E41EB851EB851EC).map (fun r => load r.1 0 r.2) ≠ none ∧
    exLocale.dp ≠ [] ∧ 1 ∉ exLocale.grouping := by decide +kernel

/-- **The announced space is too small** in the general format for a locale with groups of one digit and a separator of two
characters: `-32701143290808533000000` takes 68 characters, 67 are announced. -/
theorem c76_space_violated :
    (lcPrintFlt tF64 db64 true .general {} ⟨[46], [194, 160], [1]⟩ (fun _ => 0) 0 (0x449bb2ee1c53a17c + 2 ^ 63)).map (fun r => r.2) =
      some 68 ∧ lcSize tF64 .general ⟨[46], [194, 160], [1]⟩ = 67 := by decide +kernel

/-- **C76, hexadecimal format.** For every value of every supported format and every decimal point: printing is free of undefined
behaviour, with and without the locale, the text with the locale is the text without with the decimal point of the locale (the
digits are not grouped), and it fits into the announced space. -/
theorem c76_hexfloat (t : Trait) (ht : Supported t) (f : Flags) (dp : List Nat) (m : Mem) (iter bits : Nat) :
    ∃ plain, printHex t { f with comma := false } m iter bits = some (store m iter plain, iter + plain.length) ∧
      lcPrintHex t f dp m iter bits = some (store m iter (withPoint dp plain), iter + (withPoint dp plain).length) ∧
      (withPoint dp plain).length ≤ lcHexSize t f.showbase dp := by
  have hx := expField_lt t.mbits t.ebits bits
  obtain ⟨v1, v2, v3, v4, -⟩ := hexSize_val
  obtain ⟨pre, post, point, h1, h2, h3, h4⟩ := lcPrintHex_parts t
    (by rcases ht with h | h | h | h <;> subst h
        exacts [hexGood16, hexGood32, hexGood64, hexGood128]) f m iter bits
    (by
      intro _ _
      generalize Spec.expField t.mbits t.ebits bits = e at *
      rcases ht with h | h | h | h <;> subst h <;> norm_num [tF16, tF32, tF64, tF128, Spec.bias] at hx ⊢ <;>
        split <;> omega)
  have hsz : 12 + (t.mbits + 3) / 4 + 1 ≤ hexSize t false := by
    rcases ht with h | h | h | h <;> subst h
    · rw [v1]; decide
    · rw [v2]; decide
    · rw [v3]; decide
    · rw [v4]; decide
  have hsz2 : hexSize t false ≤ hexSize t f.showbase := by
    unfold hexSize reserveSize
    cases f.showbase <;> simp
  refine ⟨pre ++ (if point then [46] else []) ++ post, ?_, ?_, ?_⟩
  · rw [← lcPrintHex_dot, h4]
  · rw [withPoint_parts _ _ _ _ h1 h2, h4]
  · rw [withPoint_parts _ _ _ _ h1 h2]
    unfold lcHexSize
    have : (if point then dp else []).length ≤ dp.length := by split <;> simp
    simp only [List.length_append]
    omega

/-- `-6.25` with the decimal point `,`: `-0x1,9p+2`; the format is supported. -/
example : (lcPrintHex tF64 { showbase := true } [44] (fun _ => 0) 0 (1 * 2 ^ 63 + 1025 * 2 ^ 52 + 9 * 2 ^ 48)).map
    (fun r => load r.1 0 r.2) = some [45, 48, 120, 49, 44, 57, 112, 43, 50] ∧ Supported tF64 :=
  ⟨by decide +kernel, Or.inr (Or.inr (Or.inl rfl))⟩

end Verif.LcFloat
