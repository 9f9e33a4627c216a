import Verif.Cplx.Lemmas
import Verif.Float.DistinctHex
/-! # C85: printing complex numbers -/
namespace Verif.Cplx
open Verif Verif.IntPrint Verif.Float

/-- The two formats of the library and their certificates. -/
theorem room_pair (t : Trait) (fmt : Format) (bits : Nat)
    (h : t = tF64 ∨ fmt ≠ .general ∨ (Float.Spec.expField t.mbits t.ebits bits ≠ 173 ∧ Float.Spec.expField t.mbits t.ebits bits ≠ 174)) (fl : Flags) :
    t = tF64 ∨ fmt ≠ .general ∨ (Float.Spec.expField t.mbits t.ebits bits ≠ 173 ∧ Float.Spec.expField t.mbits t.ebits bits ≠ 174) ∨
      (fl.showpos = false ∧ Float.Spec.signBit t.mbits t.ebits bits = false) := by
  rcases h with h | h | h
  · exact Or.inl h
  · exact Or.inr (Or.inl h)
  · exact Or.inr (Or.inr (Or.inl h))

/-- **C85, every complex number.** For every `complex<double>` and every `complex<float>`, every format and every manipulator:
printing is free of undefined behaviour and writes the pair of the texts of the two parts, each of which is what C46 says about
the part (sign, infinities, not-a-numbers, zero, a decimal text of the style within six tenths of a unit in the last
place); the text can be taken apart in one way only, also when the comma is the decimal point.  The announced space suffices,
except possibly for parts of `complex<float>` with exponent field 173 or 174 in the general format. -/
theorem c85_pair (t : Trait) (d : DB) (hp : Pair t d) (sizet64 : Bool) (fmt : Format) (upper comma : Bool) (m : Mem)
    (iter re im : Nat) :
    ∃ txt, printComplex t d sizet64 fmt (decFlags upper comma) m iter re im = some (store m iter txt, iter + txt.length) ∧
      Spec.IsPairText comma
        (Float.Spec.IsDecFloat t.mbits t.ebits (styleOf fmt) false upper upper comma (sizet64 || decide (t.mw = 32))
          (fun x e f => |x - Float.Spec.magnitude t.mbits t.ebits e f| ≤
            (if t.mw = 32 ∧ e ∈ badField32 then 3 / 5 else 1 / 2) * (2 : ℚ) ^ Float.Spec.ulpExp t.mbits t.ebits e) re)
        (Float.Spec.IsDecFloat t.mbits t.ebits (styleOf fmt) false upper upper comma (sizet64 || decide (t.mw = 32))
          (fun x e f => |x - Float.Spec.magnitude t.mbits t.ebits e f| ≤
            (if t.mw = 32 ∧ e ∈ badField32 then 3 / 5 else 1 / 2) * (2 : ℚ) ^ Float.Spec.ulpExp t.mbits t.ebits e) im) txt ∧
      ((t = tF64 ∨ fmt ≠ .general ∨ ∀ x, x = re ∨ x = im →
          Float.Spec.expField t.mbits t.ebits x ≠ 173 ∧ Float.Spec.expField t.mbits t.ebits x ≠ 174) →
        txt.length ≤ complexSize (fltSize t fmt)) := by
  obtain ⟨a, b, h1, h2, h3, h4⟩ := printPair_eq comma (printFlt t d sizet64 fmt (decFlags upper comma))
    (fun bits txt => Float.Spec.IsDecFloat t.mbits t.ebits (styleOf fmt) false upper upper comma
        (sizet64 || decide (t.mw = 32))
        (fun x e f => |x - Float.Spec.magnitude t.mbits t.ebits e f| ≤
          (if t.mw = 32 ∧ e ∈ badField32 then 3 / 5 else 1 / 2) * (2 : ℚ) ^ Float.Spec.ulpExp t.mbits t.ebits e) bits txt ∧
      (t = tF64 ∨ fmt ≠ .general ∨ (Float.Spec.expField t.mbits t.ebits bits ≠ 173 ∧ Float.Spec.expField t.mbits t.ebits bits ≠ 174) ∨
        ((decFlags upper comma).showpos = false ∧ Float.Spec.signBit t.mbits t.ebits bits = false) → txt.length ≤ fltSize t fmt))
    re im (fun m iter bits _ => c46_near t d hp sizet64 fmt (decFlags upper comma) m iter bits (Or.inl rfl))
    (fun bits txt h => not_mem_dec h.1) m iter
  refine ⟨_, h1, ?_, fun hr => pair_length comma a b _ (h2.2 ?_) (h3.2 ?_)⟩
  · obtain ⟨a', b', g1, g2, g3, g4⟩ := h4
    exact ⟨a', b', g1, g2.1, g3.1, g4⟩
  · exact room_pair t fmt re (hr.imp id (Or.imp id fun h => h re (Or.inl rfl))) _
  · exact room_pair t fmt im (hr.imp id (Or.imp id fun h => h im (Or.inr rfl))) _

/-- `(1.5,-0.1)`; with a comma `(1,5.-0,1)`. -/
example : Pair tF64 db64 ∧
    (printComplex tF64 db64 true .general (decFlags false false) (fun _ => 0) 7 0x3FF8000000000000 0xBFB999999999999A).map
      (fun r => load r.1 7 (r.2 - 7)) = some [40, 49, 46, 53, 44, 45, 48, 46, 49, 41] ∧
    (printComplex tF64 db64 true .fixed (decFlags false true) (fun _ => 0) 7 0x3FF8000000000000 0xBFB999999999999A).map
      (fun r => load r.1 7 (r.2 - 7)) = some [40, 49, 44, 53, 46, 45, 48, 44, 49, 41] := by
  refine ⟨Or.inl ⟨rfl, rfl⟩, ?_, ?_⟩ <;> decide +kernel

/-- **C85, reading back `complex<double>` (partial).** As above, and a correctly rounding reader converts each part to the same
number.  Missing: parts that are powers of two in `badPow64`, for which C46 is false. -/
theorem c85_double_partial (sizet64 : Bool) (fmt : Format) (upper comma : Bool) (m : Mem) (iter re im : Nat)
    (hpow : ∀ x, x = re ∨ x = im →
      ¬ (Float.Spec.fracField 52 x = 0 ∧ Float.Spec.expField 52 11 x ∈ badPow64)) :
    ∃ txt, printComplex tF64 db64 sizet64 fmt (decFlags upper comma) m iter re im =
        some (store m iter txt, iter + txt.length) ∧
      Spec.IsPairText comma
        (Float.Spec.IsDecFloat 52 11 (styleOf fmt) false upper upper comma sizet64 (Float.Spec.RoundsTo 52 11) re)
        (Float.Spec.IsDecFloat 52 11 (styleOf fmt) false upper upper comma sizet64 (Float.Spec.RoundsTo 52 11) im) txt ∧
      txt.length ≤ complexSize (fltSize tF64 fmt) := by
  obtain ⟨a, b, h1, h2, h3, h4⟩ := printPair_eq comma (printFlt tF64 db64 sizet64 fmt (decFlags upper comma))
    (fun bits txt => Float.Spec.IsDecFloat 52 11 (styleOf fmt) false upper upper comma sizet64 (Float.Spec.RoundsTo 52 11)
      bits txt ∧ txt.length ≤ fltSize tF64 fmt)
    re im (fun m iter bits hb => c46_double_partial sizet64 fmt (decFlags upper comma) m iter bits (hpow bits hb) (Or.inl rfl))
    (fun bits txt h => not_mem_dec h.1) m iter
  refine ⟨_, h1, ?_, pair_length comma a b _ h2.2 h3.2⟩
  obtain ⟨a', b', g1, g2, g3, g4⟩ := h4
  exact ⟨a', b', g1, g2.1, g3.1, g4⟩

/-- The hypothesis is met by the number `-0.1+1e23i`. -/
example : ∀ x, x = 0xBFB999999999999A ∨ x = 0x44B52D02C7E14AF6 →
    ¬ (Float.Spec.fracField 52 x = 0 ∧ Float.Spec.expField 52 11 x ∈ badPow64) := by
  rintro x (rfl | rfl) <;> decide +kernel

/-- The same number, as it is printed without a manipulator: `(-0.1,1e+23)`. -/
example : (printPlain tF64 db64 true (fun _ => 0) 0 0xBFB999999999999A 0x44B52D02C7E14AF6).map (fun r => load r.1 0 r.2) =
    some [40, 45, 48, 46, 49, 44, 49, 101, 43, 50, 51, 41] := by decide +kernel

/-- **C85, different numbers, different texts (partial).** Two `complex<double>` without not-a-numbers that are printed as the same
text have the same parts.  Missing: parts that are powers of two in `badPow64`. -/
theorem c85_double_distinct_partial (sizet64 : Bool) (fmt : Format) (upper comma : Bool) (m m' : Mem)
    (iter iter' re im re' im' : Nat)
    (hok : ∀ x, x = re ∨ x = im ∨ x = re' ∨ x = im' → x < 2 ^ 64 ∧ ¬ isNaN 52 11 x ∧
      ¬ (Float.Spec.fracField 52 x = 0 ∧ Float.Spec.expField 52 11 x ∈ badPow64)) (r r' : Mem × Nat)
    (hr : printComplex tF64 db64 sizet64 fmt (decFlags upper comma) m iter re im = some r)
    (hr' : printComplex tF64 db64 sizet64 fmt (decFlags upper comma) m' iter' re' im' = some r')
    (h : load r.1 iter (r.2 - iter) = load r'.1 iter' (r'.2 - iter')) : re = re' ∧ im = im' := by
  obtain ⟨t, h1, ⟨a, b, g1, g2, g3, g4⟩, -⟩ := c85_double_partial sizet64 fmt upper comma m iter re im
    (fun x hx => (hok x (by tauto)).2.2)
  obtain ⟨t', h1', ⟨a', b', k1, k2, k3, -⟩, -⟩ := c85_double_partial sizet64 fmt upper comma m' iter' re' im'
    (fun x hx => (hok x (by tauto)).2.2)
  rw [hr, Option.some.injEq] at h1
  rw [hr', Option.some.injEq] at h1'
  have := same_text h1 h1' h
  subst this
  obtain ⟨rfl, rfl⟩ := g4 a' b' k1
  have o1 := hok re (by tauto)
  have o2 := hok im (by tauto)
  have o3 := hok re' (by tauto)
  have o4 := hok im' (by tauto)
  exact ⟨isDecFloat_inj (by norm_num) o1.1 o3.1 o1.2.1 o3.2.1 g2 k2, isDecFloat_inj (by norm_num) o2.1 o4.1 o2.2.1 o4.2.1 g3 k3⟩

/-- The hypothesis is met by the parts `0.3` and `0.30000000000000004`. -/
example : ∀ x, x = 0x3FD3333333333333 ∨ x = 0x3FD3333333333334 → x < 2 ^ 64 ∧ ¬ isNaN 52 11 x ∧
    ¬ (Float.Spec.fracField 52 x = 0 ∧ Float.Spec.expField 52 11 x ∈ badPow64) := by
  unfold isNaN
  rintro x (rfl | rfl) <;> decide +kernel

/-- **C85, shortest.** No part of a `complex<double>` could be printed with fewer digits, nor closer with as many. -/
theorem c85_double_shortest (sizet64 : Bool) (fmt : Format) (upper comma : Bool) (m : Mem) (iter re im : Nat) :
    ∃ txt, printComplex tF64 db64 sizet64 fmt (decFlags upper comma) m iter re im =
        some (store m iter txt, iter + txt.length) ∧
      Spec.IsPairText comma
        (Float.Spec.IsDecFloat 52 11 (styleOf fmt) false upper upper comma sizet64 (Float.Spec.ShortestClosest 52 11) re)
        (Float.Spec.IsDecFloat 52 11 (styleOf fmt) false upper upper comma sizet64 (Float.Spec.ShortestClosest 52 11) im) txt ∧
      txt.length ≤ complexSize (fltSize tF64 fmt) := by
  obtain ⟨a, b, h1, h2, h3, h4⟩ := printPair_eq comma (printFlt tF64 db64 sizet64 fmt (decFlags upper comma))
    (fun bits txt => Float.Spec.IsDecFloat 52 11 (styleOf fmt) false upper upper comma sizet64
      (Float.Spec.ShortestClosest 52 11) bits txt ∧ txt.length ≤ fltSize tF64 fmt)
    re im (fun m iter bits _ => c46_double_shortest sizet64 fmt (decFlags upper comma) m iter bits (Or.inl rfl))
    (fun bits txt h => not_mem_dec h.1) m iter
  refine ⟨_, h1, ?_, pair_length comma a b _ h2.2 h3.2⟩
  obtain ⟨a', b', g1, g2, g3, g4⟩ := h4
  exact ⟨a', b', g1, g2.1, g3.1, g4⟩

/-- `(0.3,0.30000000000000004)`. -/
example : (printComplex tF64 db64 true .fixed (decFlags false false) (fun _ => 0) 0 0x3FD3333333333333 0x3FD3333333333334).map (fun r => load r.1 0 r.2) =
    some [40, 48, 46, 51, 44, 48, 46, 51, 48, 48, 48, 48, 48, 48, 48, 48, 48, 48, 48, 48, 48, 48, 48, 52, 41] := by
  decide +kernel

/-- **C85, reading back `complex<float>` (partial).** Missing: parts with an exponent field in `badField32` and the powers of two
in `badPow32`, for which C46 is false. -/
theorem c85_float_partial (sizet64 : Bool) (fmt : Format) (upper comma : Bool) (m : Mem) (iter re im : Nat)
    (hok : ∀ x, x = re ∨ x = im → Float.Spec.expField 23 8 x ∉ badField32 ∧
      ¬ (Float.Spec.fracField 23 x = 0 ∧ Float.Spec.expField 23 8 x ∈ badPow32)) :
    ∃ txt, printComplex tF32 db32 sizet64 fmt (decFlags upper comma) m iter re im =
        some (store m iter txt, iter + txt.length) ∧
      Spec.IsPairText comma
        (Float.Spec.IsDecFloat 23 8 (styleOf fmt) false upper upper comma true (Float.Spec.RoundsTo 23 8) re)
        (Float.Spec.IsDecFloat 23 8 (styleOf fmt) false upper upper comma true (Float.Spec.RoundsTo 23 8) im) txt := by
  obtain ⟨a, b, h1, -, -, h4⟩ := printPair_eq comma (printFlt tF32 db32 sizet64 fmt (decFlags upper comma))
    (fun bits txt => Float.Spec.IsDecFloat 23 8 (styleOf fmt) false upper upper comma true (Float.Spec.RoundsTo 23 8) bits txt)
    re im (fun m iter bits hb => by
      obtain ⟨txt, g1, g2, -⟩ := c46_float_partial sizet64 fmt (decFlags upper comma) m iter bits (hok bits hb).1
        (hok bits hb).2 (Or.inl rfl)
      exact ⟨txt, g1, g2⟩)
    (fun bits txt h => not_mem_dec h) m iter
  exact ⟨_, h1, h4⟩

/-- The hypothesis is met by `0.1f+0.3f i`. -/
example : ∀ x, x = 0x3DCCCCCD ∨ x = 0x3E99999A → Float.Spec.expField 23 8 x ∉ badField32 ∧
    ¬ (Float.Spec.fracField 23 x = 0 ∧ Float.Spec.expField 23 8 x ∈ badPow32) := by
  rintro x (rfl | rfl) <;> decide +kernel

/-- **C85, the announced space is too small.** A `complex<float>` with both parts the negative number of
`c46_float_space_violated` takes 35 characters in the general format, the one printing uses by default; 33 are announced. -/
theorem c85_space_violated :
    (printPlain tF32 db32 true (fun _ => 0) 0 (2 ^ 31 + 173 * 2 ^ 23 + 4780003) (2 ^ 31 + 173 * 2 ^ 23 + 4780003)).map (·.2) =
      some 35 ∧ complexSize (fltSize tF32 .general) = 33 := by decide +kernel

theorem hexPart (t : Trait) (ht : Supported t) (upper comma : Bool) (m : Mem) (iter bits : Nat) :
    ∃ txt, printHex t (hexFlags upper comma) m iter bits = some (store m iter txt, iter + txt.length) ∧
      Float.Spec.IsHexFloat t.mbits t.ebits true upper false upper (upper && decide (t.mw ≠ 128)) upper comma bits txt ∧
      txt.length ≤ hexSize t true := by
  obtain ⟨txt', -, -, k1, -, k3⟩ := c47_hexfloat_exact t ht (hexFlags upper comma) m iter bits
  have hx := expField_lt t.mbits t.ebits bits
  obtain ⟨txt, h1, h2, -⟩ := printHex_eq t
    (by rcases ht with h | h | h | h <;> subst h
        exacts [hexGood16, hexGood32, hexGood64, hexGood128]) (hexFlags upper comma) m iter bits
    (by
      intro _ _
      generalize Float.Spec.expField t.mbits t.ebits bits = e at *
      rcases ht with h | h | h | h <;> subst h <;> norm_num [tF16, tF32, tF64, tF128, Float.Spec.bias] at hx ⊢ <;>
        split <;> omega)
  refine ⟨txt, h1, ?_, ?_⟩
  · simpa [hexFlags] using h2
  · rw [h1] at k1
    simp only [Option.some.injEq, Prod.mk.injEq] at k1
    have : txt.length = txt'.length := by omega
    rw [this]
    exact k3

/-- **C85, hexadecimal.** `hexfloat` of every complex number over the supported formats, in either case and with either point
(upper case digits in the 128-bit format are lower case, see C47): the texts of the parts have exactly their
values, the text can be taken apart in one way only, and the announced space suffices. -/
theorem c85_hexfloat (t : Trait) (ht : Supported t) (upper comma : Bool) (m : Mem) (iter re im : Nat) :
    ∃ txt upperD, printComplexHex t (hexFlags upper comma) m iter re im = some (store m iter txt, iter + txt.length) ∧
      (t ≠ tF128 → upperD = upper) ∧
      Spec.IsPairText comma
        (Float.Spec.IsHexFloat t.mbits t.ebits true upper false upper upperD upper comma re)
        (Float.Spec.IsHexFloat t.mbits t.ebits true upper false upper upperD upper comma im) txt ∧
      txt.length ≤ complexSize (hexSize t true) := by
  obtain ⟨a, b, h1, h2, h3, h4⟩ := printPair_eq comma (printHex t (hexFlags upper comma))
    (fun bits txt => Float.Spec.IsHexFloat t.mbits t.ebits true upper false upper (upper && decide (t.mw ≠ 128)) upper comma
      bits txt ∧ txt.length ≤ hexSize t true)
    re im (fun m iter bits _ => hexPart t ht upper comma m iter bits) (fun bits txt h => not_mem_hex h.1) m iter
  refine ⟨_, upper && decide (t.mw ≠ 128), h1, ?_, ?_, pair_length comma a b _ h2.2 h3.2⟩
  · intro hn
    rcases ht with h | h | h | h
    · subst h; simp [tF16]
    · subst h; simp [tF32]
    · subst h; simp [tF64]
    · exact absurd h hn
  · obtain ⟨a', b', g1, g2, g3, g4⟩ := h4
    exact ⟨a', b', g1, g2.1, g3.1, g4⟩

/-- `(-0x1.9p+2,0x1.8p+0)`; in upper case with a comma `(-0X1,9P+2.0X1,8P+0)`. -/
example : Supported tF64 ∧
    (printComplexHex tF64 (hexFlags false false) (fun _ => 0) 0 (2 ^ 63 + 1025 * 2 ^ 52 + 9 * 2 ^ 48) 0x3FF8000000000000).map
      (fun r => load r.1 0 r.2) =
      some [40, 45, 48, 120, 49, 46, 57, 112, 43, 50, 44, 48, 120, 49, 46, 56, 112, 43, 48, 41] ∧
    (printComplexHex tF64 (hexFlags true true) (fun _ => 0) 0 (2 ^ 63 + 1025 * 2 ^ 52 + 9 * 2 ^ 48) 0x3FF8000000000000).map
      (fun r => load r.1 0 r.2) =
      some [40, 45, 48, 88, 49, 44, 57, 80, 43, 50, 46, 48, 88, 49, 44, 56, 80, 43, 48, 41] := by
  refine ⟨Or.inr (Or.inr (Or.inl rfl)), ?_, ?_⟩ <;> decide +kernel

/-- **C85, hexadecimal, different numbers, different texts.** Two complex numbers over a supported format, without not-a-numbers, that
are printed as the same text have the same parts. -/
theorem c85_hexfloat_distinct (t : Trait) (ht : Supported t) (upper comma : Bool) (m m' : Mem) (iter iter' re im re' im' : Nat)
    (hok : ∀ x, x = re ∨ x = im ∨ x = re' ∨ x = im' → x < 2 ^ (t.mbits + t.ebits + 1) ∧ ¬ isNaN t.mbits t.ebits x)
    (r r' : Mem × Nat) (hr : printComplexHex t (hexFlags upper comma) m iter re im = some r)
    (hr' : printComplexHex t (hexFlags upper comma) m' iter' re' im' = some r')
    (h : load r.1 iter (r.2 - iter) = load r'.1 iter' (r'.2 - iter')) : re = re' ∧ im = im' := by
  obtain ⟨a, b, h1, g2, g3, c, d, e1, -, -, e4⟩ := printPair_eq comma (printHex t (hexFlags upper comma)) _ re im
    (fun m iter bits _ => hexPart t ht upper comma m iter bits) (fun bits txt h => not_mem_hex h.1) m iter
  obtain ⟨a', b', h1', k2, k3, -⟩ := printPair_eq comma (printHex t (hexFlags upper comma)) _ re' im'
    (fun m iter bits _ => hexPart t ht upper comma m iter bits) (fun bits txt h => not_mem_hex h.1) m' iter'
  rw [show printPair comma (printHex t (hexFlags upper comma)) m iter re im = some r from hr, Option.some.injEq] at h1
  rw [show printPair comma (printHex t (hexFlags upper comma)) m' iter' re' im' = some r' from hr', Option.some.injEq] at h1'
  have hsame := same_text h1 h1' h
  obtain ⟨p1, p2⟩ := e4 a b rfl
  obtain ⟨q1, q2⟩ := e4 a' b' hsame
  have ha : a = a' := p1.trans q1.symm
  have hb : b = b' := p2.trans q2.symm
  subst ha hb
  have o1 := hok re (by tauto)
  have o2 := hok im (by tauto)
  have o3 := hok re' (by tauto)
  have o4 := hok im' (by tauto)
  exact ⟨isHexFloat_inj o1.1 o3.1 o1.2 o3.2 g2.1 k2.1, isHexFloat_inj o2.1 o4.1 o2.2 o4.2 g3.1 k3.1⟩

/-- The hypothesis is met by the parts `1.0`, the next `double`, and the zeros. -/
example : ∀ x, x = 0x3FF0000000000000 ∨ x = 0x3FF0000000000001 ∨ x = 0 ∨ x = 2 ^ 63 →
    x < 2 ^ (tF64.mbits + tF64.ebits + 1) ∧ ¬ isNaN tF64.mbits tF64.ebits x := by
  unfold isNaN
  rintro x (rfl | rfl | rfl | rfl) <;> decide +kernel

end Verif.Cplx
