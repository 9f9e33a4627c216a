import Verif.Simd.Lemmas
/-!
# C66: the vector type
-/
namespace Verif.Simd
open Verif Verif.Simd.Spec

/-! ## Byte order -/

/-- C66 (partial: the branch `nothing`, in which no builtin is available, is excluded, see `c66_swap_violated`): `swap_endian`
reverses the bytes of every element, for every compiler branch, element size and vector size. -/
theorem c66_swap_endian_partial (var : SwapVariant) (w : Nat) (hw : w = 1 ∨ w = 2 ∨ w = 4 ∨ w = 8) (v : List Nat)
    (hl : v.length = 16 ∨ v.length = 32 ∨ v.length = 64) (hb : ∀ b ∈ v, b < 256)
    (hvar : var ≠ .nothing) (hs : var = .sse2 → v.length = 16) :
    Swapped w v (swapEndian var w v) ∧ elements w (swapEndian var w v) = (elements w v).map (byteSwap w) := by
  suffices h : Swapped w v (swapEndian var w v) from ⟨h, swapped_elements hb h⟩
  unfold swapEndian
  rcases hw with rfl | hw
  · rw [if_pos rfl]; exact swapped_one v
  · rw [if_neg (by omega)]
    obtain ⟨h1, h2, -, h3⟩ := srcTable v.length w hl hw
    cases var with
    | shufflevector => exact shufflevector_swapped h1 fun k hk => ⟨(h3 k hk).1, (h3 k hk).2.1⟩
    | pshufb => exact pshufb_swapped h2 fun k hk => ⟨(h3 k hk).2.2.1, (h3 k hk).2.2.2, (h3 k hk).2.1⟩
    | sse2 =>
      have h16 := hs rfl
      simp only [if_pos h16]
      rw [swapSse2_eq hw h16 hb]
      rw [h16] at h1 h3
      exact shufflevector_swapped (by rw [h16]; exact h1) fun k hk =>
        ⟨(h3 k (by omega)).1, by rw [h16]; exact (h3 k (by omega)).2.1⟩
    | nothing => exact absurd rfl hvar

/-- C66, the same for `generic.h`. -/
theorem c66_swap_endian_generic (var : GenericSwap) (w : Nat) (hw : w = 1 ∨ w = 2 ∨ w = 4 ∨ w = 8) (v : List Nat)
    (hl : v.length = 16 ∨ v.length = 32 ∨ v.length = 64) (hb : ∀ b ∈ v, b < 256) (hs : var = .sse2 → v.length = 16) :
    Swapped w v (swapEndianGeneric var w v) ∧ elements w (swapEndianGeneric var w v) = (elements w v).map (byteSwap w) := by
  suffices h : Swapped w v (swapEndianGeneric var w v) from ⟨h, swapped_elements hb h⟩
  unfold swapEndianGeneric
  rcases hw with rfl | hw
  · rw [if_pos rfl]; exact swapped_one v
  · rw [if_neg (by omega)]
    obtain ⟨h1, h2, h4, h3⟩ := srcTable v.length w hl hw
    cases var with
    | shuffle =>
      simp only [h4]
      exact pshufb_swapped h2 fun k hk => ⟨(h3 k hk).2.2.1, (h3 k hk).2.2.2, (h3 k hk).2.1⟩
    | sse2 =>
      have h16 := hs rfl
      simp only []
      rw [swapSse2_eq hw h16 hb]
      rw [h16] at h1 h3
      exact shufflevector_swapped (by rw [h16]; exact h1) fun k hk =>
        ⟨(h3 k (by omega)).1, by rw [h16]; exact (h3 k (by omega)).2.1⟩
    | loop =>
      refine loop_swapped (by omega) ?_ hb
      rcases hl with h | h | h <;> rcases hw with rfl | rfl | rfl <;> rw [h] <;> decide

example : swapEndian .sse2 4 [1, 2, 3, 4, 5, 6, 7, 8, 9, 10, 11, 12, 253, 254, 255, 0] =
    [4, 3, 2, 1, 8, 7, 6, 5, 12, 11, 10, 9, 0, 255, 254, 253] ∧
    swapEndianGeneric .loop 8 (List.range 16) = [7, 6, 5, 4, 3, 2, 1, 0, 15, 14, 13, 12, 11, 10, 9, 8] := by decide +kernel

/-- C66 violated: where none of the builtins exists (GCC before version 12, not x86) `swap_endian` does nothing. -/
theorem c66_swap_violated :
    swapEndian .nothing 4 (List.range 16) = List.range 16 ∧ ¬ Swapped 4 (List.range 16) (swapEndian .nothing 4 (List.range 16)) := by
  refine ⟨rfl, fun h => ?_⟩
  have := h.2 0 0 (by decide) (by decide)
  simp [swapEndian] at this

/-! ## Compound assignment and element-wise operators -/

/-- C66 (partial: `>>=` with a vector of counts is excluded, see `c66_assign_shr_violated`): a compound assignment stores what the
binary operator returns (for which see `c66_binary`). -/
theorem c66_assign_partial {n : Nat} (signed : Bool) (op : BinOp) (a b : Vec n) (h : op ≠ .shr) :
    assign signed op a b = binary signed op a b := by
  cases op <;> first | rfl | exact absurd rfl h

/-- C66: the binary operators work element by element, and on the elements they are the operators of the element type (modulo `2^n`;
shifts by fewer than `n` places). -/
theorem c66_binary {n : Nat} (signed : Bool) (a b : Vec n) (hl : a.length = b.length) :
    LaneWise (fun x y => BitVec.ofNat n (x.toNat + y.toNat)) a b (binary signed .add a b) ∧
    LaneWise (fun x y => BitVec.ofInt n (x.toNat - y.toNat)) a b (binary signed .sub a b) ∧
    LaneWise (fun x y => BitVec.ofNat n (x.toNat * y.toNat)) a b (binary signed .mul a b) ∧
    LaneWise (divide signed) a b (binary signed .div a b) ∧
    LaneWise (fun x y => BitVec.ofNat n (x.toNat &&& y.toNat)) a b (binary signed .and a b) ∧
    LaneWise (fun x y => BitVec.ofNat n (x.toNat ||| y.toNat)) a b (binary signed .or a b) ∧
    LaneWise (fun x y => BitVec.ofNat n (x.toNat ^^^ y.toNat)) a b (binary signed .xor a b) ∧
    LaneWise (fun x y => BitVec.ofNat n (x.toNat * 2 ^ y.toNat)) a b (binary signed .shl a b) ∧
    LaneWise (fun x y => shiftRight signed x y.toNat) a b (binary signed .shr a b) := by
  have hs : ∀ x y : BitVec n, x.sdiv y = divide true x y := by
    intro x y
    apply BitVec.eq_of_toInt_eq
    rw [BitVec.toInt_sdiv]
    show _ = (BitVec.ofInt n _).toInt
    rw [BitVec.toInt_ofInt]
  refine ⟨laneWise_zipWith (fun x y => ?_) hl, laneWise_zipWith (fun x y => ?_) hl, laneWise_zipWith (fun x y => ?_) hl,
    laneWise_zipWith (fun x y => ?_) hl, laneWise_zipWith (fun x y => ?_) hl, laneWise_zipWith (fun x y => ?_) hl,
    laneWise_zipWith (fun x y => ?_) hl, laneWise_zipWith (fun x y => ?_) hl, laneWise_zipWith (fun x y => ?_) hl⟩
  · show x + y = _
    apply BitVec.eq_of_toNat_eq; simp
  · show x - y = _
    apply BitVec.eq_of_toInt_eq
    rw [BitVec.toInt_sub, BitVec.toInt_ofInt, BitVec.toInt_eq_toNat_bmod, BitVec.toInt_eq_toNat_bmod]
    simp
  · show x * y = _
    apply BitVec.eq_of_toNat_eq; simp
  · cases signed
    · show x.udiv y = BitVec.ofNat n _
      apply BitVec.eq_of_toNat_eq
      rw [BitVec.toNat_ofNat]
      show (x / y).toNat = _
      rw [BitVec.toNat_udiv, Nat.mod_eq_of_lt (lt_of_le_of_lt (Nat.div_le_self _ _) x.isLt)]
    · exact hs x y
  · show x &&& y = _
    apply BitVec.eq_of_toNat_eq
    rw [BitVec.toNat_ofNat, Nat.mod_eq_of_lt (Nat.and_lt_two_pow _ y.isLt), BitVec.toNat_and]
  · show x ||| y = _
    apply BitVec.eq_of_toNat_eq
    rw [BitVec.toNat_ofNat, Nat.mod_eq_of_lt (Nat.or_lt_two_pow x.isLt y.isLt), BitVec.toNat_or]
  · show x ^^^ y = _
    apply BitVec.eq_of_toNat_eq
    rw [BitVec.toNat_ofNat, Nat.mod_eq_of_lt (Nat.xor_lt_two_pow x.isLt y.isLt), BitVec.toNat_xor]
  · show x <<< y.toNat = _
    apply BitVec.eq_of_toNat_eq
    rw [BitVec.toNat_shiftLeft, BitVec.toNat_ofNat, Nat.shiftLeft_eq]
  · cases signed
    · show x >>> y.toNat = BitVec.ofNat n _
      apply BitVec.eq_of_toNat_eq
      rw [BitVec.toNat_ushiftRight, Nat.shiftRight_eq_div_pow]
      rw [BitVec.toNat_ofNat, Nat.mod_eq_of_lt (lt_of_le_of_lt (Nat.div_le_self _ _) x.isLt)]
    · show x.sshiftRight y.toNat = BitVec.ofInt n _
      rw [BitVec.sshiftRight, Int.shiftRight_eq_div_pow]
      norm_cast

/-- C66 violated: `v >>= w` shifts to the left. -/
theorem c66_assign_shr_violated :
    assign false .shr [8#32, 8#32, 8#32, 8#32] [1#32, 1#32, 1#32, 1#32] = [16#32, 16#32, 16#32, 16#32] ∧
    binary false .shr [8#32, 8#32, 8#32, 8#32] [1#32, 1#32, 1#32, 1#32] = [4#32, 4#32, 4#32, 4#32] := by decide

/-! ## Comparisons of `generic_operations.h` -/

/-- C66: `<`, `>`, `==` and `!=` compare element by element in the element's own type, with any set of vector instructions. -/
theorem c66_compare {n : Nat} (hn : 0 < n) (f : Flags) (signed : Bool) (a b : Vec n) (hl : a.length = b.length) :
    LaneWise (fun x y => truth (less signed x y)) a b (vlt f signed a b) ∧
    LaneWise (fun x y => truth (less signed y x)) a b (vgt f signed a b) ∧
    LaneWise (fun x y => truth (decide (x = y))) a b (veq f a b) ∧
    LaneWise (fun x y => truth (decide (x ≠ y))) a b (vne f a b) := by
  rw [vlt_eq hn, vgt_eq hn, veq_eq, vne_eq hn f a b hl]
  refine ⟨laneWise_zipWith (fun x y => ?_) hl, laneWise_zipWith (fun x y => ?_) hl, laneWise_zipWith (fun x y => ?_) hl,
    laneWise_zipWith (fun x y => ?_) hl⟩
  · rw [lt_less]; rfl
  · show lmask (lt signed y x) = _
    rw [lt_less]; rfl
  · show truth (x == y) = _
    congr 1
  · show truth (x != y) = _
    congr 1
    rw [bne, decide_not]; rfl

example : vlt { sse2 := true } false [1#8, 200#8] [200#8, 1#8] = [BitVec.allOnes 8, 0#8] ∧
    vlt { sse2 := true } true [1#8, 200#8] [200#8, 1#8] = [0#8, BitVec.allOnes 8] ∧
    vne {} [1#8, 2#8] [1#8, 3#8] = [0#8, BitVec.allOnes 8] := by decide

/-- When `<=` (`>=`) is computed as `<` (`>`). -/
def LeBroken (n size : Nat) (f : Flags) : Prop :=
  f.x86 = true ∧ n ≤ 32 ∧ size = 16 ∧ f.sse2 = true ∧ ¬ (f.avx512vl = true ∧ f.avx512bw = true)
@[inherit_doc LeBroken]
def GeBroken (n size : Nat) (f : Flags) : Prop :=
  f.x86 = true ∧ n ≤ 32 ∧ (size = 16 ∧ f.sse2 = true ∨ size = 32 ∧ f.avx2 = true) ∧ ¬ (f.avx512vl = true ∧ f.avx512bw = true)

/-- C66 (partial: the configurations in which the code returns `b>a` for `a<=b` are excluded, see `c66_le_violated`): `<=` and `>=`. -/
theorem c66_le_partial {n : Nat} (f : Flags) (signed : Bool) (a b : Vec n) (hl : a.length = b.length) :
    (¬ LeBroken n (bytes a) f → LaneWise (fun x y => truth (lessEq signed x y)) a b (vle f signed a b)) ∧
    (¬ GeBroken n (bytes a) f → LaneWise (fun x y => truth (lessEq signed y x)) a b (vge f signed a b)) := by
  constructor
  · intro h
    have : vle f signed a b = portableCmp (le signed) a b := by
      unfold vle
      repeat' split
      all_goals first
        | rfl
        | exact movmCmp_eq _ _ _
        | (exfalso; apply h; unfold LeBroken; tauto)
    rw [this]
    exact laneWise_zipWith (fun x y => by rw [le_lessEq]; rfl) hl
  · intro h
    have : vge f signed a b = portableCmp (fun x y => le signed y x) a b := by
      unfold vge
      repeat' split
      all_goals first
        | rfl
        | exact movmCmp_eq _ _ _
        | (exfalso; apply h; unfold GeBroken; tauto)
    rw [this]
    exact laneWise_zipWith (fun x y => by show lmask (le signed y x) = _; rw [le_lessEq]; rfl) hl

example : ¬ LeBroken 32 16 { sse2 := true, avx512vl := true, avx512bw := true } ∧ ¬ GeBroken 64 32 { avx2 := true } ∧
    vle {} true [1#32, -1#32] [1#32, -2#32] = [BitVec.allOnes 32, 0#32] := by
  refine ⟨by simp [LeBroken], by simp [GeBroken], by decide⟩

/-- C66 violated: in those configurations the operators are `<` and `>` on every pair of vectors, so `a<=a` is false everywhere. -/
theorem c66_le_violated {n : Nat} (hn : 0 < n) (f : Flags) (signed : Bool) (a b : Vec n) (hl : a.length = b.length) :
    (LeBroken n (bytes a) f → LaneWise (fun x y => truth (less signed x y)) a b (vle f signed a b)) ∧
    (GeBroken n (bytes a) f → LaneWise (fun x y => truth (less signed y x)) a b (vge f signed a b)) ∧
    vle { sse2 := true } true [1#32, 2#32, 3#32, 4#32] [1#32, 2#32, 3#32, 4#32] = [0#32, 0#32, 0#32, 0#32] := by
  have hcomm : ∀ p : BitVec n → BitVec n → Bool, portableCmp p b a = portableCmp (fun x y => p y x) a b := by
    intro p; unfold portableCmp; rw [List.zipWith_comm]
  refine ⟨fun h => ?_, fun h => ?_, by decide⟩
  · obtain ⟨h1, h2, h3, h4, h5⟩ := h
    have : vle f signed a b = portableCmp (lt signed) a b := by
      unfold vle
      rw [if_pos h1, if_pos ⟨h3, h4⟩, if_neg h5, if_pos h2, vgt_eq hn, hcomm]
    rw [this]
    exact laneWise_zipWith (fun x y => by rw [lt_less]; rfl) hl
  · obtain ⟨h1, h2, h3, h5⟩ := h
    have : vge f signed a b = portableCmp (fun x y => lt signed y x) a b := by
      unfold vge
      rw [if_pos h1]
      rcases h3 with h3 | h3
      · rw [if_pos h3, if_neg h5, if_pos h2, vlt_eq hn, hcomm]
      · rw [if_neg (by omega), if_pos h3, if_neg h5, if_pos h2, vlt_eq hn, hcomm]
    rw [this]
    exact laneWise_zipWith (fun x y => by show lmask (lt signed y x) = _; rw [lt_less]; rfl) hl

/-- C66 violated: on ARM `!=` tests whether the elements have a bit in common. -/
theorem c66_ne_neon_violated : vneNeon [1#32, 2#32, 5#32, 0#32] [2#32, 2#32, 5#32, 0#32] =
    [0#32, BitVec.allOnes 32, BitVec.allOnes 32, 0#32] := by decide

/-! ## Arithmetic of `generic_operations.h` -/

/-- C66 (partial: 32-bit elements with vector instructions are excluded, see `c66_mul_violated`): `+`, `-`, `*` element by element. -/
theorem c66_arith_partial {n : Nat} (f : Flags) (signed : Bool) (a b : Vec n) (hl : a.length = b.length) :
    LaneWise (fun x y => BitVec.ofNat n (x.toNat + y.toNat)) a b (vadd a b) ∧
    LaneWise (fun x y => BitVec.ofInt n (x.toNat - y.toNat)) a b (vsub a b) ∧
    (n ≠ 32 ∨ f.x86 = false ∨ (f.sse2 = false ∧ f.avx2 = false ∧ f.avx512bw = false) →
      LaneWise (fun x y => BitVec.ofNat n (x.toNat * y.toNat)) a b (vmul f signed a b)) := by
  obtain ⟨ha, hs, hm, -⟩ := c66_binary signed a b hl
  refine ⟨ha, hs, fun h => ?_⟩
  unfold vmul
  rw [if_neg]
  · exact hm
  · rintro ⟨h1, h2, h3⟩
    rcases h with h | h | ⟨h4, h5, h6⟩
    · exact h h2
    · simp [h] at h1
    · simp [h4, h5, h6] at h3

example : vmul { sse2 := true } true [3#16, -1#16] [100#16, 7#16] = [300#16, -7#16] ∧
    vdiv { sse2 := true } true [7#16, -7#16] [2#16, 2#16] = [3#16, -3#16] ∧
    vshr {} true [7#16, -7#16] 1 = [3#16, -4#16] := by decide

/-- C66 violated: the product of vectors of 32-bit numbers has the high halves of the even products in the odd elements. -/
theorem c66_mul_violated : vmul { sse2 := true } false [2#32, 3#32, 4#32, 5#32] [10#32, 10#32, 10#32, 10#32] =
    [20#32, 0#32, 40#32, 0#32] := by decide

/-- C66 (partial: unsigned elements with vector instructions are excluded, see `c66_div_violated`): `/`, no divisor being 0 and no
quotient overflowing. -/
theorem c66_div_partial {n : Nat} (f : Flags) (signed : Bool) (a b : Vec n) (hl : a.length = b.length)
    (h : signed = true ∨ f.x86 = false ∨ (f.sse2 = false ∧ f.avx2 = false ∧ f.avx512bw = false)) :
    LaneWise (divide signed) a b (vdiv f signed a b) := by
  have hs : ∀ x y : BitVec n, x.sdiv y = divide true x y := by
    intro x y
    apply BitVec.eq_of_toInt_eq
    rw [BitVec.toInt_sdiv]
    show _ = (BitVec.ofInt n _).toInt
    rw [BitVec.toInt_ofInt]
  unfold vdiv
  split
  · rename_i hc
    rcases h with rfl | h | ⟨h4, h5, h6⟩
    · exact laneWise_zipWith hs hl
    · simp [h] at hc
    · simp [h4, h5, h6] at hc
  · refine laneWise_zipWith (fun x y => ?_) hl
    cases signed
    · apply BitVec.eq_of_toNat_eq
      show (x.udiv y).toNat = (BitVec.ofNat n _).toNat
      rw [BitVec.toNat_ofNat]
      show (x / y).toNat = _
      rw [BitVec.toNat_udiv, Nat.mod_eq_of_lt (lt_of_le_of_lt (Nat.div_le_self _ _) x.isLt)]
    · exact hs x y

/-- C66 violated: unsigned elements are divided as signed numbers. -/
theorem c66_div_violated : vdiv { sse2 := true } false [0xFFFFFFFE#32, 8#32, 8#32, 8#32] [2#32, 2#32, 2#32, 2#32] =
    [0xFFFFFFFF#32, 4#32, 4#32, 4#32] ∧ divide false 0xFFFFFFFE#32 2#32 = 0x7FFFFFFF#32 := by decide

/-- C66 (partial: signed elements with vector instructions are excluded, see `c66_shr_violated`): shifts by a number smaller than
the width. -/
theorem c66_shift_partial {n : Nat} (f : Flags) (signed : Bool) (a : Vec n) (k : Nat) (hk : k < n) :
    vshl f a k = a.map (fun x => BitVec.ofNat n (x.toNat * 2 ^ k)) ∧
    (signed = false ∨ ¬ shiftBranch f a → vshr f signed a k = a.map (fun x => shiftRight signed x k)) := by
  have hu : ∀ x : BitVec n, x >>> k = shiftRight false x k := by
    intro x
    apply BitVec.eq_of_toNat_eq
    rw [BitVec.toNat_ushiftRight, Nat.shiftRight_eq_div_pow]
    show _ = (BitVec.ofNat n _).toNat
    rw [BitVec.toNat_ofNat, Nat.mod_eq_of_lt (lt_of_le_of_lt (Nat.div_le_self _ _) x.isLt)]
  have hl : ∀ x : BitVec n, x <<< k = BitVec.ofNat n (x.toNat * 2 ^ k) := by
    intro x
    apply BitVec.eq_of_toNat_eq
    rw [BitVec.toNat_shiftLeft, BitVec.toNat_ofNat, Nat.shiftLeft_eq]
  constructor
  · unfold vshl
    split
    · refine List.map_congr_left fun x _ => ?_
      rw [if_neg (by omega), hl]
    · exact List.map_congr_left fun x _ => hl x
  · intro h
    unfold vshr
    split
    · rename_i hc
      rcases h with rfl | h
      · refine List.map_congr_left fun x _ => ?_
        rw [if_neg (by omega), hu]
      · exact absurd hc h
    · refine List.map_congr_left fun x _ => ?_
      cases signed
      · exact hu x
      · show x.sshiftRight k = BitVec.ofInt n _
        rw [BitVec.sshiftRight, Int.shiftRight_eq_div_pow]
        norm_cast

/-- C66 violated: signed elements are shifted as unsigned numbers. -/
theorem c66_shr_violated : vshr { sse2 := true } true [-8#32, -8#32, 8#32, 8#32] 1 = [0x7FFFFFFC#32, 0x7FFFFFFC#32, 4#32, 4#32] ∧
    shiftRight true (-8#32) 1 = -4#32 := by decide

/-! ## Testing masks -/

/-- C66 (partial: the AVX512BW branch, and the branch looking at the top bits of the bytes if the vector is not a mask, are excluded, see
`c66_is_all_zeros_violated`): `is_all_zeros` is true exactly if every byte is zero. -/
theorem c66_is_all_zeros_partial (var : ZeroVariant) (v : List Nat) (hl : v.length = 16 ∨ v.length = 32 ∨ v.length = 64)
    (hp : var ≠ .ptestm) (hm : var = .movmskb → ∀ b ∈ v, b = 0 ∨ b = 255) :
    isAllZeros var v = true ↔ ∀ b ∈ v, b = 0 := by
  cases var with
  | ptest => simp [isAllZeros]
  | movmskb =>
    have hm := hm rfl
    show (pmovmskb v == 0) = true ↔ _
    rw [beq_iff_eq, pmovmskb_zero]
    refine forall_congr' fun b => forall_congr' fun hb => ?_
    have := hm b hb
    omega
  | maxU32 =>
    show (_ == 0) = true ↔ _
    rw [beq_iff_eq, foldl_max_zero, elements_zero (by omega) (by omega)]
  | ptestm => exact absurd rfl hp
  | words =>
    show isAllZerosRec _ = true ↔ _
    rw [isAllZerosRec_iff, elements_zero (by omega) (by omega)]

example : isAllZeros .words (List.replicate 64 0) = true ∧ isAllZeros .maxU32 (List.replicate 15 0 ++ [1]) = false ∧
    isAllZeros .movmskb (List.replicate 31 0 ++ [255]) = false := by decide +kernel

/-- C66 violated: with AVX512BW (compilers that have `__builtin_ia32_ptestmb512`, or MSVC) `is_all_zeros` returns the opposite for
*every* vector; and with plain SSE2 a vector of ones counts as zero. -/
theorem c66_is_all_zeros_violated :
    (∀ v : List Nat, isAllZeros .ptestm v = true ↔ ¬ ∀ b ∈ v, b = 0) ∧ isAllZeros .movmskb (List.replicate 16 1) = true := by
  refine ⟨fun v => ?_, by decide⟩
  show (vptestmb v != 0) = true ↔ _
  rw [bne_iff_ne, Ne, vptestmb_zero]

/-- C66 (partial: only for one-byte elements, and where the top bits of the bytes can be extracted, see `c66_mask_countr_violated`):
`vector_mask_countr_zero` (`_one`) of a mask is the number of leading elements that are zero (all ones). -/
theorem c66_mask_countr_partial (zero : Bool) (v : List (BitVec 8)) (hv : IsMask v) :
    maskCountr .movmskb zero 1 (toBytes v) = leading (if zero then 0 else BitVec.allOnes 8) v := by
  have hb : toBytes v = v.map BitVec.toNat := by
    unfold toBytes
    induction v with
    | nil => rfl
    | cons x l ih =>
      rw [List.flatMap_cons, ih fun y hy => hv y (List.mem_cons_of_mem _ hy)]
      have : x.toNat < 256 := x.isLt
      simp [leBytes, Nat.mod_eq_of_lt this]
  rw [hb]
  show countr zero _ _ = _
  exact countr_movmskb zero v hv

/-- C66 violated: for elements of two or more bytes the count is halved, the code for other targets divides the
number of bits by twice the width of an element, and on ARM (16 bytes) the result is always 0. -/
theorem c66_mask_countr_violated :
    maskCountr .movmskb true 4 (toBytes [0#32, 0#32, BitVec.allOnes 32, 0#32]) = 1 ∧
    maskCountr .portable true 1 (toBytes ((0#8 : BitVec 8) :: 0#8 :: List.replicate 14 (BitVec.allOnes 8))) = 1 ∧
    (∀ w v, maskCountr .empty true w v = 0) ∧
    leading 0#32 [0#32, 0#32, BitVec.allOnes 32, 0#32] = 2 ∧
    leading 0#8 (0#8 :: 0#8 :: List.replicate 14 (BitVec.allOnes 8)) = 2 := by
  refine ⟨by decide +kernel, by decide +kernel, fun _ _ => rfl, by decide +kernel, by decide +kernel⟩

/-! ## Printing -/

/-- C66: a vector of `n` elements is printed as `(e0,e1,...)` and fits the space reserved, if every element fits its own reserve. -/
theorem c66_print {α : Type} (pr : α → List Nat) (p : Nat) (v : List α) (h0 : v ≠ []) (h : ∀ x ∈ v, (pr x).length ≤ p) :
    printVector pr v = 40 :: (List.intercalate [44] (v.map pr) ++ [41]) ∧
    (printVector pr v).length ≤ printVectorSize p v.length := by
  obtain ⟨x, l, rfl⟩ := List.exists_cons_of_ne_nil h0
  constructor
  · show 40 :: (pr x ++ (l.flatMap fun y => 44 :: pr y) ++ [41]) = _
    rw [intercalate_cons]
  · show (40 :: (pr x ++ (l.flatMap fun y => 44 :: pr y) ++ [41])).length ≤ (1 + p) * (l.length + 1) + 1
    have h1 := h x (List.mem_cons_self ..)
    have h2 := flatMap_comma_length pr p l fun y hy => h y (List.mem_cons_of_mem _ hy)
    simp only [List.length_cons, List.length_append, List.length_nil]
    rw [Nat.mul_add]
    omega

example : printVector (fun x : Nat => [48 + x]) [1, 2, 3, 4] = [40, 49, 44, 50, 44, 51, 44, 52, 41] ∧
    printVectorSize 1 4 = 9 := by decide

end Verif.Simd
