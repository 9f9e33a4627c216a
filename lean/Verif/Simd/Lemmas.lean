import Mathlib.Tactic.IntervalCases
import Mathlib.Tactic.Ring
import Verif.Simd.Spec
import Verif.Simd.Model
/-!
# Lemmas about the vector type
-/
namespace Verif.Simd
open Verif Verif.Simd.Spec

/-! ## Byte order -/

theorem swapped_one (v : List Nat) : Swapped 1 v v := by
  refine ⟨rfl, fun i j hj _ => ?_⟩
  have : j = 0 := by omega
  subst this; rfl

/-- The index an element's byte comes from. -/
def src (w k : Nat) : Nat := k / w * w + (w - 1 - k % w)

theorem src_eq {w i j : Nat} (hj : j < w) : src w (i * w + j) = i * w + (w - 1 - j) := by
  unfold src
  rw [Nat.mul_comm i w, Nat.mul_add_div (by omega), Nat.mul_add_mod, Nat.div_eq_of_lt hj, Nat.mod_eq_of_lt hj, Nat.mul_comm w i]
  simp

theorem swapped_of_src {w : Nat} {v r : List Nat} (hl : r.length = v.length) (h : ∀ k < v.length, r[k]? = v[src w k]?) :
    Swapped w v r := by
  refine ⟨hl, fun i j hj hi => ?_⟩
  rw [h _ (by omega), src_eq hj]

theorem shufflevector_swapped {w : Nat} {v T : List Nat} (hl : T.length = v.length)
    (h : ∀ k < v.length, T[k]? = some (src w k) ∧ src w k < v.length) : Swapped w v (shufflevector v T) := by
  refine swapped_of_src (by simp [shufflevector, hl]) fun k hk => ?_
  obtain ⟨h1, h2⟩ := h k hk
  rw [shufflevector, List.getElem?_map, h1, Option.map_some, List.getD_eq_getElem?_getD, List.getElem?_append_left h2,
    List.getElem?_eq_getElem h2]
  rfl

theorem pshufb_swapped {w : Nat} {v T : List Nat} (hl : T.length = v.length)
    (h : ∀ k < v.length, T.getD k 0 < 128 ∧ k / 16 * 16 + T.getD k 0 % 16 = src w k ∧ src w k < v.length) :
    Swapped w v (pshufb v T) := by
  refine swapped_of_src (by simp [pshufb, hl]) fun k hk => ?_
  obtain ⟨h1, h2, h3⟩ := h k hk
  rw [pshufb, List.getElem?_map, List.getElem?_range (by omega), Option.map_some]
  dsimp only
  rw [if_neg (by omega), h2, List.getD_eq_getElem?_getD, List.getElem?_eq_getElem h3]
  rfl

theorem list16 {v : List Nat} (h : v.length = 16) :
    ∃ a b c d e f g i j k l m n o p q, v = [a, b, c, d, e, f, g, i, j, k, l, m, n, o, p, q] := by
  match v, h with
  | [a, b, c, d, e, f, g, i, j, k, l, m, n, o, p, q], _ => exact ⟨a, b, c, d, e, f, g, i, j, k, l, m, n, o, p, q, rfl⟩

theorem saturate_byte {x : Nat} (h : x < 256) : saturate (x + 256 * 0) = x := by
  unfold saturate
  rw [if_pos (by omega)]; omega

theorem rot_eq {x y : Nat} (hx : x < 256) (hy : y < 256) :
    ((x + 256 * y) >>> 8 ||| ((x + 256 * y) <<< 8 % 2 ^ 16)) = y + 256 * x := by
  have h1 : (x + 256 * y) >>> 8 = y := by rw [Nat.shiftRight_eq_div_pow]; omega
  have h2 : (x + 256 * y) <<< 8 % 2 ^ 16 = x <<< 8 := by
    rw [Nat.shiftLeft_eq, Nat.shiftLeft_eq]; omega
  rw [h1, h2, Nat.or_comm, ← Nat.shiftLeft_add_eq_or_of_lt (by omega : y < 2 ^ 8), Nat.shiftLeft_eq]
  omega

theorem swapSse2_eq {w : Nat} (hw : w = 2 ∨ w = 4 ∨ w = 8) {v : List Nat} (hl : v.length = 16) (hb : ∀ b ∈ v, b < 256) :
    swapSse2 w v = shufflevector v (shuffleTable 16 w) := by
  obtain ⟨a, b, c, d, e, f, g, i, j, k, l, m, n, o, p, q, rfl⟩ := list16 hl
  simp only [List.mem_cons, List.not_mem_nil, or_false, forall_eq_or_imp, forall_eq] at hb
  obtain ⟨ha, hb, hc, hd, he, hf, hg, hi, hj, hk, hl, hm, hn, ho, hp, hq⟩ := hb
  rcases hw with rfl | rfl | rfl
  · show [_, _, _, _, _, _, _, _, _, _, _, _, _, _, _, _] = [b, a, d, c, f, e, i, g, k, j, m, l, o, n, q, p]
    simp only [Nat.mul_zero, List.getD_cons_zero, List.getD_cons_succ]
    rw [rot_eq ha hb, rot_eq hc hd, rot_eq he hf, rot_eq hg hi, rot_eq hj hk, rot_eq hl hm, rot_eq hn ho, rot_eq hp hq]
    simp only [Nat.add_mul_mod_self_left, Nat.add_mul_div_left _ _ (by decide : 0 < 256), Nat.mod_eq_of_lt, Nat.div_eq_of_lt,
      hb, hd, hf, hi, hk, hm, ho, hq, Nat.zero_add]
  · show [saturate (d + 256 * 0), saturate (c + 256 * 0), saturate (b + 256 * 0), saturate (a + 256 * 0),
      saturate (i + 256 * 0), saturate (g + 256 * 0), saturate (f + 256 * 0), saturate (e + 256 * 0),
      saturate (m + 256 * 0), saturate (l + 256 * 0), saturate (k + 256 * 0), saturate (j + 256 * 0),
      saturate (q + 256 * 0), saturate (p + 256 * 0), saturate (o + 256 * 0), saturate (n + 256 * 0)] = _
    rw [saturate_byte ha, saturate_byte hb, saturate_byte hc, saturate_byte hd, saturate_byte he, saturate_byte hf,
      saturate_byte hg, saturate_byte hi, saturate_byte hj, saturate_byte hk, saturate_byte hl, saturate_byte hm,
      saturate_byte hn, saturate_byte ho, saturate_byte hp, saturate_byte hq]
    rfl
  · show [saturate (i + 256 * 0), saturate (g + 256 * 0), saturate (f + 256 * 0), saturate (e + 256 * 0),
      saturate (d + 256 * 0), saturate (c + 256 * 0), saturate (b + 256 * 0), saturate (a + 256 * 0),
      saturate (q + 256 * 0), saturate (p + 256 * 0), saturate (o + 256 * 0), saturate (n + 256 * 0),
      saturate (m + 256 * 0), saturate (l + 256 * 0), saturate (k + 256 * 0), saturate (j + 256 * 0)] = _
    rw [saturate_byte ha, saturate_byte hb, saturate_byte hc, saturate_byte hd, saturate_byte he, saturate_byte hf,
      saturate_byte hg, saturate_byte hi, saturate_byte hj, saturate_byte hk, saturate_byte hl, saturate_byte hm,
      saturate_byte hn, saturate_byte ho, saturate_byte hp, saturate_byte hq]
    rfl

theorem srcTable (n w : Nat) (hn : n = 16 ∨ n = 32 ∨ n = 64) (hw : w = 2 ∨ w = 4 ∨ w = 8) :
    (shuffleTable n w).length = n ∧ (pshufbMask n w).length = n ∧ byteSwapMask w (n / w) = pshufbMask n w ∧
    ∀ k < n, (shuffleTable n w)[k]? = some (src w k) ∧ src w k < n ∧
      (pshufbMask n w).getD k 0 < 128 ∧ k / 16 * 16 + (pshufbMask n w).getD k 0 % 16 = src w k := by
  rcases hn with rfl | rfl | rfl <;> rcases hw with rfl | rfl | rfl <;> decide +kernel

theorem flatMap_range_getElem? {α : Type} {w : Nat} {f : Nat → List α} : ∀ (m : Nat), (∀ i < m, (f i).length = w) →
    ((List.range m).flatMap f).length = m * w ∧
    ∀ i j, i < m → j < w → ((List.range m).flatMap f)[i * w + j]? = (f i)[j]?
  | 0, _ => by simp
  | m + 1, h => by
    obtain ⟨h1, h2⟩ := flatMap_range_getElem? m (fun i hi => h i (by omega))
    rw [List.range_succ, List.flatMap_append]
    refine ⟨by rw [List.length_append, h1]; simp [h m (by omega)]; ring, fun i j hi hj => ?_⟩
    by_cases hm : i < m
    · rw [List.getElem?_append_left, h2 i j hm hj]
      rw [h1]
      calc i * w + j < i * w + w := by omega
        _ = (i + 1) * w := by ring
        _ ≤ m * w := Nat.mul_le_mul_right _ hm
    · have : i = m := by omega
      subst this
      rw [List.getElem?_append_right (by rw [h1]; omega), h1]
      simp

theorem chunk_lt {v : List Nat} (hb : ∀ b ∈ v, b < 256) (o w : Nat) : ∀ b ∈ (v.drop o).take w, b < 256 :=
  fun b h => hb b (List.mem_of_mem_drop (List.mem_of_mem_take h))

theorem swap_chunk {c : List Nat} (hb : ∀ b ∈ c, b < 256) : leBytes c.length (byteSwap c.length (ofLe c)) = c.reverse := by
  rw [leBytes_byteSwap, beBytes, leBytes_ofLe c hb]

theorem chunk_length {v : List Nat} {i w : Nat} (h : i * w + w ≤ v.length) : ((v.drop (i * w)).take w).length = w := by
  rw [List.length_take, List.length_drop]; omega

theorem mul_le_of_lt_div {i n w : Nat} (h : i < n / w) : i * w + w ≤ n := by
  calc i * w + w = (i + 1) * w := by ring
    _ ≤ n / w * w := Nat.mul_le_mul_right _ h
    _ ≤ n := Nat.div_mul_le_self n w

theorem loop_swapped {w : Nat} (hw : 0 < w) {v : List Nat} (hd : w ∣ v.length) (hb : ∀ b ∈ v, b < 256) :
    Swapped w v ((List.range (v.length / w)).flatMap fun i => leBytes w (byteSwap w (ofLe ((v.drop (i * w)).take w)))) := by
  obtain ⟨h1, h2⟩ := flatMap_range_getElem? (w := w) (f := fun i => leBytes w (byteSwap w (ofLe ((v.drop (i * w)).take w))))
    (v.length / w) (fun i _ => by simp)
  refine ⟨by rw [h1, Nat.div_mul_cancel hd], fun i j hj hi => ?_⟩
  have him : i < v.length / w := by
    rw [Nat.lt_div_iff_mul_lt hw]
    obtain ⟨q, hq⟩ := hd
    have : i < q := by
      by_contra hge
      have : w * q ≤ w * i := Nat.mul_le_mul_left _ (by omega)
      rw [Nat.mul_comm w i] at this
      omega
    have : w * (i + 1) ≤ w * q := Nat.mul_le_mul_left _ this
    rw [hq]
    have e : w * (i + 1) = i * w + w := by ring
    omega
  rw [h2 i j him hj]
  have hc := chunk_length hi
  have := swap_chunk (chunk_lt hb (i * w) w)
  rw [hc] at this
  rw [this, List.getElem?_reverse (by omega), hc, List.getElem?_take_of_lt (by omega), List.getElem?_drop]

/-- A swapped vector, element by element: `byte_swap`. -/
theorem swapped_elements {w : Nat} {v r : List Nat} (hb : ∀ b ∈ v, b < 256) (h : Swapped w v r) :
    elements w r = (elements w v).map (byteSwap w) := by
  obtain ⟨h1, h2⟩ := h
  unfold elements
  rw [h1, List.map_map]
  refine List.map_congr_left fun i hi => ?_
  rw [List.mem_range] at hi
  have hi := mul_le_of_lt_div hi
  show ofLe _ = byteSwap w (ofLe _)
  have hc := chunk_length hi
  have hr : (r.drop (i * w)).take w = ((v.drop (i * w)).take w).reverse := by
    apply List.ext_getElem?
    intro j
    by_cases hj : j < w
    · rw [List.getElem?_take_of_lt hj, List.getElem?_drop, h2 i j hj hi, List.getElem?_reverse (by omega), hc,
        List.getElem?_take_of_lt (by omega), List.getElem?_drop]
    · rw [List.getElem?_eq_none (by rw [List.length_take]; omega), List.getElem?_eq_none (by simp; omega)]
  rw [hr, byteSwap_eq, beBytes]
  congr 2
  have := leBytes_ofLe _ (chunk_lt hb (i * w) w)
  rw [hc] at this
  exact this.symm

/-! ## Operators -/

theorem laneWise_zipWith {α β : Type} {f op : α → α → β} (h : ∀ x y, f x y = op x y) {a b : List α} (hl : a.length = b.length) :
    LaneWise op a b (List.zipWith f a b) := by
  refine ⟨by rw [List.length_zipWith]; omega, fun i x y hx hy => ?_⟩
  rw [List.getElem?_zipWith_eq_some.mpr ⟨x, y, hx, hy, rfl⟩, h]

theorem movmCmp_eq {n : Nat} (p : BitVec n → BitVec n → Bool) (a b : Vec n) : movmCmp p a b = portableCmp p a b := by
  unfold movmCmp portableCmp
  rw [List.map_zipWith]

theorem cmpltEpi_eq {n : Nat} (a b : Vec n) : cmpltEpi a b = portableCmp (lt true) a b := by
  unfold cmpltEpi cmpgtEpi portableCmp
  rw [List.zipWith_comm]; rfl

theorem cmpgtEpi_eq {n : Nat} (a b : Vec n) : cmpgtEpi a b = portableCmp (fun x y => lt true y x) a b := rfl

theorem xor_two_pow_lt {m x : Nat} (h : x < 2 ^ m) : x ^^^ 2 ^ m = 2 ^ m + x := by
  have h1 := Nat.two_pow_add_eq_or_of_lt h 1
  rw [Nat.mul_one] at h1
  rw [h1]
  apply Nat.eq_of_testBit_eq
  intro i
  rw [Nat.testBit_xor, Nat.testBit_or, Nat.testBit_two_pow]
  by_cases hi : m = i
  · subst hi
    simp [Nat.testBit_lt_two_pow h]
  · simp [hi]

theorem xor_two_pow_ge {m x : Nat} (h : 2 ^ m ≤ x) (h2 : x < 2 ^ (m + 1)) : x ^^^ 2 ^ m = x - 2 ^ m := by
  have h3 : x - 2 ^ m < 2 ^ m := by rw [Nat.pow_succ] at h2; omega
  have := xor_two_pow_lt h3
  rw [Nat.add_sub_cancel' h] at this
  rw [← this, Nat.xor_assoc, Nat.xor_self, Nat.xor_zero, this]

theorem flip_toInt {m : Nat} (x : BitVec (m + 1)) : (x ^^^ BitVec.twoPow (m + 1) m).toInt = (x.toNat : Int) - 2 ^ m := by
  have hx := x.isLt
  have hp : 2 ^ m < 2 ^ (m + 1) := by rw [Nat.pow_succ]; have := Nat.two_pow_pos m; omega
  have ht : (x ^^^ BitVec.twoPow (m + 1) m).toNat = x.toNat ^^^ 2 ^ m := by
    rw [BitVec.toNat_xor, BitVec.toNat_twoPow, Nat.mod_eq_of_lt hp]
  rw [BitVec.toInt_eq_toNat_cond, ht]
  have he : (2 : Nat) ^ (m + 1) = 2 * 2 ^ m := by rw [Nat.pow_succ]; ring
  have hc : ((2 ^ m : Nat) : Int) = (2 : Int) ^ m := by push_cast; rfl
  have hc2 : ((2 ^ (m + 1) : Nat) : Int) = 2 * (2 : Int) ^ m := by rw [he]; push_cast; rfl
  by_cases h : x.toNat < 2 ^ m
  · rw [xor_two_pow_lt h, if_neg (by omega), hc2]; push_cast; ring
  · rw [xor_two_pow_ge (by omega) hx, if_pos (by omega), Int.ofNat_sub (by omega), hc]

theorem flip_slt {n : Nat} (hn : 0 < n) (x y : BitVec n) :
    BitVec.slt (x ^^^ BitVec.twoPow n (n - 1)) (y ^^^ BitVec.twoPow n (n - 1)) = BitVec.ult x y := by
  obtain ⟨m, rfl⟩ : ∃ m, n = m + 1 := ⟨n - 1, by omega⟩
  rw [Nat.add_sub_cancel, BitVec.slt_eq_decide, BitVec.ult_eq_decide, flip_toInt, flip_toInt]
  congr 1
  apply propext
  constructor <;> intro h <;> omega

theorem cmpltFlip_eq {n : Nat} (hn : 0 < n) (a b : Vec n) : cmpltEpi (flipSign a) (flipSign b) = portableCmp (lt false) a b := by
  rw [cmpltEpi_eq]
  unfold portableCmp flipSign
  rw [List.zipWith_map]
  congr 1
  funext x y
  simp only [lt, if_true, flip_slt hn]
  rfl

theorem cmpgtFlip_eq {n : Nat} (hn : 0 < n) (a b : Vec n) :
    cmpgtEpi (flipSign a) (flipSign b) = portableCmp (fun x y => lt false y x) a b := by
  unfold cmpgtEpi portableCmp flipSign
  rw [List.zipWith_map]
  congr 1
  funext x y
  simp only [lt, flip_slt hn]
  rfl

theorem onHalves_zipWith {n : Nat} (f : BitVec n → BitVec n → BitVec n) (a b : Vec n) :
    onHalves (fun a b => List.zipWith f a b) a b = List.zipWith f a b := by
  unfold onHalves
  dsimp only
  rw [← List.take_zipWith, ← List.drop_zipWith, List.take_append_drop]

theorem onHalves_cmp {n : Nat} {g : Vec n → Vec n → Vec n} {p : BitVec n → BitVec n → Bool} (h : ∀ a b, g a b = portableCmp p a b)
    (a b : Vec n) : onHalves g a b = portableCmp p a b := by
  have : g = portableCmp p := by funext a b; exact h a b
  rw [this]
  exact onHalves_zipWith _ a b

theorem onHalves_flip {n : Nat} {g : Vec n → Vec n → Vec n} {p : BitVec n → BitVec n → Bool}
    (h : ∀ a b, g (flipSign a) (flipSign b) = portableCmp p a b) (a b : Vec n) :
    onHalves g (flipSign a) (flipSign b) = portableCmp p a b := by
  have := onHalves_cmp (g := fun a b => g (flipSign a) (flipSign b)) h a b
  rw [← this]
  unfold onHalves flipSign
  simp only [List.length_map, List.map_take, List.map_drop]

/-- `operator<` on every configuration. -/
theorem vlt_eq {n : Nat} (hn : 0 < n) (f : Flags) (signed : Bool) (a b : Vec n) : vlt f signed a b = portableCmp (lt signed) a b := by
  unfold vlt
  cases signed <;> repeat' split
  all_goals first
    | rfl
    | exact movmCmp_eq _ _ _
    | exact cmpltEpi_eq _ _
    | exact cmpltFlip_eq hn _ _
    | exact onHalves_cmp cmpltEpi_eq _ _
    | exact onHalves_flip (cmpltFlip_eq hn) _ _
    | contradiction

/-- `operator>` on every configuration. -/
theorem vgt_eq {n : Nat} (hn : 0 < n) (f : Flags) (signed : Bool) (a b : Vec n) :
    vgt f signed a b = portableCmp (fun x y => lt signed y x) a b := by
  unfold vgt
  cases signed <;> repeat' split
  all_goals first
    | rfl
    | exact movmCmp_eq _ _ _
    | exact cmpgtEpi_eq _ _
    | exact cmpgtFlip_eq hn _ _
    | exact onHalves_cmp cmpgtEpi_eq _ _
    | exact onHalves_flip (cmpgtFlip_eq hn) _ _
    | contradiction

theorem veq_eq {n : Nat} (f : Flags) (a b : Vec n) : veq f a b = portableCmp (· == ·) a b := by
  unfold veq
  repeat' split
  all_goals first
    | rfl
    | exact movmCmp_eq _ _ _

theorem lmask_zero_eq {n : Nat} (hn : 0 < n) (b : Bool) : lmask (n := n) ((0 : BitVec n) == lmask b) = lmask (!b) := by
  cases b
  · simp [lmask]
  · have : ((0 : BitVec n) == BitVec.allOnes n) = false := by
      rw [beq_eq_false_iff_ne]
      intro h
      have := congrArg BitVec.toNat h
      rw [BitVec.toNat_allOnes] at this
      have h2 : 2 ≤ 2 ^ n := by calc 2 = 2 ^ 1 := rfl
        _ ≤ 2 ^ n := Nat.pow_le_pow_right (by decide) hn
      simp at this; omega
    simp [lmask, this]

theorem vne_eq {n : Nat} (hn : 0 < n) (f : Flags) (a b : Vec n) (hl : a.length = b.length) :
    vne f a b = portableCmp (· != ·) a b := by
  unfold vne
  split
  · rename_i hc
    clear hc
    rw [veq_eq, veq_eq]
    unfold portableCmp
    induction a generalizing b with
    | nil => rfl
    | cons x a ih =>
      cases b with
      | nil => simp at hl
      | cons y b =>
        simp only [List.length_cons, List.replicate_succ, List.zipWith_cons_cons]
        congr 1
        · rw [lmask_zero_eq hn]; rfl
        · exact ih b (by simpa using hl)
  · split
    · exact movmCmp_eq _ _ _
    · rfl

theorem lt_less {n : Nat} (signed : Bool) (x y : BitVec n) : lt signed x y = less signed x y := by
  cases signed <;> simp [lt, less, BitVec.slt_eq_decide, BitVec.ult_eq_decide]

theorem le_lessEq {n : Nat} (signed : Bool) (x y : BitVec n) : le signed x y = lessEq signed x y := by
  cases signed <;> simp [le, lessEq, BitVec.sle_eq_decide, BitVec.ule_eq_decide]

theorem lmask_truth {n : Nat} (b : Bool) : (lmask b : BitVec n) = truth b := rfl


theorem pmovmskb_zero (v : List Nat) : pmovmskb v = 0 ↔ ∀ b ∈ v, b < 128 := by
  induction v with
  | nil => simp [pmovmskb]
  | cons b v ih =>
    rw [pmovmskb, List.forall_mem_cons, ← ih]
    split <;> omega

theorem vptestmb_zero (v : List Nat) : vptestmb v = 0 ↔ ∀ b ∈ v, b = 0 := by
  induction v with
  | nil => simp [vptestmb]
  | cons b v ih =>
    rw [vptestmb, List.forall_mem_cons, ← ih, Nat.and_self]
    by_cases h : b = 0 <;> simp [h]

theorem foldl_max_zero : ∀ (l : List Nat) , l.foldl max 0 = 0 ↔ ∀ x ∈ l, x = 0 := by
  have : ∀ (l : List Nat) (a : Nat), l.foldl max a = 0 ↔ a = 0 ∧ ∀ x ∈ l, x = 0 := by
    intro l
    induction l with
    | nil => simp
    | cons x l ih =>
      intro a
      rw [List.foldl_cons, ih, List.forall_mem_cons, show max a x = 0 ↔ a = 0 ∧ x = 0 by omega, and_assoc]
  intro l
  rw [this]; simp

theorem isAllZerosRec_iff : ∀ l : List Nat, isAllZerosRec l = true ↔ ∀ x ∈ l, x = 0
  | [] => by simp [isAllZerosRec]
  | [x] => by simp [isAllZerosRec]
  | [x, y] => by simp [isAllZerosRec]
  | x :: y :: z :: l => by
    rw [isAllZerosRec, Bool.and_eq_true, isAllZerosRec_iff (y :: z :: l), beq_iff_eq, List.forall_mem_cons]
    all_goals simp

theorem ofLe_zero (v : List Nat) : ofLe v = 0 ↔ ∀ b ∈ v, b = 0 := by
  induction v with
  | nil => simp [ofLe]
  | cons b v ih =>
    rw [List.forall_mem_cons, ← ih]
    simp only [ofLe]
    omega

theorem elements_zero {w : Nat} (hw : 0 < w) {v : List Nat} (hd : v.length % w = 0) :
    (∀ x ∈ elements w v, x = 0) ↔ ∀ b ∈ v, b = 0 := by
  unfold elements
  constructor
  · intro h b hb
    obtain ⟨i, hi, rfl⟩ := List.getElem_of_mem hb
    have hq : i / w < v.length / w := by
      rw [Nat.div_lt_iff_lt_mul hw]
      have := Nat.div_add_mod v.length w
      rw [Nat.mul_comm] at this
      omega
    have := h _ (List.mem_map_of_mem (List.mem_range.2 hq))
    rw [ofLe_zero] at this
    apply this
    have h1 := Nat.div_add_mod i w
    have h2 := Nat.mod_lt i hw
    rw [Nat.mul_comm] at h1
    rw [List.mem_iff_getElem?]
    refine ⟨i % w, ?_⟩
    rw [List.getElem?_take_of_lt h2, List.getElem?_drop, h1, List.getElem?_eq_getElem hi]
  · intro h x hx
    obtain ⟨i, -, rfl⟩ := List.mem_map.1 hx
    rw [ofLe_zero]
    exact fun b hb => h b (List.mem_of_mem_drop (List.mem_of_mem_take hb))

theorem countr_movmskb (zero : Bool) (v : List (BitVec 8)) (hv : IsMask v) :
    countr zero (v.map BitVec.toNat).length (pmovmskb (v.map BitVec.toNat)) = leading (if zero then 0 else BitVec.allOnes 8) v := by
  induction v with
  | nil => rfl
  | cons x l ih =>
    have ih := ih fun y hy => hv y (List.mem_cons_of_mem _ hy)
    rw [List.map_cons, List.length_cons, countr, pmovmskb, leading]
    generalize pmovmskb (l.map BitVec.toNat) = k at ih ⊢
    rcases hv x (List.mem_cons_self ..) with rfl | rfl
    · have e0 : (if 128 ≤ (0 : BitVec 8).toNat then 1 else 0) = 0 := rfl
      have e1 : (0 + 2 * k) % 2 = 0 := by omega
      have e2 : (0 + 2 * k) / 2 = k := by omega
      rw [e0, e1, e2, ih]
      cases zero <;> rfl
    · have e0 : (if 128 ≤ (BitVec.allOnes 8 : BitVec 8).toNat then 1 else 0) = 1 := rfl
      have e1 : (1 + 2 * k) % 2 = 1 := by omega
      have e2 : (1 + 2 * k) / 2 = k := by omega
      rw [e0, e1, e2, ih]
      cases zero <;> rfl

theorem intercalate_cons (x : List Nat) : ∀ (l : List α) (pr : α → List Nat) (a : α),
    pr a ++ (l.flatMap fun y => 44 :: pr y) ++ x = List.intercalate [44] ((a :: l).map pr) ++ x
  | [], pr, a => by simp [List.intercalate]
  | b :: l, pr, a => by
    have := intercalate_cons x l pr b
    rw [List.map_cons, List.map_cons, List.intercalate_cons_cons, ← List.map_cons (f := pr), List.flatMap_cons]
    simp only [List.append_assoc, List.cons_append] at this ⊢
    rw [this]
    simp

theorem flatMap_comma_length {α : Type} (pr : α → List Nat) (p : Nat) : ∀ l : List α, (∀ x ∈ l, (pr x).length ≤ p) →
    (l.flatMap fun y => 44 :: pr y).length ≤ (1 + p) * l.length
  | [], _ => by simp
  | x :: l, h => by
    rw [List.forall_mem_cons] at h
    have := flatMap_comma_length pr p l h.2
    rw [List.flatMap_cons, List.length_append, List.length_cons, List.length_cons, Nat.mul_add]
    omega

end Verif.Simd
