import Verif.Hash.SimdModel
import Verif.Hash.Sha2Final
/-!
# The vector SHA-2 routines compute the FIPS 180-4 recurrences
-/
namespace Verif.Hash.Simd
open Verif Verif.Hash Verif.Hash.Sha2 Verif.Hash.Fips

theorem rot_or_xor {w : Nat} (x : BitVec w) (k : Nat) : x >>> k ||| x <<< (w - k) = x >>> k ^^^ x <<< (w - k) := by
  ext i hi
  simp only [BitVec.getElem_or, BitVec.getElem_xor, BitVec.getElem_ushiftRight, BitVec.getElem_shiftLeft]
  by_cases h : i < w - k
  · simp [h]
  · have : x.getLsbD (k + i) = false := BitVec.getLsbD_of_ge _ _ (by omega)
    simp [this]

theorem ROTR_xor {w : Nat} (x : BitVec w) (k : Nat) : ROTR k x = x >>> k ^^^ x <<< (w - k) := rot_or_xor x k

theorem rot_add {w : Nat} (x : BitVec w) (k : Nat) : x >>> k + x <<< (w - k) = x >>> k ||| x <<< (w - k) := by
  apply BitVec.add_eq_or_of_and_eq_zero
  ext i hi
  simp only [BitVec.getElem_and, BitVec.getElem_ushiftRight, BitVec.getElem_shiftLeft]
  by_cases h : i < w - k
  · simp [h]
  · have : x.getLsbD (k + i) = false := BitVec.getLsbD_of_ge _ _ (by omega)
    simp [this]

theorem shr_xor {w : Nat} (x y : BitVec w) (k : Nat) : (x ^^^ y) >>> k = x >>> k ^^^ y >>> k := by
  ext i hi
  simp only [BitVec.getElem_xor, BitVec.getElem_ushiftRight, BitVec.getLsbD_xor]

theorem shl_xor {w : Nat} (x y : BitVec w) (k : Nat) : (x ^^^ y) <<< k = x <<< k ^^^ y <<< k := by
  ext i hi
  simp only [BitVec.getElem_xor, BitVec.getElem_shiftLeft, BitVec.getLsbD_xor]
  by_cases h : i < k <;> simp [h]

theorem shr_shr {w : Nat} (x : BitVec w) (j k : Nat) : (x >>> j) >>> k = x >>> (j + k) := (BitVec.shiftRight_add x j k).symm
theorem shl_shl {w : Nat} (x : BitVec w) (j k : Nat) : (x <<< j) <<< k = x <<< (j + k) := (BitVec.shiftLeft_add x j k).symm

theorem s1_256_a (x : BitVec 32) : x >>> 17 ^^^ x <<< 15 ^^^ x >>> 19 ^^^ x <<< 13 ^^^ x >>> 10 = Fips.sha256.s1 x := by
  change _ = ROTR 17 x ^^^ ROTR 19 x ^^^ SHR 10 x
  simp only [ROTR_xor, SHR, Nat.reduceSub]
  generalize x >>> 17 = a, x <<< 15 = b, x >>> 19 = c, x <<< 13 = d, x >>> 10 = e
  ac_rfl
theorem s1_256_b (x : BitVec 32) : (((x >>> 2 ^^^ x) >>> 7) ^^^ x) >>> 10 ^^^ (x <<< 2 ^^^ x) <<< 13 = Fips.sha256.s1 x := by
  change _ = ROTR 17 x ^^^ ROTR 19 x ^^^ SHR 10 x
  simp only [ROTR_xor, SHR, Nat.reduceSub, shr_xor, shl_xor, shr_shr, shl_shl, Nat.reduceAdd]
  generalize x >>> 17 = a, x <<< 15 = b, x >>> 19 = c, x <<< 13 = d, x >>> 10 = e
  ac_rfl
theorem s1_256_c (x : BitVec 32) : (x >>> 17 + x <<< 15) ^^^ (x >>> 19 + x <<< 13) ^^^ x >>> 10 = Fips.sha256.s1 x := by
  change _ = ROTR 17 x ^^^ ROTR 19 x ^^^ SHR 10 x
  have h1 := rot_add x 17; have h2 := rot_add x 19
  simp only [Nat.reduceSub] at h1 h2
  rw [h1, h2]; rfl
theorem s0_256_a (x : BitVec 32) : x >>> 7 ^^^ x <<< 25 ^^^ x >>> 18 ^^^ x <<< 14 ^^^ x >>> 3 = Fips.sha256.s0 x := by
  change _ = ROTR 7 x ^^^ ROTR 18 x ^^^ SHR 3 x
  simp only [ROTR_xor, SHR, Nat.reduceSub]
  generalize x >>> 7 = a, x <<< 25 = b, x >>> 18 = c, x <<< 14 = d, x >>> 3 = e
  ac_rfl
theorem s0_256_b (x : BitVec 32) : (((x >>> 11 ^^^ x) >>> 4) ^^^ x) >>> 3 ^^^ (x <<< 11 ^^^ x) <<< 14 = Fips.sha256.s0 x := by
  change _ = ROTR 7 x ^^^ ROTR 18 x ^^^ SHR 3 x
  simp only [ROTR_xor, SHR, Nat.reduceSub, shr_xor, shl_xor, shr_shr, shl_shl, Nat.reduceAdd]
  generalize x >>> 7 = a, x <<< 25 = b, x >>> 18 = c, x <<< 14 = d, x >>> 3 = e
  ac_rfl
theorem s0_256_c (x : BitVec 32) : (x >>> 7 + x <<< 25) ^^^ (x >>> 18 + x <<< 14) ^^^ x >>> 3 = Fips.sha256.s0 x := by
  change _ = ROTR 7 x ^^^ ROTR 18 x ^^^ SHR 3 x
  have h1 := rot_add x 7; have h2 := rot_add x 18
  simp only [Nat.reduceSub] at h1 h2
  rw [h1, h2]; rfl
theorem s1_512_a (x : BitVec 64) : x >>> 19 ^^^ x <<< 45 ^^^ x >>> 61 ^^^ x <<< 3 ^^^ x >>> 6 = Fips.sha512.s1 x := by
  change _ = ROTR 19 x ^^^ ROTR 61 x ^^^ SHR 6 x
  simp only [ROTR_xor, SHR, Nat.reduceSub]
  generalize x >>> 19 = a, x <<< 45 = b, x >>> 61 = c, x <<< 3 = d, x >>> 6 = e
  ac_rfl
theorem s1_512_b (x : BitVec 64) : (((x >>> 42 ^^^ x) >>> 13) ^^^ x) >>> 6 ^^^ (x <<< 42 ^^^ x) <<< 3 = Fips.sha512.s1 x := by
  change _ = ROTR 19 x ^^^ ROTR 61 x ^^^ SHR 6 x
  simp only [ROTR_xor, SHR, Nat.reduceSub, shr_xor, shl_xor, shr_shr, shl_shl, Nat.reduceAdd]
  generalize x >>> 19 = a, x <<< 45 = b, x >>> 61 = c, x <<< 3 = d, x >>> 6 = e
  ac_rfl
theorem s1_512_c (x : BitVec 64) : (x >>> 19 + x <<< 45) ^^^ (x >>> 61 + x <<< 3) ^^^ x >>> 6 = Fips.sha512.s1 x := by
  change _ = ROTR 19 x ^^^ ROTR 61 x ^^^ SHR 6 x
  have h1 := rot_add x 19; have h2 := rot_add x 61
  simp only [Nat.reduceSub] at h1 h2
  rw [h1, h2]; rfl
theorem s0_512_a (x : BitVec 64) : x >>> 1 ^^^ x <<< 63 ^^^ x >>> 8 ^^^ x <<< 56 ^^^ x >>> 7 = Fips.sha512.s0 x := by
  change _ = ROTR 1 x ^^^ ROTR 8 x ^^^ SHR 7 x
  simp only [ROTR_xor, SHR, Nat.reduceSub]
  generalize x >>> 1 = a, x <<< 63 = b, x >>> 8 = c, x <<< 56 = d, x >>> 7 = e
  ac_rfl
theorem s0_512_b (x : BitVec 64) : (((x >>> 1 ^^^ x) >>> 6) ^^^ x) >>> 1 ^^^ (x <<< 7 ^^^ x) <<< 56 = Fips.sha512.s0 x := by
  change _ = ROTR 1 x ^^^ ROTR 8 x ^^^ SHR 7 x
  simp only [ROTR_xor, SHR, Nat.reduceSub, shr_xor, shl_xor, shr_shr, shl_shl, Nat.reduceAdd]
  generalize x >>> 1 = a, x <<< 63 = b, x >>> 8 = c, x <<< 56 = d, x >>> 7 = e
  ac_rfl
theorem s0_512_c (x : BitVec 64) : (x >>> 1 + x <<< 63) ^^^ (x >>> 8 + x <<< 56) ^^^ x >>> 7 = Fips.sha512.s0 x := by
  change _ = ROTR 1 x ^^^ ROTR 8 x ^^^ SHR 7 x
  have h1 := rot_add x 1; have h2 := rot_add x 8
  simp only [Nat.reduceSub] at h1 h2
  rw [h1, h2]; rfl

/-- `n` consecutive words of the schedule. -/
def wsl {w : Nat} (F : Sha2 w) (M : Nat → BitVec w) (n k : Nat) : Vec w := (List.range k).map fun i => W F M (n + i)
/-- The same words plus the round constants. -/
def wksl {w : Nat} (F : Sha2 w) (M : Nat → BitVec w) (n k : Nat) : Vec w :=
  (List.range k).map fun i => BitVec.ofNat w (F.K.getD (n + i) 0) + W F M (n + i)

theorem getD_map_range {α : Type} (f : Nat → α) (d : α) (n i : Nat) (h : i < n) : ((List.range n).map f).getD i d = f i := by
  simp [List.getD_eq_getElem?_getD, h]

theorem vstore_spec {w : Nat} (a : List (BitVec w)) (off : Nat) (v : Vec w) (h : off + v.length ≤ a.length) :
    (vstore a off v).length = a.length ∧
    ∀ j, (vstore a off v).getD j 0 = if off ≤ j ∧ j < off + v.length then v.getD (j - off) 0 else a.getD j 0 := by
  unfold vstore
  have key : ∀ k, k ≤ v.length →
      ((List.range k).foldl (fun a i => a.set (off + i) (v.getD i 0)) a).length = a.length ∧
      ∀ j, ((List.range k).foldl (fun a i => a.set (off + i) (v.getD i 0)) a).getD j 0 =
        if off ≤ j ∧ j < off + k then v.getD (j - off) 0 else a.getD j 0 := by
    intro k
    induction k with
    | zero => intro _; exact ⟨rfl, fun j => by rw [if_neg (by omega)]; rfl⟩
    | succ k ih =>
      intro hk
      obtain ⟨h1, h2⟩ := ih (by omega)
      rw [List.range_succ, List.foldl_append, List.foldl_cons, List.foldl_nil]
      refine ⟨by rw [List.length_set, h1], fun j => ?_⟩
      rw [getD_set' _ _ _ _ _ (by rw [h1]; omega), h2]
      by_cases e : off + k = j
      · subst e; rw [if_pos rfl, if_pos (by omega)]; congr 1; omega
      · rw [if_neg e]
        by_cases c : off ≤ j ∧ j < off + k
        · rw [if_pos c, if_pos (by omega)]
        · rw [if_neg c, if_neg (by omega)]
  exact key v.length le_rfl

/-- The schedule array holds the first `n` words. -/
def WOk {w : Nat} (F : Sha2 w) (M : Nat → BitVec w) (n : Nat) (a : List (BitVec w)) : Prop := ∀ i, i < n → a.getD i 0 = W F M i

theorem vload_wsl {w : Nat} (F : Sha2 w) (M : Nat → BitVec w) (n : Nat) (a : List (BitVec w)) (h : WOk F M n a) (k off : Nat)
    (hk : off + k ≤ n) : vload k a off = wsl F M off k := by
  unfold vload wsl
  apply List.map_congr_left
  intro i hi
  exact h _ (by have := List.mem_range.mp hi; omega)

theorem WOk_store {w : Nat} (F : Sha2 w) (M : Nat → BitVec w) (n k : Nat) (a : List (BitVec w)) (h : WOk F M n a)
    (hk : n + k ≤ a.length) : WOk F M (n + k) (vstore a n (wsl F M n k)) ∧ (vstore a n (wsl F M n k)).length = a.length := by
  have hl : (wsl F M n k).length = k := by simp [wsl]
  obtain ⟨h1, h2⟩ := vstore_spec a n (wsl F M n k) (by rw [hl]; exact hk)
  refine ⟨fun i hi => ?_, h1⟩
  rw [h2, hl]
  by_cases c : n ≤ i
  · rw [if_pos ⟨c, hi⟩, wsl, getD_map_range _ _ _ _ (by omega)]; congr 1; omega
  · rw [if_neg (by omega)]; exact h i (by omega)

/-- What a `compute_message` with `N` lanes, keeping the last `L` words in `simd`, must do. -/
def CompOk {w : Nat} (F : Sha2 w) (N L : Nat) (compute : Nat → Nat → Nat → VSt w → VSt w) : Prop :=
  ∀ (M : Nat → BitVec w) (n buf off : Nat) (s : VSt w), 16 ≤ n → WOk F M n s.wd → s.simd = wsl F M (n - L) L →
    compute buf off n s = { s with simd := wsl F M (n + N - L) L, wd := vstore s.wd n (wsl F M n N),
                                   wt := wtStore s.wt buf off (wksl F M n N) }

theorem r2 : List.range 2 = [0, 1] := rfl
theorem r4 : List.range 4 = [0, 1, 2, 3] := rfl

theorem W_rec {w : Nat} (F : Sha2 w) (M : Nat → BitVec w) (t : Nat) (h : 16 ≤ t) :
    W F M t = F.s1 (W F M (t - 2)) + W F M (t - 7) + F.s0 (W F M (t - 15)) + W F M (t - 16) := by
  rw [W, if_neg (by omega)]

theorem compute256_ok : CompOk Fips.sha256 4 4 (compute256 Fips.sha256.K) := by
  intro M n buf off s hn hw hs
  have e0 := W_rec Fips.sha256 M n (by omega)
  have e1 := W_rec Fips.sha256 M (n + 1) (by omega)
  have e2 := W_rec Fips.sha256 M (n + 2) (by omega)
  have e3 := W_rec Fips.sha256 M (n + 3) (by omega)
  rw [show n + 2 - 2 = n by omega] at e2
  rw [show n + 3 - 2 = n + 1 by omega] at e3
  have z : Fips.sha256.s1 0 = 0 := by decide
  unfold compute256
  rw [hs, vload_wsl _ M n _ hw 4 (n - 15) (by omega), vload_wsl _ M n _ hw 4 (n - 16) (by omega),
    vload_wsl _ M n _ hw 4 (n - 7) (by omega)]
  have key : ∀ v : Vec 32, v = wsl Fips.sha256 M n 4 → 
      ({ s with simd := v, wd := vstore s.wd n v, wt := wtStore s.wt buf off (vadd (kvec 32 4 Fips.sha256.K n) v) } : VSt 32) =
      { s with simd := wsl Fips.sha256 M (n + 4 - 4) 4, wd := vstore s.wd n (wsl Fips.sha256 M n 4),
               wt := wtStore s.wt buf off (wksl Fips.sha256 M n 4) } := by
    intro v hv
    subst hv
    have : vadd (kvec 32 4 Fips.sha256.K n) (wsl Fips.sha256 M n 4) = wksl Fips.sha256 M n 4 := by
      simp [vadd, kvec, wsl, wksl, r4]
    rw [this, Nat.add_sub_cancel]
  apply key
  simp only [wsl, r4, List.map_cons, List.map_nil, vxor, vshr, vshl, vadd, List.zipWith_cons_cons, List.zipWith_nil_left,
    List.getD_cons_zero, List.getD_cons_succ, s1_256_a, s1_256_b, s0_256_a, z, Nat.add_zero, BitVec.zero_add]
  rw [show n - 4 + 2 = n - 2 by omega, show n - 4 + 3 = n + 1 - 2 by omega,
    show n - 15 + 1 = n + 1 - 15 by omega, show n - 15 + 2 = n + 2 - 15 by omega, show n - 15 + 3 = n + 3 - 15 by omega,
    show n - 16 + 1 = n + 1 - 16 by omega, show n - 16 + 2 = n + 2 - 16 by omega, show n - 16 + 3 = n + 3 - 16 by omega,
    show n - 7 + 1 = n + 1 - 7 by omega, show n - 7 + 2 = n + 2 - 7 by omega, show n - 7 + 3 = n + 3 - 7 by omega]
  have f0 : Fips.sha256.s1 (W Fips.sha256 M (n - 2)) + Fips.sha256.s0 (W Fips.sha256 M (n - 15)) + W Fips.sha256 M (n - 16) +
      W Fips.sha256 M (n - 7) = W Fips.sha256 M n := by rw [e0]; ac_rfl
  have f1 : Fips.sha256.s1 (W Fips.sha256 M (n + 1 - 2)) + Fips.sha256.s0 (W Fips.sha256 M (n + 1 - 15)) +
      W Fips.sha256 M (n + 1 - 16) + W Fips.sha256 M (n + 1 - 7) = W Fips.sha256 M (n + 1) := by rw [e1]; ac_rfl
  rw [f0, f1]
  have z' : ∀ x : BitVec 32, 0 + x = x := BitVec.zero_add
  rw [e2, e3]
  simp only [List.cons.injEq, z', and_true, true_and]
  exact ⟨by ac_rfl, by ac_rfl⟩

theorem compute512x16_ok : CompOk Fips.sha512 2 2 (compute512x16 Fips.sha512.K) := by
  intro M n buf off s hn hw hs
  have e0 := W_rec Fips.sha512 M n (by omega)
  have e1 := W_rec Fips.sha512 M (n + 1) (by omega)
  unfold compute512x16
  rw [hs, vload_wsl _ M n _ hw 2 (n - 15) (by omega), vload_wsl _ M n _ hw 2 (n - 16) (by omega),
    vload_wsl _ M n _ hw 2 (n - 7) (by omega)]
  have key : ∀ v : Vec 64, v = wsl Fips.sha512 M n 2 →
      ({ s with simd := v, wd := vstore s.wd n v, wt := wtStore s.wt buf off (vadd (kvec 64 2 Fips.sha512.K n) v) } : VSt 64) =
      { s with simd := wsl Fips.sha512 M (n + 2 - 2) 2, wd := vstore s.wd n (wsl Fips.sha512 M n 2),
               wt := wtStore s.wt buf off (wksl Fips.sha512 M n 2) } := by
    intro v hv
    subst hv
    have : vadd (kvec 64 2 Fips.sha512.K n) (wsl Fips.sha512 M n 2) = wksl Fips.sha512 M n 2 := by
      simp [vadd, kvec, wsl, wksl, r2]
    rw [this, Nat.add_sub_cancel]
  apply key
  simp only [wsl, r2, List.map_cons, List.map_nil, vxor, vshr, vshl, vadd, List.zipWith_cons_cons, List.zipWith_nil_left,
    s1_512_b, s0_512_b, Nat.add_zero]
  rw [show n - 2 + 1 = n + 1 - 2 by omega, show n - 15 + 1 = n + 1 - 15 by omega, show n - 16 + 1 = n + 1 - 16 by omega,
    show n - 7 + 1 = n + 1 - 7 by omega, e0, e1]
  simp only [List.cons.injEq, and_true]
  exact ⟨by ac_rfl, by ac_rfl⟩

/-- The vector part of the two four-lane SHA-512 schedules. -/
theorem sched512x32 (M : Nat → BitVec 64) (n : Nat) (hn : 16 ≤ n) :
    let s2 := vadd (vadd (wsl Fips.sha512 M (n - 16) 4) ((wsl Fips.sha512 M (n - 15) 4).map Fips.sha512.s0)) (wsl Fips.sha512 M (n - 7) 4)
    let s2low := vadd (shuffle s2 s2 [0, 1]) ((wsl Fips.sha512 M (n - 2) 2).map Fips.sha512.s1)
    s2low = wsl Fips.sha512 M n 2 ∧
    vadd (shuffle s2 s2 [2, 3]) (s2low.map Fips.sha512.s1) = wsl Fips.sha512 M (n + 2) 2 := by
  have e0 := W_rec Fips.sha512 M n (by omega)
  have e1 := W_rec Fips.sha512 M (n + 1) (by omega)
  have e2 := W_rec Fips.sha512 M (n + 2) (by omega)
  have e3 := W_rec Fips.sha512 M (n + 3) (by omega)
  rw [show n + 2 - 2 = n by omega] at e2
  rw [show n + 3 - 2 = n + 1 by omega] at e3
  simp only [wsl, r2, r4, List.map_cons, List.map_nil, vadd, List.zipWith_cons_cons, List.zipWith_nil_left, shuffle,
    List.cons_append, List.nil_append, List.getD_cons_zero, List.getD_cons_succ, Nat.add_zero]
  rw [show n - 2 + 1 = n + 1 - 2 by omega,
    show n - 15 + 1 = n + 1 - 15 by omega, show n - 15 + 2 = n + 2 - 15 by omega, show n - 15 + 3 = n + 3 - 15 by omega,
    show n - 16 + 1 = n + 1 - 16 by omega, show n - 16 + 2 = n + 2 - 16 by omega, show n - 16 + 3 = n + 3 - 16 by omega,
    show n - 7 + 1 = n + 1 - 7 by omega, show n - 7 + 2 = n + 2 - 7 by omega, show n - 7 + 3 = n + 3 - 7 by omega]
  have f0 : W Fips.sha512 M (n - 16) + Fips.sha512.s0 (W Fips.sha512 M (n - 15)) + W Fips.sha512 M (n - 7) +
      Fips.sha512.s1 (W Fips.sha512 M (n - 2)) = W Fips.sha512 M n := by rw [e0]; ac_rfl
  have f1 : W Fips.sha512 M (n + 1 - 16) + Fips.sha512.s0 (W Fips.sha512 M (n + 1 - 15)) + W Fips.sha512 M (n + 1 - 7) +
      Fips.sha512.s1 (W Fips.sha512 M (n + 1 - 2)) = W Fips.sha512 M (n + 1) := by rw [e1]; ac_rfl
  rw [f0, f1]
  refine ⟨rfl, ?_⟩
  rw [show n + 2 + 1 = n + 3 by omega, e2, e3]
  simp only [List.cons.injEq, and_true]
  exact ⟨by ac_rfl, by ac_rfl⟩

theorem vmap_s1_a (v : Vec 64) : vxor (vxor (vxor (vxor (vshr v 19) (vshl v 45)) (vshr v 61)) (vshl v 3)) (vshr v 6) =
    v.map Fips.sha512.s1 := by
  induction v with
  | nil => rfl
  | cons x v ih =>
    simp only [vxor, vshr, vshl, List.map_cons, List.zipWith_cons_cons] at ih ⊢
    rw [ih, s1_512_a]
theorem vmap_s1_b (v : Vec 64) : vxor (vshr (vxor (vshr (vxor (vshr v 42) v) 13) v) 6) (vshl (vxor (vshl v 42) v) 3) =
    v.map Fips.sha512.s1 := by
  induction v with
  | nil => rfl
  | cons x v ih =>
    simp only [vxor, vshr, vshl, List.map_cons, List.zipWith_cons_cons] at ih ⊢
    rw [ih, s1_512_b]
theorem vmap_s0_a (v : Vec 64) : vxor (vxor (vxor (vxor (vshr v 1) (vshl v 63)) (vshr v 8)) (vshl v 56)) (vshr v 7) =
    v.map Fips.sha512.s0 := by
  induction v with
  | nil => rfl
  | cons x v ih =>
    simp only [vxor, vshr, vshl, List.map_cons, List.zipWith_cons_cons] at ih ⊢
    rw [ih, s0_512_a]
theorem vmap_s0_b (v : Vec 64) : vxor (vshr (vxor (vshr (vxor (vshr v 1) v) 6) v) 1) (vshl (vxor (vshl v 7) v) 56) =
    v.map Fips.sha512.s0 := by
  induction v with
  | nil => rfl
  | cons x v ih =>
    simp only [vxor, vshr, vshl, List.map_cons, List.zipWith_cons_cons] at ih ⊢
    rw [ih, s0_512_b]

theorem shuffle_join (M : Nat → BitVec 64) (n : Nat) :
    shuffle (wsl Fips.sha512 M n 2) (wsl Fips.sha512 M (n + 2) 2) [0, 1, 2, 3] = wsl Fips.sha512 M n 4 := rfl

theorem kvec_add (M : Nat → BitVec 64) (n : Nat) :
    vadd (kvec 64 4 Fips.sha512.K n) (wsl Fips.sha512 M n 4) = wksl Fips.sha512 M n 4 := by
  simp [vadd, kvec, wsl, wksl, r4]

theorem compute512x32_ok : CompOk Fips.sha512 4 2 (compute512x32 Fips.sha512.K) := by
  intro M n buf off s hn hw hs
  obtain ⟨h1, h2⟩ := sched512x32 M n hn
  unfold compute512x32
  rw [hs, vload_wsl _ M n _ hw 4 (n - 15) (by omega), vload_wsl _ M n _ hw 4 (n - 16) (by omega),
    vload_wsl _ M n _ hw 4 (n - 7) (by omega)]
  simp only [vmap_s1_b, vmap_s0_b]
  rw [h2, h1, shuffle_join, kvec_add, show n + 4 - 2 = n + 2 by omega]

/-- One round, written as in `sha512_simd32_shuffle.h`. -/
def T512 (h wt e f g : BitVec 64) : BitVec 64 :=
  h + wt + (e.rotateRight 14 ^^^ e.rotateRight 18 ^^^ e.rotateRight 41) + (((f ^^^ g) &&& e) ^^^ g)
@[inherit_doc T512]
def N512 (a b bpc T : BitVec 64) : BitVec 64 :=
  (a.rotateRight 28 ^^^ a.rotateRight 34 ^^^ a.rotateRight 39) + (((a ^^^ b) &&& bpc) ^^^ b) + T

theorem round_512 (k wt a b c d e f g h : BitVec 64) : round Fips.sha512 k wt ⟨a, b, c, d, e, f, g, h⟩ =
    ⟨N512 a b (b ^^^ c) (T512 h (k + wt) e f g), a, b, c, d + T512 h (k + wt) e f g, e, f, g⟩ := by
  have hS0 : ∀ x : BitVec 64, x.rotateRight 28 ^^^ x.rotateRight 34 ^^^ x.rotateRight 39 = Fips.sha512.S0 x := fun _ => rfl
  have hS1 : ∀ x : BitVec 64, x.rotateRight 14 ^^^ x.rotateRight 18 ^^^ x.rotateRight 41 = Fips.sha512.S1 x := fun _ => rfl
  have hT : T512 h (k + wt) e f g = h + Fips.sha512.S1 e + Ch e f g + k + wt := by
    rw [T512, hS1, ch256]; ac_rfl
  rw [hT, N512, hS0, maj_trick]
  simp only [round]
  congr 1
  ac_rfl

/-- `mix512` with the rounds and the schedule pulled apart. -/
def mixSpec (K : List Nat) (rd buf r : Nat) (args : List Nat) (s : VSt 64) : VSt 64 :=
  let reg (i : Nat) : BitVec 64 := s.regs.getD (args.getD i 0) 0
  let wt (i : Nat) : BitVec 64 := (s.wt.getD rd []).getD i 0
  let T1 := T512 (reg 7) (wt 0) (reg 4) (reg 5) (reg 6)
  let h := N512 (reg 0) (reg 1) s.bpc T1
  let d := reg 3 + T1
  let T2 := T512 (reg 6) (wt 1) d (reg 4) (reg 5)
  let g := N512 h (reg 0) (reg 0 ^^^ reg 1) T2
  let c := reg 2 + T2
  let T3 := T512 (reg 5) (wt 2) c d (reg 4)
  let f := N512 g h (h ^^^ reg 0) T3
  let b := reg 1 + T3
  let T4 := T512 (reg 4) (wt 3) b c d
  let e := N512 f g (g ^^^ h) T4
  let a := reg 0 + T4
  let s1v (v : Vec 64) := vxor (vxor (vxor (vxor (vshr v 19) (vshl v 45)) (vshr v 61)) (vshl v 3)) (vshr v 6)
  let s0v (v : Vec 64) := vxor (vxor (vxor (vxor (vshr v 1) (vshl v 63)) (vshr v 8)) (vshl v 56)) (vshr v 7)
  let s2 := vadd (vadd (vload 4 s.wd (r - 16)) (s0v (vload 4 s.wd (r - 15)))) (vload 4 s.wd (r - 7))
  let s2low := vadd (shuffle s2 s2 [0, 1]) (s1v s.simd)
  let s1 := vadd (shuffle s2 s2 [2, 3]) (s1v s2low)
  let v := shuffle s2low s1 [0, 1, 2, 3]
  { regs := ([a, b, c, d, e, f, g, h].zipIdx).foldl (fun l p => l.set (args.getD p.2 0) p.1) s.regs
    bpc := f ^^^ g, simd := s1, wd := vstore s.wd r v, wt := wtStore s.wt buf 0 (vadd (kvec 64 4 K r) v) }

theorem mix_eq_spec (K : List Nat) (rd buf r : Nat) (args : List Nat) (s : VSt 64) : mix512 K rd buf r args s = mixSpec K rd buf r args s := by
  with_unfolding_all rfl

/-- The arguments of a `mix` call made after `t` rounds. -/
def mixArgs (t : Nat) : List Nat := (List.range 8).map fun j => (j + 7 * t) % 8

theorem mix512_ok (M : Nat → BitVec 64) (H : V 64) (t n rd buf : Nat) (ht : t % 4 = 0) (s : VSt 64) (hn : 16 ≤ n)
    (hw : WOk Fips.sha512 M n s.wd) (hs : s.simd = wsl Fips.sha512 M (n - 2) 2)
    (hr : s.regs = place t (rounds Fips.sha512 M H t))
    (hb : s.bpc = (rounds Fips.sha512 M H t).b ^^^ (rounds Fips.sha512 M H t).c)
    (hwt : ∀ i, i < 4 → (s.wt.getD rd []).getD i 0 = BitVec.ofNat 64 (Fips.sha512.K.getD (t + i) 0) + W Fips.sha512 M (t + i)) :
    mix512 Fips.sha512.K rd buf n (mixArgs t) s =
      { regs := place (t + 4) (rounds Fips.sha512 M H (t + 4)),
        bpc := (rounds Fips.sha512 M H (t + 4)).b ^^^ (rounds Fips.sha512 M H (t + 4)).c,
        simd := wsl Fips.sha512 M (n + 4 - 2) 2, wd := vstore s.wd n (wsl Fips.sha512 M n 4),
        wt := wtStore s.wt buf 0 (wksl Fips.sha512 M n 4) } := by
  rw [mix_eq_spec]
  obtain ⟨h1, h2⟩ := sched512x32 M n hn
  have w0 := hwt 0 (by omega); have w1 := hwt 1 (by omega); have w2 := hwt 2 (by omega); have w3 := hwt 3 (by omega)
  rw [Nat.add_zero] at w0
  have e1 : rounds Fips.sha512 M H (t + 4) =
      round Fips.sha512 (BitVec.ofNat 64 (Fips.sha512.K.getD (t + 3) 0)) (W Fips.sha512 M (t + 3))
      (round Fips.sha512 (BitVec.ofNat 64 (Fips.sha512.K.getD (t + 2) 0)) (W Fips.sha512 M (t + 2))
      (round Fips.sha512 (BitVec.ofNat 64 (Fips.sha512.K.getD (t + 1) 0)) (W Fips.sha512 M (t + 1))
      (round Fips.sha512 (BitVec.ofNat 64 (Fips.sha512.K.getD t 0)) (W Fips.sha512 M t) (rounds Fips.sha512 M H t)))) := rfl
  have ep : place (t + 4) (rounds Fips.sha512 M H (t + 4)) = place (t % 8 + 4) (rounds Fips.sha512 M H (t + 4)) := by
    rw [place_mod (t + 4), place_mod (t % 8 + 4)]; congr 1; omega
  have ea : mixArgs t = mixArgs (t % 8) := by
    unfold mixArgs; apply List.map_congr_left; intro i _; omega
  have er : s.regs = place (t % 8) (rounds Fips.sha512 M H t) := by rw [hr, place_mod]
  unfold mixSpec
  rw [vload_wsl _ M n _ hw 4 (n - 15) (by omega), vload_wsl _ M n _ hw 4 (n - 16) (by omega),
    vload_wsl _ M n _ hw 4 (n - 7) (by omega)]
  simp only [vmap_s1_a, vmap_s0_a]
  rw [hs, h2, h1, shuffle_join, kvec_add, show n + 4 - 2 = n + 2 by omega, w0, w1, w2, w3, hb, ea, er, ep, e1]
  have h8 : t % 8 = 0 ∨ t % 8 = 4 := by omega
  generalize rounds Fips.sha512 M H t = v
  obtain ⟨a, b, c, d, e, f, g, h⟩ := v
  generalize W Fips.sha512 M t = x0, W Fips.sha512 M (t + 1) = x1, W Fips.sha512 M (t + 2) = x2, W Fips.sha512 M (t + 3) = x3
  generalize BitVec.ofNat 64 (Fips.sha512.K.getD t 0) = k0, BitVec.ofNat 64 (Fips.sha512.K.getD (t + 1) 0) = k1,
    BitVec.ofNat 64 (Fips.sha512.K.getD (t + 2) 0) = k2, BitVec.ofNat 64 (Fips.sha512.K.getD (t + 3) 0) = k3
  generalize t % 8 = r at h8
  simp only [round_512]
  rcases h8 with h | h <;> subst h <;> rfl

end Verif.Hash.Simd
