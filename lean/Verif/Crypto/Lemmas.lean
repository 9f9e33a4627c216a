import Verif.Crypto.Model
import Mathlib.Data.List.OfFn
import Mathlib.Tactic
/-! # Lemmas about the padding and ChaCha models -/
namespace Verif.Crypto
open Spec

/-! ## Padding -/

theorem padLoop_eq (lo pad : Nat) (hlo : 1 ≤ lo) : ∀ (i : Nat) (text : List Nat), i < text.length → lo ≤ i + 1 →
    padLoop lo pad i text = some (text.take lo ++ List.replicate (i + 1 - lo) pad ++ text.drop (i + 1)) := by
  intro i
  induction i with
  | zero =>
    intro text h h1
    have hl : lo = 1 := by omega
    subst hl
    unfold padLoop
    cases text with
    | nil => simp at h
    | cons a t => simp
  | succ i ih =>
    intro text h h1
    unfold padLoop
    by_cases hl : lo ≤ i + 1
    · rw [if_pos hl, if_pos h]
      simp only []
      rw [ih _ (by simp; omega) (by omega)]
      congr 1
      rw [List.take_set_of_le (by omega)]
      have : i + 1 + 1 - lo = (i + 1 - lo) + 1 := by omega
      rw [this, List.replicate_succ']
      simp only [List.append_assoc, List.append_cancel_left_eq]
      rw [List.drop_eq_getElem_cons (i := i + 1) (by simpa using h)]
      simp [List.drop_set_of_lt]
    · have hl' : lo = i + 1 + 1 := by omega
      subst hl'
      rw [if_neg hl]
      simp

theorem pkcs7_eq (bs : Nat) (inp : List Nat) (rem : Nat) (hbs : bs < 2 ^ 64) (hr : 1 ≤ rem) (hi : 1 ≤ inp.length)
    (hlen : inp.length + rem = bs) (hb : rem < 256) :
    pkcs7 bs inp rem = some (inp ++ List.replicate rem rem) := by
  unfold pkcs7 copyInto
  have h1 : (bs + 2 ^ 64 - rem) % 2 ^ 64 = inp.length := by omega
  have h2 : (bs + 2 ^ 64 - 1) % 2 ^ 64 = bs - 1 := by omega
  have h3 : rem &&& 0xFF = rem := by
    rw [show (0xFF : Nat) = 2 ^ 8 - 1 by norm_num, Nat.and_two_pow_sub_one_eq_mod]; omega
  rw [h1, h2, h3]
  have h4 : ¬ (List.replicate bs 0).length < inp.length := by rw [List.length_replicate]; omega
  rw [if_neg h4]
  generalize hq : bs - 1 = q
  rw [Option.bind_eq_bind, Option.bind_some]
  subst hq
  rw [padLoop_eq _ _ hi _ _ (by rw [List.length_append, List.length_drop, List.length_replicate]; omega) (by omega)]
  refine congrArg some ?_
  rw [show bs - 1 + 1 = bs by omega, show bs - inp.length = rem by omega]
  rw [List.take_append_of_le_length (Nat.le_refl _), List.take_length, List.drop_eq_nil_of_le, List.append_nil]
  rw [List.length_append, List.length_drop, List.length_replicate]; omega

/-! ## ChaCha -/

theorem roll_eq (x : BitVec 32) (n : Nat) (h : n < 32) : x.rotateLeft n = roll x n := by
  unfold roll
  rw [BitVec.rotateLeft_def, Nat.mod_eq_of_lt h]

theorem rot_add (x : BitVec 32) (n : Nat) (h : n < 32) : (x <<< n) + (x >>> (32 - n)) = roll x n := by
  unfold roll
  rw [BitVec.add_eq_or_of_and_eq_zero]
  ext i hi
  simp only [BitVec.getElem_and, BitVec.getElem_shiftLeft, BitVec.getElem_ushiftRight, BitVec.getElem_zero]
  by_cases hn : i < n
  · simp [hn]
  · simp only [hn, decide_false, Bool.not_false, Bool.true_and, Bool.and_eq_false_imp]
    intro _
    exact BitVec.getLsbD_of_ge _ _ (by omega)

theorem set_ofFn {α : Type} (s : Fin 16 → α) (i : Fin 16) (v : α) :
    (List.ofFn s).set i.val v = List.ofFn fun m => if m = i then v else s m := by
  apply List.ext_getElem (by simp)
  intro k hk hk'
  simp only [List.length_set, List.length_ofFn] at hk
  rw [List.getElem_set]
  simp only [List.getElem_ofFn]
  by_cases h : i.val = k
  · simp [← h]
  · rw [if_neg h, if_neg (by intro e; apply h; rw [← e])]

theorem getD_ofFn (s : State) (i : Fin 16) : (List.ofFn s).getD i.val 0 = s i := by
  rw [List.getD_eq_getElem?_getD, List.getElem?_eq_getElem (by simp), List.getElem_ofFn]; rfl

theorem chachaqr_eq (i j k l : Fin 16) (hij : i ≠ j) (hik : i ≠ k) (hil : i ≠ l) (hjk : j ≠ k) (hjl : j ≠ l) (hkl : k ≠ l)
    (s : State) : chachaqr i j k l (List.ofFn s) = List.ofFn (QUARTERROUND i j k l s) := by
  unfold chachaqr
  simp only [getD_ofFn, roll_eq _ 16 (by omega), roll_eq _ 12 (by omega), roll_eq _ 8 (by omega), roll_eq _ 7 (by omega),
    set_ofFn]
  congr 1
  funext m
  unfold QUARTERROUND quarter
  simp only []
  by_cases h1 : m = i
  · subst h1; simp [hij, hik, hil]
  by_cases h2 : m = j
  · subst h2; simp [hjk, hjl, h1]
  by_cases h3 : m = k
  · subst h3; simp [h1, h2, hkl]
  by_cases h4 : m = l
  · subst h4; simp [h1, h2, h3]
  simp [h1, h2, h3, h4]

theorem scalarRound_eq (s : State) : scalarRound (List.ofFn s) = List.ofFn (innerBlock s) := by
  unfold scalarRound innerBlock
  simp only []
  have h1 : ∀ s : State, chachaqr 0 4 8 12 (List.ofFn s) = List.ofFn (QUARTERROUND 0 4 8 12 s) :=
    chachaqr_eq 0 4 8 12 (by decide) (by decide) (by decide) (by decide) (by decide) (by decide)
  have h2 : ∀ s : State, chachaqr 1 5 9 13 (List.ofFn s) = List.ofFn (QUARTERROUND 1 5 9 13 s) :=
    chachaqr_eq 1 5 9 13 (by decide) (by decide) (by decide) (by decide) (by decide) (by decide)
  have h3 : ∀ s : State, chachaqr 2 6 10 14 (List.ofFn s) = List.ofFn (QUARTERROUND 2 6 10 14 s) :=
    chachaqr_eq 2 6 10 14 (by decide) (by decide) (by decide) (by decide) (by decide) (by decide)
  have h4 : ∀ s : State, chachaqr 3 7 11 15 (List.ofFn s) = List.ofFn (QUARTERROUND 3 7 11 15 s) :=
    chachaqr_eq 3 7 11 15 (by decide) (by decide) (by decide) (by decide) (by decide) (by decide)
  have h5 : ∀ s : State, chachaqr 0 5 10 15 (List.ofFn s) = List.ofFn (QUARTERROUND 0 5 10 15 s) :=
    chachaqr_eq 0 5 10 15 (by decide) (by decide) (by decide) (by decide) (by decide) (by decide)
  have h6 : ∀ s : State, chachaqr 1 6 11 12 (List.ofFn s) = List.ofFn (QUARTERROUND 1 6 11 12 s) :=
    chachaqr_eq 1 6 11 12 (by decide) (by decide) (by decide) (by decide) (by decide) (by decide)
  have h7 : ∀ s : State, chachaqr 2 7 8 13 (List.ofFn s) = List.ofFn (QUARTERROUND 2 7 8 13 s) :=
    chachaqr_eq 2 7 8 13 (by decide) (by decide) (by decide) (by decide) (by decide) (by decide)
  have h8 : ∀ s : State, chachaqr 3 4 9 14 (List.ofFn s) = List.ofFn (QUARTERROUND 3 4 9 14 s) :=
    chachaqr_eq 3 4 9 14 (by decide) (by decide) (by decide) (by decide) (by decide) (by decide)
  rw [h1, h2, h3, h4, h5, h6, h7, h8]

theorem repeat_map {α β : Type} (f : α → α) (g : β → β) (e : β → α) (h : ∀ b, f (e b) = e (g b)) (n : Nat) (b : β) :
    Nat.repeat f n (e b) = e (Nat.repeat g n b) := by
  induction n with
  | zero => rfl
  | succ n ih => simp only [Nat.repeat, ih, h]

theorem repeat_two {α : Type} (f : α → α) (n : Nat) (b : α) :
    Nat.repeat (fun t => f (f t)) n b = Nat.repeat f (2 * n) b := by
  induction n with
  | zero => rfl
  | succ n ih =>
    rw [show 2 * (n + 1) = 2 * n + 1 + 1 by omega]
    simp only [Nat.repeat, ih]

theorem repr_le (v : BitVec 32) : repr true v = leBytes v := by
  have := v.isLt
  simp only [repr, leBytes, if_true, BitVec.toNat_ushiftRight, Nat.shiftRight_eq_div_pow]
  norm_num
  omega

theorem byteSwap_getLsbD (v : BitVec 32) (i : Nat) (hi : i < 32) :
    (byteSwap v).getLsbD i = v.getLsbD (8 * (3 - i / 8) + i % 8) := by
  unfold byteSwap
  interval_cases i <;> simp [BitVec.getLsbD_shiftLeft]

theorem repr_be (v : BitVec 32) : repr false (byteSwap v) = leBytes v := by
  rw [← repr_le]
  have key : ∀ a b : Nat, a ≤ 3 → b = 3 - a →
      ((byteSwap v) >>> (8 * a)).toNat % 256 = (v >>> (8 * b)).toNat % 256 := by
    intro a b ha hb
    apply Nat.eq_of_testBit_eq
    intro k
    rw [show (256 : Nat) = 2 ^ 8 by norm_num, Nat.testBit_mod_two_pow, Nat.testBit_mod_two_pow]
    by_cases hk : k < 8
    · simp only [hk, decide_true, Bool.true_and]
      rw [BitVec.testBit_toNat, BitVec.testBit_toNat, BitVec.getLsbD_ushiftRight, BitVec.getLsbD_ushiftRight,
        byteSwap_getLsbD _ _ (by omega)]
      congr 1
      omega
    · simp [hk]
  simp only [repr, if_true, Bool.false_eq_true, if_false]
  rw [key 3 0 (by omega) rfl, key 2 1 (by omega) rfl, key 1 2 (by omega) rfl, key 0 3 (by omega) rfl]

theorem repr_swap (le : Bool) (v : BitVec 32) : repr le (if le then v else byteSwap v) = leBytes v := by
  cases le
  · simpa using repr_be v
  · simpa using repr_le v

theorem leBytes_length (v : BitVec 32) : (leBytes v).length = 4 := rfl

theorem outLoop_eq (le : Bool) (indata x : List (BitVec 32)) : ∀ (n i : Nat) (out : List Nat), out.length = 4 * (i + n) →
    outLoop le indata x n i out = out.take (4 * i) ++
      (List.range' i n).flatMap fun m => leBytes (x.getD m 0 + indata.getD m 0) := by
  intro n
  induction n with
  | zero => intro i out h; simp [outLoop]; omega
  | succ n ih =>
    intro i out h
    unfold outLoop
    simp only []
    rw [repr_swap, ih]
    · simp only [writeBytes, leBytes_length]
      rw [List.range'_succ, List.flatMap_cons, ← List.append_assoc]
      congr 1
      rw [List.take_append_of_le_length (by simp [leBytes_length]; omega), List.take_of_length_le (by simp [leBytes_length]; omega),
        Nat.mul_comm]
    · simp [writeBytes, leBytes_length]; omega

theorem range_finRange {α : Type} (f : Nat → List α) : (List.range' 0 16).flatMap f = (List.finRange 16).flatMap fun m => f m.val := by
  rw [← List.range_eq_range', ← List.map_coe_finRange_eq_range, List.flatMap_map]

/-! ### Four lanes -/

/-- Columns 1 and 3 exchanged. -/
def mirror (s : State) : State := fun m =>
  s ([0, 3, 2, 1, 4, 7, 6, 5, 8, 11, 10, 9, 12, 15, 14, 13].getD m.val 0)

def toV4 (s : State) : V4 :=
  ⟨[s 0, s 1, s 2, s 3], [s 4, s 5, s 6, s 7], [s 8, s 9, s 10, s 11], [s 12, s 13, s 14, s 15]⟩

def columns (s : State) : State :=
  QUARTERROUND 3 7 11 15 (QUARTERROUND 2 6 10 14 (QUARTERROUND 1 5 9 13 (QUARTERROUND 0 4 8 12 s)))

def diagonals (s : State) : State :=
  QUARTERROUND 3 4 9 14 (QUARTERROUND 2 7 8 13 (QUARTERROUND 1 6 11 12 (QUARTERROUND 0 5 10 15 s)))

theorem vrot_eq (n : Nat) (h : n < 32) (v : List (BitVec 32)) : vrot n (32 - n) v = v.map fun d => roll d n := by
  unfold vrot
  simp only [rot_add _ n h]

theorem qr4_lanes (a0 a1 a2 a3 b0 b1 b2 b3 c0 c1 c2 c3 d0 d1 d2 d3 : BitVec 32) :
    qr4 ⟨[a0, a1, a2, a3], [b0, b1, b2, b3], [c0, c1, c2, c3], [d0, d1, d2, d3]⟩ =
    let q0 := quarter a0 b0 c0 d0
    let q1 := quarter a1 b1 c1 d1
    let q2 := quarter a2 b2 c2 d2
    let q3 := quarter a3 b3 c3 d3
    ⟨[q0.1, q1.1, q2.1, q3.1], [q0.2.1, q1.2.1, q2.2.1, q3.2.1], [q0.2.2.1, q1.2.2.1, q2.2.2.1, q3.2.2.1],
      [q0.2.2.2, q1.2.2.2, q2.2.2.2, q3.2.2.2]⟩ := by
  unfold qr4
  have h16 := vrot_eq 16 (by omega)
  have h12 := vrot_eq 12 (by omega)
  have h8 := vrot_eq 8 (by omega)
  have h7 := vrot_eq 7 (by omega)
  norm_num at h16 h12 h8 h7
  simp only [h16, h12, h8, h7, vadd, vxor, List.zipWith, List.map, quarter]

theorem qr4_columns (s : State) : qr4 (toV4 s) = toV4 (columns s) := by
  unfold toV4
  rw [qr4_lanes]
  simp only [columns, QUARTERROUND]
  simp

theorem mirror_mirror (s : State) : mirror (mirror s) = s := by
  funext m
  fin_cases m <;> rfl

theorem qr4even_diagonals (s : State) : qr4even (toV4 s) = toV4 (mirror (diagonals (mirror s))) := by
  unfold qr4even toV4
  simp only [shuf, List.getD_cons_zero, List.getD_cons_succ]
  rw [qr4_lanes]
  simp only [diagonals, QUARTERROUND, mirror, shuf]
  simp

theorem columns_mirror (s : State) : columns (mirror s) = mirror (columns s) := by
  funext m
  fin_cases m <;> simp [columns, QUARTERROUND, mirror]

theorem inner_eq (s : State) : innerBlock s = diagonals (columns s) := rfl

theorem simdRound_eq (s : State) : simdRound (toV4 s) = toV4 (mirror (innerBlock (innerBlock (mirror s)))) := by
  unfold simdRound
  rw [qr4_columns, qr4even_diagonals, qr4_columns, qr4even_diagonals, columns_mirror, mirror_mirror, inner_eq, inner_eq,
    columns_mirror]

end Verif.Crypto
