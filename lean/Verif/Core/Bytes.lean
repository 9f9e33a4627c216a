import Mathlib.Data.Nat.Bitwise
import Mathlib.Tactic.Ring
import Mathlib.Tactic.NormNum
/-!
# Bytes of words

`leBytes n v` are the `n` bytes of `v`, least significant first, and `ofLe` is the number with the given bytes.
`byteSwap` models `byte_swap_naive_impl`.
-/
namespace Verif

/-- The number whose bytes, least significant first, are `l` (base-256 value). -/
def ofLe : List Nat → Nat
  | [] => 0
  | b :: t => b + 256 * ofLe t

/-- The `n` low bytes of `v`, least significant first. -/
def leBytes : Nat → Nat → List Nat
  | 0, _ => []
  | n + 1, v => v % 256 :: leBytes n (v / 256)

/-- The number whose bytes, most significant first, are `l`. -/
def ofBe (l : List Nat) : Nat := ofLe l.reverse

/-- The `n` low bytes of `v`, most significant first. -/
def beBytes (n v : Nat) : List Nat := (leBytes n v).reverse

@[simp] theorem leBytes_length : ∀ n v, (leBytes n v).length = n
  | 0, _ => rfl
  | n + 1, v => by simp [leBytes, leBytes_length n]

@[simp] theorem beBytes_length (n v : Nat) : (beBytes n v).length = n := by simp [beBytes]

theorem leBytes_lt : ∀ n v, ∀ b ∈ leBytes n v, b < 256
  | 0, _ => by simp [leBytes]
  | n + 1, v => by
    intro b hb
    simp only [leBytes, List.mem_cons] at hb
    rcases hb with rfl | hb
    · omega
    · exact leBytes_lt n _ b hb

theorem beBytes_lt (n v : Nat) : ∀ b ∈ beBytes n v, b < 256 := by
  intro b hb; exact leBytes_lt n v b (by simpa [beBytes] using hb)

theorem ofLe_leBytes : ∀ n v, ofLe (leBytes n v) = v % 256 ^ n
  | 0, v => by simp [leBytes, ofLe, Nat.mod_one]
  | n + 1, v => by
    rw [leBytes, ofLe, ofLe_leBytes n, Nat.pow_succ', Nat.mod_mul]

theorem ofLe_leBytes_of_lt {n v : Nat} (h : v < 256 ^ n) : ofLe (leBytes n v) = v := by
  rw [ofLe_leBytes, Nat.mod_eq_of_lt h]

theorem ofBe_beBytes_of_lt {n v : Nat} (h : v < 256 ^ n) : ofBe (beBytes n v) = v := by
  rw [ofBe, beBytes, List.reverse_reverse, ofLe_leBytes_of_lt h]

theorem ofLe_lt : ∀ l : List Nat, (∀ b ∈ l, b < 256) → ofLe l < 256 ^ l.length
  | [], _ => by simp [ofLe]
  | b :: t, h => by
    have := ofLe_lt t (fun x hx => h x (by simp [hx]))
    have := h b (by simp)
    rw [ofLe, List.length_cons, Nat.pow_succ']; omega

theorem leBytes_ofLe : ∀ l : List Nat, (∀ b ∈ l, b < 256) → leBytes l.length (ofLe l) = l
  | [], _ => rfl
  | b :: t, h => by
    have hb := h b (by simp)
    rw [List.length_cons, leBytes, ofLe, show (b + 256 * ofLe t) % 256 = b by omega,
      show (b + 256 * ofLe t) / 256 = ofLe t by omega, leBytes_ofLe t (fun x hx => h x (by simp [hx]))]

theorem ofLe_append : ∀ a b : List Nat, ofLe (a ++ b) = ofLe a + 256 ^ a.length * ofLe b
  | [], b => by simp [ofLe]
  | x :: a, b => by rw [List.cons_append, ofLe, ofLe, ofLe_append a b, List.length_cons, Nat.pow_succ']; ring

/-- `byte_swap_naive_impl` (utils.h:192-231): the disjunction over all byte positions of the byte moved to the mirrored
position.  The compiler built-ins used by `byte_swap` (utils.h:236-290) are taken to compute the same. -/
def byteSwap (n a : Nat) : Nat :=
  (List.range n).foldr (fun i acc =>
    (if n - 1 - i ≤ i then (a &&& (255 <<< (8 * i))) >>> (8 * (i - (n - 1 - i)))
     else (a &&& (255 <<< (8 * i))) <<< (8 * (n - 1 - i - i))) ||| acc) 0

theorem and_mask (a i : Nat) : a &&& (255 <<< (8 * i)) = (a / 256 ^ i % 256) * 256 ^ i := by
  have h : (256 : Nat) ^ i = 2 ^ (8 * i) := by rw [show (256 : Nat) = 2 ^ 8 by norm_num, ← pow_mul]
  apply Nat.eq_of_testBit_eq
  intro j
  rw [h, Nat.testBit_and, ← Nat.shiftLeft_eq, ← Nat.shiftRight_eq_div_pow, Nat.testBit_shiftLeft, Nat.testBit_shiftLeft,
    show (256 : Nat) = 2 ^ 8 by norm_num, Nat.testBit_mod_two_pow, Nat.testBit_shiftRight,
    show (255 : Nat) = 2 ^ 8 - 1 by norm_num, Nat.testBit_two_pow_sub_one]
  by_cases hj : 8 * i ≤ j
  · simp only [hj, decide_true, Bool.true_and, Nat.add_sub_cancel' hj, ge_iff_le]
    rw [Bool.and_comm]
  · simp [hj]

theorem getElem_leBytes : ∀ (n v k : Nat) (hk : k < n), (leBytes n v)[k]'(by simpa using hk) = v / 256 ^ k % 256
  | n + 1, v, 0, _ => by simp [leBytes]
  | n + 1, v, k + 1, hk => by
    have := getElem_leBytes n (v / 256) k (by omega)
    simp only [leBytes, List.getElem_cons_succ, this, Nat.div_div_eq_div_mul, Nat.pow_succ']

private def rev (n a : Nat) (i : Nat) : Nat := (a / 256 ^ i % 256) * 256 ^ (n - 1 - i)

private theorem swap_term (n a i : Nat) (h : i < n) :
    (if n - 1 - i ≤ i then (a &&& (255 <<< (8 * i))) >>> (8 * (i - (n - 1 - i)))
     else (a &&& (255 <<< (8 * i))) <<< (8 * (n - 1 - i - i))) = rev n a i := by
  have hp : ∀ k, (2 : Nat) ^ (8 * k) = 256 ^ k := by intro k; rw [show (256 : Nat) = 2 ^ 8 by norm_num, ← pow_mul]
  rw [and_mask, rev]
  split
  · rw [Nat.shiftRight_eq_div_pow, hp]
    have : (a / 256 ^ i % 256) * 256 ^ i = (a / 256 ^ i % 256) * 256 ^ (n - 1 - i) * 256 ^ (i - (n - 1 - i)) := by
      rw [Nat.mul_assoc, ← pow_add]; congr 2; omega
    rw [this, Nat.mul_div_cancel _ (by positivity)]
  · rw [Nat.shiftLeft_eq, hp, Nat.mul_assoc, ← pow_add]; congr 2; omega

/-- Reversing the bytes. -/
theorem leBytes_byteSwap (n a : Nat) : leBytes n (byteSwap n a) = beBytes n a := by
  have key : ∀ m ≤ n, (List.range' m (n - m)).foldr (fun i acc => rev n a i ||| acc) 0 = ofLe (beBytes n a |>.take (n - m)) := by
    intro m hm
    induction hk : n - m generalizing m with
    | zero => simp [ofLe]
    | succ k ih =>
      have h1 := ih (m + 1) (by omega) (by omega)
      rw [List.range'_succ, List.foldr_cons, h1]
      have hlen : k < (beBytes n a).length := by simp; omega
      rw [List.take_succ_eq_append_getElem hlen, ofLe_append, ofLe, ofLe, Nat.mul_zero, Nat.add_zero]
      have hel : (beBytes n a)[k] = a / 256 ^ m % 256 := by
        simp only [beBytes, List.getElem_reverse, leBytes_length]
        rw [getElem_leBytes _ _ _ (by omega), show n - 1 - k = m by omega]
      have hl : (List.take k (beBytes n a)).length = k := by simp; omega
      rw [hel, hl, rev, show n - 1 - m = k by omega]
      have hlt : ofLe (List.take k (beBytes n a)) < 2 ^ (8 * k) := by
        have := ofLe_lt (List.take k (beBytes n a)) (fun b hb => beBytes_lt n a b (List.mem_of_mem_take hb))
        rwa [hl, show (256 : Nat) = 2 ^ 8 by norm_num, ← pow_mul] at this
      have h256 : (256 : Nat) ^ k = 2 ^ (8 * k) := by rw [show (256 : Nat) = 2 ^ 8 by norm_num, ← pow_mul]
      rw [h256, ← Nat.shiftLeft_eq, ← Nat.shiftLeft_add_eq_or_of_lt hlt, Nat.shiftLeft_eq]
      ring
  have h0 := key 0 (by omega)
  have hb : byteSwap n a = ofLe (beBytes n a) := by
    rw [byteSwap, List.range_eq_range']
    simp only [Nat.sub_zero] at h0
    rw [List.take_of_length_le (by simp)] at h0
    rw [← h0]
    have : ∀ l : List Nat, (∀ i ∈ l, i < n) → l.foldr (fun i acc =>
        (if n - 1 - i ≤ i then (a &&& (255 <<< (8 * i))) >>> (8 * (i - (n - 1 - i)))
         else (a &&& (255 <<< (8 * i))) <<< (8 * (n - 1 - i - i))) ||| acc) 0 = l.foldr (fun i acc => rev n a i ||| acc) 0 := by
      intro l
      induction l with
      | nil => intro _; rfl
      | cons i l ih =>
        intro hl
        rw [List.foldr_cons, List.foldr_cons, swap_term n a i (hl i (by simp)), ih fun x hx => hl x (by simp [hx])]
    exact this _ (by simp)
  rw [hb]
  have := leBytes_ofLe (beBytes n a) (beBytes_lt n a)
  simpa using this

theorem byteSwap_eq (n a : Nat) : byteSwap n a = ofLe (beBytes n a) := by
  have h := leBytes_byteSwap n a
  have hp : byteSwap n a < 256 ^ n := by
    rw [byteSwap]
    have : ∀ l : List Nat, (∀ i ∈ l, i < n) → l.foldr (fun i acc =>
        (if n - 1 - i ≤ i then (a &&& (255 <<< (8 * i))) >>> (8 * (i - (n - 1 - i)))
         else (a &&& (255 <<< (8 * i))) <<< (8 * (n - 1 - i - i))) ||| acc) 0 < 2 ^ (8 * n) := by
      intro l
      induction l with
      | nil => intro _; simp
      | cons i l ih =>
        intro hl
        rw [List.foldr_cons]
        refine Nat.or_lt_two_pow ?_ (ih fun x hx => hl x (by simp [hx]))
        have hi := hl i (by simp)
        rw [swap_term n a i hi, rev]
        have h1 : a / 256 ^ i % 256 < 256 := Nat.mod_lt _ (by norm_num)
        have h2 : (256 : Nat) ^ n = 256 ^ (n - 1 - i) * (256 * 256 ^ i) := by
          rw [← Nat.pow_succ', ← pow_add]; congr 1; omega
        have h3 : (2 : Nat) ^ (8 * n) = 256 ^ n := by rw [show (256 : Nat) = 2 ^ 8 by norm_num, ← pow_mul]
        rw [h3, h2]
        have : 0 < 256 ^ i := by positivity
        calc _ < 256 * 256 ^ (n - 1 - i) := Nat.mul_lt_mul_of_pos_right h1 (by positivity)
          _ ≤ _ := by rw [Nat.mul_comm]; exact Nat.mul_le_mul_left _ (by omega)
    have := this (List.range n) (by simp)
    rwa [show (256 : Nat) = 2 ^ 8 by norm_num, ← pow_mul]
  rw [← h, ofLe_leBytes_of_lt hp]

end Verif
