import Verif.Crypto.Lemmas
import Verif.Crypto.AesLemmas
/-!
# C43, C44, C65: padding, ChaCha20, AES key expansion
-/
namespace Verif.Crypto
open Spec

/-! ## C43: PKCS#7 -/

/-- Padding as RFC 5652 defines it can be removed in only one way. -/
theorem c43_unambiguous (k : Nat) (hk : 0 < k) (a b : List Nat) (h : Spec.pkcs7 k a = Spec.pkcs7 k b) : a = b := by
  unfold Spec.pkcs7 at h
  have ha : a.length % k < k := Nat.mod_lt _ hk
  have hb : b.length % k < k := Nat.mod_lt _ hk
  have hla := congrArg List.getLast? h
  obtain ⟨p, hp⟩ : ∃ p, k - a.length % k = p + 1 := ⟨k - a.length % k - 1, by omega⟩
  obtain ⟨q, hq⟩ : ∃ q, k - b.length % k = q + 1 := ⟨k - b.length % k - 1, by omega⟩
  rw [hp, hq] at h hla
  simp only [List.getLast?_append, List.getLast?_replicate] at hla
  simp at hla
  subst hla
  exact List.append_cancel_right h

/-- For a message whose length is not a multiple of the block size, the last block that `pkcs7_padding` makes of the
remaining `m % k` bytes completes the message to the padded message of RFC 5652, and nothing outside the block is
touched. `_partial`: when the length is a multiple of the block size the RFC demands a block of padding only, see
`c43_full_block_violated`. -/
theorem c43_pkcs7_partial (k : Nat) (msg : List Nat) (hk : 0 < k) (h64 : k < 2 ^ 64) (h256 : k ≤ 256) (hm : msg.length % k ≠ 0) :
    (pkcs7 k (msg.drop (msg.length / k * k)) (k - msg.length % k)).map (msg.take (msg.length / k * k) ++ ·) =
      some (Spec.pkcs7 k msg) := by
  have h1 := Nat.mod_lt msg.length hk
  have h2 := Nat.div_add_mod' msg.length k
  have hl : (msg.drop (msg.length / k * k)).length = msg.length % k := by simp; omega
  rw [pkcs7_eq k _ _ h64 (by omega) (by omega) (by omega) (by omega)]
  rw [Option.map_some, ← List.append_assoc, List.take_append_drop]
  rfl

example : (pkcs7 8 ([1, 2, 3, 4, 5, 6, 7, 8, 9, 10].drop 8) 6) = some [9, 10, 6, 6, 6, 6, 6, 6] := by decide +kernel

/-- Asked for the block that RFC 5652 adds after a message of a whole number of blocks, `pkcs7_padding` writes outside
its array, whatever the block size; and told that nothing remains it adds nothing. -/
theorem c43_full_block_violated (k : Nat) (h0 : 0 < k) (h64 : k < 2 ^ 64) : pkcs7 k [] k = none := by
  unfold pkcs7 copyInto
  rw [if_neg (by simp), Option.bind_eq_bind, Option.bind_some]
  have h1 : (k + 2 ^ 64 - k) % 2 ^ 64 = 0 := by omega
  have h2 : (k + 2 ^ 64 - 1) % 2 ^ 64 = k - 1 := by omega
  rw [h1, h2]
  have : ∀ (pad i : Nat) (text : List Nat), i < text.length → padLoop 0 pad i text = none := by
    intro pad i
    induction i with
    | zero => intro text h; unfold padLoop; simp [h]
    | succ i ih =>
      intro text h
      unfold padLoop
      rw [if_pos (Nat.zero_le _), if_pos h]
      exact ih _ (by simp; omega)
  apply this
  rw [List.nil_append, List.length_drop, List.length_replicate, List.length_nil]
  omega

@[inherit_doc c43_full_block_violated]
theorem c43_no_padding_violated : pkcs7 4 [1, 2, 3, 4] 0 = some [1, 2, 3, 4] ∧
    Spec.pkcs7 4 [1, 2, 3, 4] = [1, 2, 3, 4, 4, 4, 4, 4] := by decide +kernel

/-- `zero_padding` yields a whole block that begins with the input and continues with zeros. -/
theorem c43_zero (k : Nat) (inp : List Nat) (h : inp.length ≤ k) :
    zeroPad k inp = some (inp ++ List.replicate (k - inp.length) 0) := by
  unfold zeroPad copyInto
  rw [if_neg (by simp; omega)]
  simp

/-- Zero padding cannot be removed unambiguously. -/
theorem c43_zero_ambiguous_violated : ¬ ∀ a b : List Nat, a.length ≤ 4 → b.length ≤ 4 → zeroPad 4 a = zeroPad 4 b → a = b := by
  intro h
  exact absurd (h [7] [7, 0] (by decide) (by decide) (by decide +kernel)) (by decide)

/-! ## C44: ChaCha20 -/

/-- The specification reproduces the example printed in the RFC. -/
example : chacha20Block rfcExample = rfcExampleBlock := by decide +kernel

/-- The scalar routine, on hosts of either byte order, overwrites the 64 output bytes with the ChaCha20 block of
RFC 8439, for every initial state. -/
theorem c44_scalar (le : Bool) (s : State) (out : List Nat) (h : out.length = 64) :
    chachaMain le out (List.ofFn s) = chacha20Block s := by
  unfold chachaMain
  simp only []
  rw [repeat_map scalarRound innerBlock List.ofFn scalarRound_eq, outLoop_eq le _ _ 16 0 out (by omega)]
  simp only [Nat.mul_zero, List.take_zero, List.nil_append]
  rw [range_finRange]
  unfold chacha20Block serialize blockWords
  congr 1
  funext m
  rw [getD_ofFn, getD_ofFn]

/-- The four-lane routine does not compute ChaCha20: on the RFC's own example the output differs. -/
theorem c44_simd_violated : chachaSimd true (List.replicate 64 0) (List.ofFn rfcExample) ≠ chacha20Block rfcExample := by
  decide +kernel

/-- What the four-lane routine does compute, for every initial state: the ChaCha20 block of the state with columns 1 and
3 exchanged, with columns 1 and 3 of the result exchanged. `_partial`: this is not the ChaCha20 block of the state
(`c44_simd_violated`). -/
theorem c44_simd_partial (le : Bool) (s : State) (out : List Nat) (h : out.length = 64) :
    chachaSimd le out (List.ofFn s) = serialize (mirror (blockWords (mirror s))) := by
  unfold chachaSimd
  have e0 : (⟨((List.ofFn s).drop 0).take 4, ((List.ofFn s).drop 4).take 4, ((List.ofFn s).drop 8).take 4,
      ((List.ofFn s).drop 12).take 4⟩ : V4) = toV4 s := by
    simp [toV4]
  simp only []
  rw [e0]
  have e1 : Nat.repeat simdRound (20 / 4) (toV4 s) = toV4 (mirror (Nat.repeat innerBlock 10 (mirror s))) := by
    have h2 : Nat.repeat simdRound 5 (toV4 (mirror (mirror s))) =
        toV4 (mirror (Nat.repeat (fun t => innerBlock (innerBlock t)) 5 (mirror s))) :=
      repeat_map simdRound (fun t => innerBlock (innerBlock t)) (fun t => toV4 (mirror t))
        (fun t => by rw [simdRound_eq, mirror_mirror]) 5 (mirror s)
    rw [mirror_mirror, repeat_two] at h2
    rw [show 20 / 4 = 5 from rfl, h2]
  rw [e1]
  have sw : ∀ v : List (BitVec 32), (if le then v else v.map byteSwap).flatMap (repr le) = v.flatMap leBytes := by
    intro v
    have h1 : (if le then v else v.map byteSwap) = v.map fun x => if le then x else byteSwap x := by cases le <;> simp
    rw [h1, List.flatMap_map]
    simp only [repr_swap]
  simp only [storeVec, sw]
  obtain ⟨t, ht⟩ : ∃ t, t = Nat.repeat innerBlock 10 (mirror s) := ⟨_, rfl⟩
  have hb : blockWords (mirror s) = fun m => t m + mirror s m := by rw [ht]; rfl
  rw [← ht, hb]
  have key : ∀ A B C D : List Nat, A.length = 16 → B.length = 16 → C.length = 16 → D.length = 16 →
      writeBytes (writeBytes (writeBytes (writeBytes out 0 A) (4 * 4) B) (8 * 4) C) (12 * 4) D = A ++ (B ++ (C ++ D)) := by
    intro A B C D hA hB hC hD
    simp only [writeBytes, List.take_zero, List.nil_append, Nat.zero_add, hA, hB, hC, hD]
    have e1 : List.take (4 * 4) (A ++ List.drop 16 out) = A := by
      rw [List.take_append_of_le_length (by omega), List.take_of_length_le (by omega)]
    rw [e1]
    have e2 : List.take (8 * 4) (A ++ B ++ List.drop (4 * 4 + 16) (A ++ List.drop 16 out)) = A ++ B := by
      rw [List.take_append_of_le_length (by rw [List.length_append]; omega), List.take_of_length_le (by rw [List.length_append]; omega)]
    rw [e2]
    have e3 : ∀ X, List.take (12 * 4) (A ++ B ++ C ++ X) = A ++ B ++ C := by
      intro X
      rw [List.take_append_of_le_length (by simp only [List.length_append]; omega),
        List.take_of_length_le (by simp only [List.length_append]; omega)]
    rw [e3]
    rw [List.drop_eq_nil_of_le (by simp only [List.length_append, List.length_drop, List.length_take]; omega), List.append_nil]
    simp only [List.append_assoc]
  rw [key]
  · simp only [serialize, List.ofFn_succ, List.finRange, vadd, toV4, mirror]
    simp [leBytes]
  all_goals simp [vadd, toV4, leBytes]

example : mirror rfcExample ≠ rfcExample ∧ (List.ofFn rfcExample).length = 16 := by
  refine ⟨fun h => ?_, by simp⟩
  have := congrFun h 1
  revert this
  decide +kernel

/-! ## C65: the AES key schedule -/

/-- The specification reproduces FIPS 197 Appendix A.1: `w[4]` and `w[43]` for the key `2b7e1516…`. -/
def fipsKey128 : List Byte := [0x2b, 0x7e, 0x15, 0x16, 0x28, 0xae, 0xd2, 0xa6, 0xab, 0xf7, 0x15, 0x88, 0x09, 0xcf, 0x4f, 0x3c]
example : w 4 fipsKey128 4 = ⟨0xa0, 0xfa, 0xfe, 0x17⟩ := by decide +kernel
/-- Appendix A.3. -/
def fipsKey256 : List Byte := [0x60, 0x3d, 0xeb, 0x10, 0x15, 0xca, 0x71, 0xbe, 0x2b, 0x73, 0xae, 0xf0, 0x85, 0x7d, 0x77, 0x81,
  0x1f, 0x35, 0x2c, 0x07, 0x3b, 0x61, 0x08, 0xd7, 0x2d, 0x98, 0x10, 0xa3, 0x09, 0x14, 0xdf, 0xf4]
example : w 8 fipsKey256 12 = ⟨0xa8, 0xb0, 0x9c, 0x1a⟩ := by decide +kernel

/-- The 128-bit and 192-bit constructors write beyond the end of their arrays, for every key. -/
theorem c65_overflow_violated (junk key : List Byte) : aesCtor 16 junk key = none ∧ aesCtor 24 junk key = none := by
  constructor
  · show aes128 (List.replicate 10 junk) key = none
    generalize hl : List.replicate 10 junk = ks
    have h : ks.length = 10 := by rw [← hl, List.length_replicate]
    clear hl
    unfold aes128
    iterate 99 (first | (refine put_none _ _ _ _ h ?_; clear h; intro ks h) | skip)
    exact if_neg (by omega)
  · show aes192 (List.replicate 12 junk) key = none
    generalize hl : List.replicate 12 junk = ks
    have h : ks.length = 12 := by rw [← hl, List.length_replicate]
    clear hl
    cases hr : aes192 ks key with
    | none => rfl
    | some r =>
      exfalso
      unfold aes192 at hr
      simp only [Option.bind_eq_bind, Option.bind_eq_some_iff] at hr
      obtain ⟨sA, hA, sB, hB, sC, hC, sD, hD, hE⟩ := hr
      unfold aes192A at hA
      simp only [Option.bind_eq_bind, Option.bind_eq_some_iff, pure, Option.some.injEq] at hA
      obtain ⟨k1, h1, k2, h2, k3, h3, e⟩ := hA
      subst e
      unfold aes192B at hB
      simp only [Option.bind_eq_bind, Option.bind_eq_some_iff, pure, Option.some.injEq] at hB
      obtain ⟨k4, h4, k5, h5, k6, h6, k7, h7, e⟩ := hB
      subst e
      unfold aes192C at hC
      simp only [Option.bind_eq_bind, Option.bind_eq_some_iff, pure, Option.some.injEq] at hC
      obtain ⟨k8, h8, k9, h9, k10, h10, k11, h11, e⟩ := hC
      subst e
      unfold aes192D at hD
      simp only [Option.bind_eq_bind, Option.bind_eq_some_iff, pure, Option.some.injEq] at hD
      obtain ⟨k12, h12, k13, h13, k14, h14, k15, h15, e⟩ := hD
      subst e
      unfold aes192E at hE
      simp only [Option.bind_eq_bind, Option.bind_eq_some_iff] at hE
      obtain ⟨k16, h16, k17, h17, h18⟩ := hE
      have l := put_lt _ _ _ _ h18
      rw [put_len _ _ _ _ h17, put_len _ _ _ _ h16, put_len _ _ _ _ h15, put_len _ _ _ _ h14, put_len _ _ _ _ h13,
        put_len _ _ _ _ h12, put_len _ _ _ _ h11, put_len _ _ _ _ h10, put_len _ _ _ _ h9, put_len _ _ _ _ h8,
        put_len _ _ _ _ h7, put_len _ _ _ _ h6, put_len _ _ _ _ h5, put_len _ _ _ _ h4, put_len _ _ _ _ h3,
        put_len _ _ _ _ h2, put_len _ _ _ _ h1, h] at l
      omega

/-- What the 128-bit branch writes, given an array long enough: the eleven round keys of FIPS 197, for every key.
`_partial`: the array the class declares has ten elements (`c65_overflow_violated`). -/
theorem c65_128_partial (ks : List (List Byte)) (hks : 11 ≤ ks.length) (key : List Byte) (hkey : key.length = 16) :
    aes128 ks key = some ((List.range 11).map (roundKey 4 key) ++ ks.drop 11) := by
  have h0 : load128 key 0 = roundKey 4 key 0 := by
    rw [load_eq key 0 (by omega), roundKey_eq]
    rw [w_key _ _ _ (by omega), w_key _ _ _ (by omega), w_key _ _ _ (by omega), w_key _ _ _ (by omega)]
  match ks, hks with
  | x0 :: x1 :: x2 :: x3 :: x4 :: x5 :: x6 :: x7 :: x8 :: x9 :: x10 :: rest, _ =>
    simp only [aes128, put, rd, h0, List.length_cons, List.set_cons_zero, List.set_cons_succ, List.getD_cons_zero,
      List.getD_cons_succ, Option.bind_eq_bind, Option.bind_some, Nat.zero_lt_succ, Nat.succ_lt_succ_iff, if_true]
    rw [step128 key 0 _ (by decide), step128 key 1 _ (by decide), step128 key 2 _ (by decide), step128 key 3 _ (by decide),
      step128 key 4 _ (by decide), step128 key 5 _ (by decide), step128 key 6 _ (by decide), step128 key 7 _ (by decide),
      step128 key 8 _ (by decide), step128 key 9 _ (by decide)]
    simp [List.range_succ]

/-- What the 192-bit branch writes, given an array long enough: the thirteen round keys of FIPS 197, for every key.
`_partial`: the array the class declares has twelve elements (`c65_overflow_violated`). -/
theorem c65_192_partial (ks : List (List Byte)) (hks : 13 ≤ ks.length) (key : List Byte) (hkey : key.length = 24) :
    aes192 ks key = some ((List.range 13).map (roundKey 6 key) ++ ks.drop 13) := by
  have h0 : load128 key 0 = vec (w 6 key (6 * 0)) (w 6 key (6 * 0 + 1)) (w 6 key (6 * 0 + 2)) (w 6 key (6 * 0 + 3)) := by
    rw [load_eq key 0 (by omega)]
    rw [w_key _ _ _ (by omega), w_key _ _ _ (by omega), w_key _ _ _ (by omega), w_key _ _ _ (by omega)]
  have h1 : srli (load128 key 8) 8 = vec (w 6 key (6 * 0 + 4)) (w 6 key (6 * 0 + 5)) ⟨0, 0, 0, 0⟩ ⟨0, 0, 0, 0⟩ := by
    rw [load_eq key 2 (by omega), w_key _ _ _ (by omega), w_key _ _ _ (by omega)]
    rfl
  obtain ⟨c0, d0, e0⟩ := step192b key 0 (w 6 key (6 * 0 + 6)) (w 6 key (6 * 0 + 7)) (w 6 key (6 * 0 + 8)) ⟨0, 0, 0, 0⟩ ⟨0, 0, 0, 0⟩
  obtain ⟨c1, d1, e1⟩ := step192b key 1 (w 6 key (6 * 1 + 6)) (w 6 key (6 * 1 + 7)) (w 6 key (6 * 1 + 8)) c0 d0
  obtain ⟨c2, d2, e2⟩ := step192b key 2 (w 6 key (6 * 2 + 6)) (w 6 key (6 * 2 + 7)) (w 6 key (6 * 2 + 8)) c1 d1
  obtain ⟨c3, d3, e3⟩ := step192b key 3 (w 6 key (6 * 3 + 6)) (w 6 key (6 * 3 + 7)) (w 6 key (6 * 3 + 8)) c2 d2
  obtain ⟨c4, d4, e4⟩ := step192b key 4 (w 6 key (6 * 4 + 6)) (w 6 key (6 * 4 + 7)) (w 6 key (6 * 4 + 8)) c3 d3
  obtain ⟨c5, d5, e5⟩ := step192b key 5 (w 6 key (6 * 5 + 6)) (w 6 key (6 * 5 + 7)) (w 6 key (6 * 5 + 8)) c4 d4
  obtain ⟨c6, d6, e6⟩ := step192b key 6 (w 6 key (6 * 6 + 6)) (w 6 key (6 * 6 + 7)) (w 6 key (6 * 6 + 8)) c5 d5
  have s0 := step192 key 0 0x01 ⟨0, 0, 0, 0⟩ ⟨0, 0, 0, 0⟩ (by decide)
  have s1 := step192 key 1 0x02 c0 d0 (by decide)
  have s2 := step192 key 2 0x04 c1 d1 (by decide)
  have s3 := step192 key 3 0x08 c2 d2 (by decide)
  have s4 := step192 key 4 0x10 c3 d3 (by decide)
  have s5 := step192 key 5 0x20 c4 d4 (by decide)
  have s6 := step192 key 6 0x40 c5 d5 (by decide)
  have s7 := step192 key 7 0x80 c6 d6 (by decide)
  simp only [Nat.reduceMul, Nat.reduceAdd] at *
  obtain ⟨x0, x1, x2, x3, x4, x5, x6, x7, x8, x9, x10, x11, x12, rest, rfl⟩ := thirteen ks hks
  have hA : aes192A ([x0, x1, x2, x3, x4, x5, x6, x7, x8, x9, x10, x11, x12] ++ rest) key = some
      ([vec (w 6 key 0) (w 6 key 1) (w 6 key 2) (w 6 key 3), vec (w 6 key 4) (w 6 key 5) ⟨0, 0, 0, 0⟩ ⟨0, 0, 0, 0⟩, x2, x3, x4, x5, x6, x7, x8, x9, x10, x11, x12] ++ rest,
      vec (w 6 key 6) (w 6 key 7) (w 6 key 8) (w 6 key 9), vec (w 6 key 10) (w 6 key 11) c0 d0) := by
    simp only [aes192A, put, rd, List.cons_append, List.nil_append, List.length_cons, List.set_cons_zero, List.set_cons_succ,
      List.getD_cons_zero, List.getD_cons_succ, Option.bind_eq_bind, Option.bind_some, Nat.zero_lt_succ, Nat.succ_lt_succ_iff,
      if_true, pd0, pd1, h0, h1, s0, e0, pure]
  have hB : aes192B ([vec (w 6 key 0) (w 6 key 1) (w 6 key 2) (w 6 key 3), vec (w 6 key 4) (w 6 key 5) ⟨0, 0, 0, 0⟩ ⟨0, 0, 0, 0⟩, x2, x3, x4, x5, x6, x7, x8, x9, x10, x11, x12] ++ rest,
      vec (w 6 key 6) (w 6 key 7) (w 6 key 8) (w 6 key 9), vec (w 6 key 10) (w 6 key 11) c0 d0) = some
      ([vec (w 6 key 0) (w 6 key 1) (w 6 key 2) (w 6 key 3), vec (w 6 key 4) (w 6 key 5) (w 6 key 6) (w 6 key 7), vec (w 6 key 8) (w 6 key 9) (w 6 key 10) (w 6 key 11), vec (w 6 key 12) (w 6 key 13) (w 6 key 14) (w 6 key 15), vec (w 6 key 16) (w 6 key 17) c1 d1, x5, x6, x7, x8, x9, x10, x11, x12] ++ rest,
      vec (w 6 key 18) (w 6 key 19) (w 6 key 20) (w 6 key 21), vec (w 6 key 22) (w 6 key 23) c2 d2) := by
    simp only [aes192B, put, rd, List.cons_append, List.nil_append, List.length_cons, List.set_cons_zero, List.set_cons_succ,
      List.getD_cons_zero, List.getD_cons_succ, Option.bind_eq_bind, Option.bind_some, Nat.zero_lt_succ, Nat.succ_lt_succ_iff,
      if_true, pd0, pd1, s1, e1, s2, e2, pure]
  have hC : aes192C ([vec (w 6 key 0) (w 6 key 1) (w 6 key 2) (w 6 key 3), vec (w 6 key 4) (w 6 key 5) (w 6 key 6) (w 6 key 7), vec (w 6 key 8) (w 6 key 9) (w 6 key 10) (w 6 key 11), vec (w 6 key 12) (w 6 key 13) (w 6 key 14) (w 6 key 15), vec (w 6 key 16) (w 6 key 17) c1 d1, x5, x6, x7, x8, x9, x10, x11, x12] ++ rest,
      vec (w 6 key 18) (w 6 key 19) (w 6 key 20) (w 6 key 21), vec (w 6 key 22) (w 6 key 23) c2 d2) = some
      ([vec (w 6 key 0) (w 6 key 1) (w 6 key 2) (w 6 key 3), vec (w 6 key 4) (w 6 key 5) (w 6 key 6) (w 6 key 7), vec (w 6 key 8) (w 6 key 9) (w 6 key 10) (w 6 key 11), vec (w 6 key 12) (w 6 key 13) (w 6 key 14) (w 6 key 15), vec (w 6 key 16) (w 6 key 17) (w 6 key 18) (w 6 key 19), vec (w 6 key 20) (w 6 key 21) (w 6 key 22) (w 6 key 23), vec (w 6 key 24) (w 6 key 25) (w 6 key 26) (w 6 key 27), vec (w 6 key 28) (w 6 key 29) c3 d3, x8, x9, x10, x11, x12] ++ rest,
      vec (w 6 key 30) (w 6 key 31) (w 6 key 32) (w 6 key 33), vec (w 6 key 34) (w 6 key 35) c4 d4) := by
    simp only [aes192C, put, rd, List.cons_append, List.nil_append, List.length_cons, List.set_cons_zero, List.set_cons_succ,
      List.getD_cons_zero, List.getD_cons_succ, Option.bind_eq_bind, Option.bind_some, Nat.zero_lt_succ, Nat.succ_lt_succ_iff,
      if_true, pd0, pd1, s3, e3, s4, e4, pure]
  have hD : aes192D ([vec (w 6 key 0) (w 6 key 1) (w 6 key 2) (w 6 key 3), vec (w 6 key 4) (w 6 key 5) (w 6 key 6) (w 6 key 7), vec (w 6 key 8) (w 6 key 9) (w 6 key 10) (w 6 key 11), vec (w 6 key 12) (w 6 key 13) (w 6 key 14) (w 6 key 15), vec (w 6 key 16) (w 6 key 17) (w 6 key 18) (w 6 key 19), vec (w 6 key 20) (w 6 key 21) (w 6 key 22) (w 6 key 23), vec (w 6 key 24) (w 6 key 25) (w 6 key 26) (w 6 key 27), vec (w 6 key 28) (w 6 key 29) c3 d3, x8, x9, x10, x11, x12] ++ rest,
      vec (w 6 key 30) (w 6 key 31) (w 6 key 32) (w 6 key 33), vec (w 6 key 34) (w 6 key 35) c4 d4) = some
      ([vec (w 6 key 0) (w 6 key 1) (w 6 key 2) (w 6 key 3), vec (w 6 key 4) (w 6 key 5) (w 6 key 6) (w 6 key 7), vec (w 6 key 8) (w 6 key 9) (w 6 key 10) (w 6 key 11), vec (w 6 key 12) (w 6 key 13) (w 6 key 14) (w 6 key 15), vec (w 6 key 16) (w 6 key 17) (w 6 key 18) (w 6 key 19), vec (w 6 key 20) (w 6 key 21) (w 6 key 22) (w 6 key 23), vec (w 6 key 24) (w 6 key 25) (w 6 key 26) (w 6 key 27), vec (w 6 key 28) (w 6 key 29) (w 6 key 30) (w 6 key 31), vec (w 6 key 32) (w 6 key 33) (w 6 key 34) (w 6 key 35), vec (w 6 key 36) (w 6 key 37) (w 6 key 38) (w 6 key 39), vec (w 6 key 40) (w 6 key 41) c5 d5, x11, x12] ++ rest,
      vec (w 6 key 42) (w 6 key 43) (w 6 key 44) (w 6 key 45), vec (w 6 key 46) (w 6 key 47) c6 d6) := by
    simp only [aes192D, put, rd, List.cons_append, List.nil_append, List.length_cons, List.set_cons_zero, List.set_cons_succ,
      List.getD_cons_zero, List.getD_cons_succ, Option.bind_eq_bind, Option.bind_some, Nat.zero_lt_succ, Nat.succ_lt_succ_iff,
      if_true, pd0, pd1, s5, e5, s6, e6, pure]
  have hE : aes192E ([vec (w 6 key 0) (w 6 key 1) (w 6 key 2) (w 6 key 3), vec (w 6 key 4) (w 6 key 5) (w 6 key 6) (w 6 key 7), vec (w 6 key 8) (w 6 key 9) (w 6 key 10) (w 6 key 11), vec (w 6 key 12) (w 6 key 13) (w 6 key 14) (w 6 key 15), vec (w 6 key 16) (w 6 key 17) (w 6 key 18) (w 6 key 19), vec (w 6 key 20) (w 6 key 21) (w 6 key 22) (w 6 key 23), vec (w 6 key 24) (w 6 key 25) (w 6 key 26) (w 6 key 27), vec (w 6 key 28) (w 6 key 29) (w 6 key 30) (w 6 key 31), vec (w 6 key 32) (w 6 key 33) (w 6 key 34) (w 6 key 35), vec (w 6 key 36) (w 6 key 37) (w 6 key 38) (w 6 key 39), vec (w 6 key 40) (w 6 key 41) c5 d5, x11, x12] ++ rest,
      vec (w 6 key 42) (w 6 key 43) (w 6 key 44) (w 6 key 45), vec (w 6 key 46) (w 6 key 47) c6 d6) = some
      ([vec (w 6 key 0) (w 6 key 1) (w 6 key 2) (w 6 key 3),
      vec (w 6 key 4) (w 6 key 5) (w 6 key 6) (w 6 key 7),
      vec (w 6 key 8) (w 6 key 9) (w 6 key 10) (w 6 key 11),
      vec (w 6 key 12) (w 6 key 13) (w 6 key 14) (w 6 key 15),
      vec (w 6 key 16) (w 6 key 17) (w 6 key 18) (w 6 key 19),
      vec (w 6 key 20) (w 6 key 21) (w 6 key 22) (w 6 key 23),
      vec (w 6 key 24) (w 6 key 25) (w 6 key 26) (w 6 key 27),
      vec (w 6 key 28) (w 6 key 29) (w 6 key 30) (w 6 key 31),
      vec (w 6 key 32) (w 6 key 33) (w 6 key 34) (w 6 key 35),
      vec (w 6 key 36) (w 6 key 37) (w 6 key 38) (w 6 key 39),
      vec (w 6 key 40) (w 6 key 41) (w 6 key 42) (w 6 key 43),
      vec (w 6 key 44) (w 6 key 45) (w 6 key 46) (w 6 key 47),
      vec (w 6 key 48) (w 6 key 49) (w 6 key 50) (w 6 key 51)] ++ rest) := by
    simp only [aes192E, put, rd, List.cons_append, List.nil_append, List.length_cons, List.set_cons_zero, List.set_cons_succ,
      List.getD_cons_zero, List.getD_cons_succ, Option.bind_eq_bind, Option.bind_some, Nat.zero_lt_succ, Nat.succ_lt_succ_iff,
      if_true, pd0, pd1, s7]
  unfold aes192
  simp only [Option.bind_eq_bind]
  rw [hA, Option.bind_some, hB, Option.bind_some, hC, Option.bind_some, hD, Option.bind_some, hE]
  rfl

/-- Both preconditions are met by the standard's example keys, whose first expanded round key is printed in A.1. -/
example : fipsKey128.length = 16 ∧ 11 ≤ (List.replicate 11 ([] : List Byte)).length ∧ roundKey 4 fipsKey128 1 =
    [0xa0, 0xfa, 0xfe, 0x17, 0x88, 0x54, 0x2c, 0xb1, 0x23, 0xa3, 0x39, 0x39, 0x2a, 0x6c, 0x76, 0x05] := by decide +kernel

theorem ctor256_take (junk key : List Byte) (hkey : key.length = 32) :
    (aesCtor 32 junk key).map (List.take 4) =
      some ((List.range 3).map (roundKey 8 key) ++ [key256b (roundKey 8 key 1) (roundKey 8 key 2)]) := by
  have h0 : load128 key 0 = roundKey 8 key (2 * 0) := by
    rw [load_eq key 0 (by omega), roundKey_eq]
    rw [w_key _ _ _ (by omega), w_key _ _ _ (by omega), w_key _ _ _ (by omega), w_key _ _ _ (by omega)]
  have h1 : load128 key 16 = roundKey 8 key (2 * 0 + 1) := by
    rw [load_eq key 4 (by omega), roundKey_eq]
    rw [w_key _ _ _ (by omega), w_key _ _ _ (by omega), w_key _ _ _ (by omega), w_key _ _ _ (by omega)]
  have h2 := step256 key 0 0x01 (by decide)
  simp only [Nat.reduceMul, Nat.reduceAdd] at h0 h1 h2
  show (aes256 (List.replicate 15 junk) key).map _ = _
  generalize hl : List.replicate 15 junk = ks
  have l0 : ks.length = 15 := by rw [← hl, List.length_replicate]
  clear hl
  unfold aes256
  rw [h0, h1]
  refine put_map _ _ _ _ _ (by omega) ?_; intro k0 hk0
  have l1 : k0.length = 15 := by rw [hk0, List.length_set, l0]
  have f0 : rd k0 0 = roundKey 8 key 0 := by rw [hk0, rd_set_eq _ _ _ (by omega)]
  refine put_map _ _ _ _ _ (by omega) ?_; intro k1 hk1
  have l2 : k1.length = 15 := by rw [hk1, List.length_set, l1]
  have f1 : rd k1 1 = roundKey 8 key 1 := by rw [hk1, rd_set_eq _ _ _ (by omega)]
  replace f0 : rd k1 0 = roundKey 8 key 0 := by rw [hk1, rd_set_ne _ _ _ _ (by decide), f0]
  rw [f0, f1, h2]
  refine put_map _ _ _ _ _ (by omega) ?_; intro k2 hk2
  have l3 : k2.length = 15 := by rw [hk2, List.length_set, l2]
  have f2 : rd k2 2 = roundKey 8 key 2 := by rw [hk2, rd_set_eq _ _ _ (by omega)]
  replace f1 : rd k2 1 = roundKey 8 key 1 := by rw [hk2, rd_set_ne _ _ _ _ (by decide), f1]
  rw [f1, f2]
  refine put_map _ _ _ _ _ (by omega) ?_; intro k3 hk3
  have l : k3.length = 15 := by rw [hk3, List.length_set, l3]
  have ht : k3.take 4 = (List.range 3).map (roundKey 8 key) ++ [key256b (roundKey 8 key 1) (roundKey 8 key 2)] := by
    subst hk3 hk2 hk1 hk0
    match ks, l0 with
    | x0 :: x1 :: x2 :: x3 :: rest, _ => rfl
  clear hk3 hk2 hk1 hk0 f0 f1 f2 l1 l2 l3 l0 h0 h1 h2
  iterate 10 (
    refine put_keep _ _ _ _ _ (by omega) (by decide) l ht ?_; clear l ht k3; intro k3 l ht)
  unfold put
  rw [if_pos (by omega), Option.map_some, List.take_set_of_le (by decide), ht]

/-- The 256-bit constructor: for every key its first three round keys are those of FIPS 197. `_partial`: the others are
not (`c65_256_violated`). -/
theorem c65_256_partial (junk key : List Byte) (hkey : key.length = 32) :
    (aesCtor 32 junk key).map (List.take 3) = some ((List.range 3).map (roundKey 8 key)) := by
  have h := congrArg (Option.map (List.take 3)) (ctor256_take junk key hkey)
  rw [Option.map_map] at h
  have e : List.take 3 ∘ List.take 4 = (List.take 3 : List (List Byte) → List (List Byte)) := by
    funext l; simp [List.take_take]
  rw [e] at h
  rw [h]
  rfl

/-- The 256-bit constructor stays inside its array but does not compute the FIPS 197 schedule: round key 3 of the
standard's own example (Appendix A.3) is wrong. -/
theorem c65_256_violated (junk : List Byte) :
    ∃ ks, aesCtor 32 junk fipsKey256 = some ks ∧ ks.getD 3 [] ≠ roundKey 8 fipsKey256 3 := by
  have h := ctor256_take junk fipsKey256 (by decide)
  obtain ⟨ks, h1, h2⟩ := Option.map_eq_some_iff.1 h
  refine ⟨ks, h1, ?_⟩
  have h3 : ks.getD 3 [] = key256b (roundKey 8 fipsKey256 1) (roundKey 8 fipsKey256 2) := by
    have h4 : (ks.take 4).getD 3 [] = ks.getD 3 [] := by
      simp only [List.getD_eq_getElem?_getD, List.getElem?_take]; simp
    rw [← h4, h2]
    rfl
  rw [h3]
  decide +kernel

end Verif.Crypto
