import Verif.Hash.Sha512t
import Verif.Hash.LegacyLemmas
import Verif.Hash.Md5Sine
import Verif.Hash.Counter
import Verif.Hash.CrcLemmas
/-!
# Properties of the hash functions (C22-C28, C54)

A use of a context is: construction or `reset` (the buffer may hold anything), any number of `update`s, `do_final`,
`digest_to_byte_ptr`. The results below hold on little- and big-endian hosts (`native`).
-/
namespace Verif.Hash
open Verif Verif.Hash.Sha2 Verif.Hash.Legacy Verif.Hash.Fips

/-- C22: whatever the compression function, two ways of cutting the same message into `update`s, on contexts whose
buffers hold arbitrary old bytes, lead to the same chaining value; no access leaves the buffer. -/
theorem c22_chunking {S : Type} (native : Bool) (P : Params S) (h : 0 < P.bs) (hcs : P.cs < P.bs) (iv : S)
    (buf buf' : List Nat) (hb : buf.length = P.bs) (hb' : buf'.length = P.bs) (chunks chunks' : List (List Nat))
    (he : chunks.flatten = chunks'.flatten) :
    ∃ s, run native P iv buf chunks = some s ∧ run native P iv buf' chunks' = some s := by
  rw [run_eq native P h hcs iv buf hb chunks, run_eq native P h hcs iv buf' hb' chunks', he]
  exact ⟨_, rfl, rfl⟩

/-- C22 for the digests of every hash of the library. -/
theorem c22_digest (native : Bool) (buf buf' : List Nat) (chunks chunks' : List (List Nat))
    (he : chunks.flatten = chunks'.flatten) (size : Nat) :
    (∀ iv, buf.length = 64 → buf'.length = 64 → ∃ d, digest native (sha256P native) iv size buf chunks = some d ∧
      digest native (sha256P native) iv size buf' chunks' = some d) ∧
    (∀ iv, buf.length = 128 → buf'.length = 128 → ∃ d, digest native (sha512P native) iv size buf chunks = some d ∧
      digest native (sha512P native) iv size buf' chunks' = some d) ∧
    (∀ iv, buf.length = 64 → buf'.length = 64 → ∃ d, digest native (sha1P native) iv size buf chunks = some d ∧
      digest native (sha1P native) iv size buf' chunks' = some d) ∧
    (∀ iv, buf.length = 64 → buf'.length = 64 → ∃ d, digest native (md5P native) iv size buf chunks = some d ∧
      digest native (md5P native) iv size buf' chunks' = some d) := by
  refine ⟨fun iv h1 h2 => ?_, fun iv h1 h2 => ?_, fun iv h1 h2 => ?_, fun iv h1 h2 => ?_⟩
  · obtain ⟨s, e1, e2⟩ := c22_chunking native (sha256P native) (by decide : 0 < 64) (by decide : 8 < 64) iv buf buf' h1 h2 _ _ he
    unfold digest; rw [e1, e2]; exact ⟨_, rfl, rfl⟩
  · obtain ⟨s, e1, e2⟩ := c22_chunking native (sha512P native) (by decide : 0 < 128) (by decide : 16 < 128) iv buf buf' h1 h2 _ _ he
    unfold digest; rw [e1, e2]; exact ⟨_, rfl, rfl⟩
  · obtain ⟨s, e1, e2⟩ := c22_chunking native (sha1P native) (by decide : 0 < 64) (by decide : 8 < 64) iv buf buf' h1 h2 _ _ he
    unfold digest; rw [e1, e2]; exact ⟨_, rfl, rfl⟩
  · obtain ⟨s, e1, e2⟩ := c22_chunking native (md5P native) (by decide : 0 < 64) (by decide : 8 < 64) iv buf buf' h1 h2 _ _ he
    unfold digest; rw [e1, e2]; exact ⟨_, rfl, rfl⟩

-- A toy compression (the list of blocks seen) with 8-byte blocks and a 2-byte length: three cuttings of one message.
example : let P : Params (List (List Nat)) := { bs := 8, cs := 2, big := true, comp := fun s b => s ++ [b] }
    run true P [] (List.replicate 8 99) [[1, 2, 3], [], [4, 5, 6, 7, 8, 9, 10]] =
      some [[1, 2, 3, 4, 5, 6, 7, 8], [9, 10, 0x80, 0, 0, 0, 0, 80]] ∧
    run true P [] (List.replicate 8 7) [[1, 2, 3, 4, 5, 6, 7, 8, 9, 10]] =
      some [[1, 2, 3, 4, 5, 6, 7, 8], [9, 10, 0x80, 0, 0, 0, 0, 80]] := by decide +kernel

/-- C23: the compression function is applied, in order, to exactly the blocks of the padded message (`pad`: the message,
0x80, the smallest number of zeros, the bit length in the hash's byte order), from the initial value. -/
theorem c23_padding {S : Type} (native : Bool) (P : Params S) (h : 0 < P.bs) (hcs : P.cs < P.bs) (iv : S)
    (buf : List Nat) (hb : buf.length = P.bs) (chunks : List (List Nat)) :
    run native P iv buf chunks = some ((blocks P.bs (pad P.bs P.cs P.big chunks.flatten)).foldl P.comp iv) :=
  run_eq native P h hcs iv buf hb chunks

-- The three shapes of the tail: the length fits, just fits, needs another block.
example : pad 8 2 true [1, 2] = [1, 2, 0x80, 0, 0, 0, 0, 16] ∧ pad 8 2 false [1, 2, 3, 4, 5] = [1, 2, 3, 4, 5, 0x80, 40, 0] ∧
    pad 8 2 true [1, 2, 3, 4, 5, 6] = [1, 2, 3, 4, 5, 6, 0x80, 0, 0, 0, 0, 0, 0, 0, 0, 48] := by decide +kernel

/-- C23 without a 128-bit integer: the two-word counter counts modulo 2^128 ... -/
theorem c23_two_word_counter (c : Counter.Two) (hc : c.Ok) (n : Nat) (hn : n < 2 ^ 64) :
    (Counter.advance c n).Ok ∧ (Counter.advance c n).val = (c.val + n) % 2 ^ 128 :=
  ⟨(Counter.advance_spec c n hc hn).2, (Counter.advance_spec c n hc hn).1⟩

/-- ... and the stored length field is the one of the 128-bit counter. -/
theorem c23_two_word_length (native big : Bool) (c : Counter.Two) (hc : c.Ok) (n : Nat) (hn : n < 2 ^ 64) :
    Counter.store native big (Counter.bits c n) =
      if big then beBytes 16 ((c.val + n) * 8) else leBytes 16 ((c.val + n) * 8) := by
  obtain ⟨e, h⟩ := Counter.bits_spec c n hc hn
  rw [Counter.store_spec native big _ h, e, Nat.mod_mul_mod]
  have h1 := beBytes_mod 16 ((c.val + n) * 8)
  have h2 := leBytes_mod 16 ((c.val + n) * 8)
  rw [show 256 ^ 16 = 2 ^ 128 by norm_num] at h1 h2
  rw [h1, h2]

example : Counter.store true true (Counter.bits ⟨2 ^ 64 - 64, 5⟩ 100) =
    beBytes 16 ((5 * 2 ^ 64 + (2 ^ 64 - 64) + 100) * 8) := by decide +kernel

/-! ## The standards -/

/-- C24: SHA-256 (scalar code). -/
theorem c24_sha256 (native : Bool) (buf : List Nat) (hb : buf.length = 64) (chunks : List (List Nat))
    (hch : ∀ c ∈ chunks, ∀ b ∈ c, b < 256) :
    digest native (sha256P native) iv256 32 buf chunks = some (SHA256 chunks.flatten) := by
  rw [iv256_eq, digest_eq native (sha256P native) Fips.sha256 rfl (by decide : 0 < 64) (by decide : 8 < 64) (by decide)
    (fun H b hl hx => comp256 native H b hl hx) ivSha256 32 (by decide) buf hb chunks hch]
  congr 1

/-- C24: SHA-224. -/
theorem c24_sha224 (native : Bool) (buf : List Nat) (hb : buf.length = 64) (chunks : List (List Nat))
    (hch : ∀ c ∈ chunks, ∀ b ∈ c, b < 256) :
    digest native (sha256P native) iv224 28 buf chunks = some (SHA224 chunks.flatten) := by
  rw [iv224_eq, digest_eq native (sha256P native) Fips.sha256 rfl (by decide : 0 < 64) (by decide : 8 < 64) (by decide)
    (fun H b hl hx => comp256 native H b hl hx) ivSha224 28 (by decide) buf hb chunks hch]
  rfl

/-- C25: SHA-512 (scalar code). -/
theorem c25_sha512 (native : Bool) (buf : List Nat) (hb : buf.length = 128) (chunks : List (List Nat))
    (hch : ∀ c ∈ chunks, ∀ b ∈ c, b < 256) :
    digest native (sha512P native) iv512 64 buf chunks = some (SHA512 chunks.flatten) := by
  rw [iv512_eq, digest_eq native (sha512P native) Fips.sha512 rfl (by decide : 0 < 128) (by decide : 16 < 128) (by decide)
    (fun H b hl hx => comp512 native H b hl hx) ivSha512 64 (by decide) buf hb chunks hch]
  congr 1

/-- C25: SHA-384. -/
theorem c25_sha384 (native : Bool) (buf : List Nat) (hb : buf.length = 128) (chunks : List (List Nat))
    (hch : ∀ c ∈ chunks, ∀ b ∈ c, b < 256) :
    digest native (sha512P native) iv384 48 buf chunks = some (SHA384 chunks.flatten) := by
  rw [iv384_eq, digest_eq native (sha512P native) Fips.sha512 rfl (by decide : 0 < 128) (by decide : 16 < 128) (by decide)
    (fun H b hl hx => comp512 native H b hl hx) ivSha384 48 (by decide) buf hb chunks hch]
  rfl

/-- C25: SHA-512/224. -/
theorem c25_sha512_224 (native : Bool) (buf : List Nat) (hb : buf.length = 128) (chunks : List (List Nat))
    (hch : ∀ c ∈ chunks, ∀ b ∈ c, b < 256) :
    digest native (sha512P native) iv512_224 28 buf chunks = some (SHA512_224 chunks.flatten) := by
  rw [iv512_224_eq, digest_eq native (sha512P native) Fips.sha512 rfl (by decide : 0 < 128) (by decide : 16 < 128) (by decide)
    (fun H b hl hx => comp512 native H b hl hx) _ 28 (by decide) buf hb chunks hch]
  rfl

/-- C25: SHA-512/256. -/
theorem c25_sha512_256 (native : Bool) (buf : List Nat) (hb : buf.length = 128) (chunks : List (List Nat))
    (hch : ∀ c ∈ chunks, ∀ b ∈ c, b < 256) :
    digest native (sha512P native) iv512_256 32 buf chunks = some (SHA512_256 chunks.flatten) := by
  rw [iv512_256_eq, digest_eq native (sha512P native) Fips.sha512 rfl (by decide : 0 < 128) (by decide : 16 < 128) (by decide)
    (fun H b hl hx => comp512 native H b hl hx) _ 32 (by decide) buf hb chunks hch]
  rfl

-- The published test vector "abc", fed in two pieces.
example : digest true (sha256P true) iv256 32 (List.replicate 64 0xcc) [[0x61], [0x62, 0x63]] =
    some [0xba, 0x78, 0x16, 0xbf, 0x8f, 0x01, 0xcf, 0xea, 0x41, 0x41, 0x40, 0xde, 0x5d, 0xae, 0x22, 0x23,
      0xb0, 0x03, 0x61, 0xa3, 0x96, 0x17, 0x7a, 0x9c, 0xb4, 0x10, 0xff, 0x61, 0xf2, 0x00, 0x15, 0xad] := by decide +kernel
example : (digest false (sha512P false) iv512 64 (List.replicate 128 0xcc) [[0x61], [0x62, 0x63]]).map (·.take 16) =
    some [0xdd, 0xaf, 0x35, 0xa1, 0x93, 0x61, 0x7a, 0xba, 0xcc, 0x41, 0x73, 0x49, 0xae, 0x20, 0x41, 0x31] := by decide +kernel

theorem take_flatMap_words (wb : Nat) (big : Bool) (l : List Nat) (native : Bool) (h : 0 < wb) :
    digestBytes native wb (l.length * wb) big l = l.flatMap (fun v => if big then beBytes wb v else leBytes wb v) := by
  rw [digestBytes_eq, Nat.mul_div_cancel _ h, Nat.mul_mod_left, List.take_zero, List.append_nil, List.take_length]

/-- C26: SHA-1 (scalar code). -/
theorem c26_sha1 (native : Bool) (buf : List Nat) (hb : buf.length = 64) (chunks : List (List Nat))
    (hch : ∀ c ∈ chunks, ∀ b ∈ c, b < 256) :
    digest native (sha1P native) iv1 20 buf chunks = some (SHA1 chunks.flatten) := by
  unfold digest
  rw [show iv1 = ivSha1.toList from rfl,
    run_eq native (sha1P native) (by decide : 0 < 64) (by decide : 8 < 64) _ buf hb chunks,
    show hashState (sha1P native).bs (sha1P native).cs (sha1P native).big (sha1P native).comp ivSha1.toList chunks.flatten =
      (hashState 64 8 true compress1 ivSha1 chunks.flatten).toList from
      hashState_rep V1.toList 64 8 true (sha1P native).comp compress1 (fun H b hl hx => comp1 native H b hl hx) ivSha1 _
        (flatten_bytes chunks hch)]
  rw [Option.map_some]
  congr 1
  unfold SHA1
  generalize hashState 64 8 true compress1 ivSha1 chunks.flatten = v
  have := take_flatMap_words 4 true (v.toList.map BitVec.toNat) native (by decide)
  rw [show (v.toList.map BitVec.toNat).length * 4 = 20 from rfl] at this
  refine this.trans ?_
  rw [List.flatMap_map]; rfl

example : digest true (sha1P true) iv1 20 (List.replicate 64 0xcc) [[0x61], [0x62, 0x63]] =
    some [0xa9, 0x99, 0x3e, 0x36, 0x47, 0x06, 0x81, 0x6a, 0xba, 0x3e, 0x25, 0x71, 0x78, 0x50, 0xc2, 0x6c,
      0x9c, 0xd0, 0xd8, 0x9d] := by decide +kernel

/-- C27: MD5. -/
theorem c27_md5 (native : Bool) (buf : List Nat) (hb : buf.length = 64) (chunks : List (List Nat))
    (hch : ∀ c ∈ chunks, ∀ b ∈ c, b < 256) :
    digest native (md5P native) iv5 16 buf chunks = some (Rfc1321.MD5 chunks.flatten) := by
  unfold digest
  rw [show iv5 = Rfc1321.iv.toList from rfl,
    run_eq native (md5P native) (by decide : 0 < 64) (by decide : 8 < 64) _ buf hb chunks,
    show hashState (md5P native).bs (md5P native).cs (md5P native).big (md5P native).comp Rfc1321.iv.toList chunks.flatten =
      (hashState 64 8 false Rfc1321.compress Rfc1321.iv chunks.flatten).toList from
      hashState_rep Rfc1321.V.toList 64 8 false (md5P native).comp Rfc1321.compress
        (fun H b hl hx => comp5 native H b hl hx) Rfc1321.iv _ (flatten_bytes chunks hch)]
  rw [Option.map_some]
  congr 1
  unfold Rfc1321.MD5
  generalize hashState 64 8 false Rfc1321.compress Rfc1321.iv chunks.flatten = v
  have := take_flatMap_words 4 false (v.toList.map BitVec.toNat) native (by decide)
  rw [show (v.toList.map BitVec.toNat).length * 4 = 16 from rfl] at this
  refine this.trans ?_
  rw [List.flatMap_map]; rfl

/-- C27: the constants of the specification are those of the sine table. -/
theorem c27_sine_table (i : Nat) (hi : i < 64) :
    ⌊2 ^ 32 * |Real.sin ((i + 1 : Nat) : ℝ)|⌋ = (Rfc1321.T.getD i 0 : Int) := Sine.T_sine i hi

example : digest true (md5P true) iv5 16 (List.replicate 64 0xcc) [[0x61], [0x62, 0x63]] =
    some [0x90, 0x01, 0x50, 0x98, 0x3c, 0xd2, 0x4f, 0xb0, 0xd6, 0x96, 0x3f, 0x7d, 0x28, 0xe1, 0x7f, 0x72] := by
  decide +kernel

/-! ## CRC -/

/-- C28: `crc32_context` computes the IEEE CRC-32 of the concatenation of the updates, as a remainder of polynomials. -/
theorem c28_crc32 (chunks : List (List Nat)) (h : ∀ c ∈ chunks, ∀ b ∈ c, b < 256) :
    Crc.IsCrc Crc.ieee chunks.flatten (Crc.digestValue (Crc.updates Crc.crc32Tb chunks)) := by
  rw [← Crc.generator_ieee]
  exact Crc.isCrc _ _ Crc.table_ieee chunks h

/-- C28: `crc32c_context`, the Castagnoli polynomial. -/
theorem c28_crc32c (chunks : List (List Nat)) (h : ∀ c ∈ chunks, ∀ b ∈ c, b < 256) :
    Crc.IsCrc Crc.castagnoli chunks.flatten (Crc.digestValue (Crc.updates Crc.crc32cTb chunks)) := by
  rw [← Crc.generator_castagnoli]
  exact Crc.isCrc _ _ Crc.table_castagnoli chunks h

/-- C28: the CRC of a message is unique, so the value does not depend on how the message was cut. -/
theorem c28_chunking (tb : List Nat) (chunks chunks' : List (List Nat)) (h : chunks.flatten = chunks'.flatten) :
    Crc.updates tb chunks = Crc.updates tb chunks' := by
  rw [Crc.updates_flatten, Crc.updates_flatten, h]

theorem regPoly_inj (a b : BitVec 32) (h : Crc.regPoly a = Crc.regPoly b) : a = b := by
  apply BitVec.eq_of_getLsbD_eq
  intro i hi
  have := congrArg (fun p => Polynomial.coeff p (31 - i)) h
  simp only [Crc.coeff_regPoly] at this
  rw [show 31 - (31 - i) = i by omega] at this
  have hk : 31 - i < 32 := by omega
  revert this
  cases a.getLsbD i <;> cases b.getLsbD i <;> simp [hk]

/-- The specification determines the value. -/
theorem c28_unique (g : Polynomial (ZMod 2)) (m : List Nat) (v w : BitVec 32) (hv : Crc.IsCrc g m v) (hw : Crc.IsCrc g m w) :
    v = w := by
  have := regPoly_inj _ _ (hv.trans hw.symm)
  exact BitVec.not_inj.mp this

/-- C28: the digest bytes are the value, most significant byte first, on every host. -/
theorem c28_digest_bytes (native : Bool) (crcv : BitVec 32) :
    Crc.digestBytes native crcv = beBytes 4 (Crc.digestValue crcv).toNat := by
  unfold Crc.digestBytes Crc.digestValue
  cases native <;> simp [Lebe.repr, leBytes_byteSwap]

-- The check values of the CRC catalogue: CRC of "123456789".
example : Crc.digestValue (Crc.updates Crc.crc32Tb [[0x31, 0x32, 0x33, 0x34], [0x35, 0x36, 0x37, 0x38, 0x39]]) = 0xcbf43926#32 ∧
    Crc.digestValue (Crc.updates Crc.crc32cTb [[0x31, 0x32, 0x33, 0x34], [0x35, 0x36, 0x37, 0x38, 0x39]]) = 0xe3069283#32 := by
  decide +kernel

/-! ## Constant evaluation -/

/-- C54, what holds: during constant evaluation the chaining values of SHA-1 and SHA-2 are the standard's. -/
theorem c54_state_partial (buf : List Nat) (chunks : List (List Nat)) (hch : ∀ c ∈ chunks, ∀ b ∈ c, b < 256) (native : Bool) :
    (buf.length = 64 → ∀ iv : V 32, run native sha256ConstP iv.toList buf chunks =
      some (hashState 64 8 true (compress Fips.sha256) iv chunks.flatten).toList) ∧
    (buf.length = 128 → ∀ iv : V 64, run native sha512ConstP iv.toList buf chunks =
      some (state512 iv chunks.flatten).toList) ∧
    (buf.length = 64 → run native sha1ConstP iv1 buf chunks =
      some (hashState 64 8 true compress1 ivSha1 chunks.flatten).toList) := by
  refine ⟨fun hb iv => ?_, fun hb iv => ?_, fun hb => ?_⟩
  · rw [run_eq native sha256ConstP (by decide : 0 < 64) (by decide : 8 < 64) _ buf hb chunks]
    exact congrArg some (hashState_rep V.toList 64 8 true sha256ConstP.comp (compress Fips.sha256)
      (fun H b _ hx => comp256c H b hx) iv _ (flatten_bytes chunks hch))
  · rw [run_eq native sha512ConstP (by decide : 0 < 128) (by decide : 16 < 128) _ buf hb chunks]
    exact congrArg some (hashState_rep V.toList 128 16 true sha512ConstP.comp (compress Fips.sha512)
      (fun H b _ hx => comp512c H b hx) iv _ (flatten_bytes chunks hch))
  · rw [run_eq native sha1ConstP (by decide : 0 < 64) (by decide : 8 < 64) _ buf hb chunks]
    exact congrArg some (hashState_rep V1.toList 64 8 true sha1ConstP.comp compress1
      (fun H b _ hx => comp1c H b hx) ivSha1 _ (flatten_bytes chunks hch))

/-- C54 fails: on a little-endian host the digest bytes written during constant evaluation are not those of run time
(the swapped word is computed and dropped, md5_sha_hash_context.h:211-224): SHA-256 of "abc". -/
theorem c54_digest_violated :
    (run true sha256ConstP iv256 (List.replicate 64 0) [[0x61, 0x62, 0x63]]).map
        (fun s => digestBytesConsteval true 4 32 true (s.map BitVec.toNat)) ≠
      digest true (sha256P true) iv256 32 (List.replicate 64 0) [[0x61, 0x62, 0x63]] := by decide +kernel

/-- C54 fails: during constant evaluation MD5 loses the last byte of every word (md5.h:105, a shift of `std::byte` by
24): MD5 of "abcd" has another chaining value. -/
theorem c54_md5_violated :
    run true md5ConstP iv5 (List.replicate 64 0) [[0x61, 0x62, 0x63, 0x64]] ≠
      run true (md5P true) iv5 (List.replicate 64 0) [[0x61, 0x62, 0x63, 0x64]] := by decide +kernel

end Verif.Hash
