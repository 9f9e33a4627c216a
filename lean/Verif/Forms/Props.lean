import Verif.Forms.Model
import Verif.TsText.Props
import Verif.Hash.Props
/-!
# Property C69: bytes, digests, permissions, bit sets and file status as text
-/
namespace Verif.Forms
open Verif Verif.IntPrint Verif.Time

theorem hexLoop_eq (upper : Bool) : ∀ (bs : List Nat) (m : Mem) (p : Nat), (∀ b ∈ bs, b < 256) →
    hexLoop upper bs (m, p) = some (store m p (hexText upper bs), p + (hexText upper bs).length)
  | [], m, p, _ => by simp [hexLoop, hexText]
  | b :: bs, m, p, h => by
    have hb := h b (by simp)
    simp only [hexLoop]
    rw [copyPair_eq 16 upper m p b (by omega), Option.bind_some, hexLoop_eq upper bs _ _ (fun x hx => h x (by simp [hx]))]
    have e : (padded 16 2 b).map (digitChar upper) = [digitChar upper (b / 16), digitChar upper (b % 16)] := by
      simp [padded, Nat.mod_eq_of_lt (show b / 16 < 16 by omega)]
    rw [e, store_store_at _ _ _ _ _ (by simp)]
    simp only [hexText, List.flatMap_cons, List.length_append, Option.some.injEq, Prod.mk.injEq, true_and]
    simp; omega

theorem hexText_length (upper : Bool) (bs : List Nat) : (hexText upper bs).length = 2 * bs.length := by
  induction bs with
  | nil => rfl
  | cons b bs ih => simp only [hexText, List.flatMap_cons, List.length_append] at ih ⊢; rw [ih]; simp; omega

theorem hexText_append (upper : Bool) (a b : List Nat) : hexText upper (a ++ b) = hexText upper a ++ hexText upper b := by
  simp [hexText]

theorem hexText_take (upper : Bool) (bs : List Nat) (k : Nat) : hexText upper (bs.take k) = (hexText upper bs).take (2 * k) := by
  by_cases h : k ≤ bs.length
  · conv_rhs => rw [← List.take_append_drop k bs, hexText_append]
    rw [List.take_append_of_le_length (by rw [hexText_length]; simp; omega), List.take_of_length_le (l := hexText upper (bs.take k)) (by rw [hexText_length, List.length_take]; omega)]
  · rw [List.take_of_length_le (by omega), List.take_of_length_le (by rw [hexText_length]; omega)]

theorem hexText_drop (upper : Bool) (bs : List Nat) (k : Nat) : hexText upper (bs.drop k) = (hexText upper bs).drop (2 * k) := by
  have h := congrArg (List.drop (hexText upper (bs.take k)).length) (hexText_append upper (bs.take k) (bs.drop k))
  rw [List.take_append_drop, List.drop_left] at h
  rw [← h, hexText_length, List.length_take]
  by_cases hk : k ≤ bs.length
  · rw [Nat.min_eq_left hk]
  · rw [List.drop_eq_nil_of_le (by rw [hexText_length]; omega), List.drop_eq_nil_of_le (by rw [hexText_length]; omega)]

/-- **C69**: `hex_encode` writes two hexadecimal digits for every byte and nothing else; the announced size is exact, or the
program terminates because the text would be longer than memory. -/
theorem c69_hex (upper : Bool) (W : Nat) (hW : 0 < W) (bs : List Nat) (h : ∀ b ∈ bs, b < 256) (m : Mem) (p : Nat) :
    hexLoop upper bs (m, p) = some (store m p (hexText upper bs), p + (hexText upper bs).length) ∧
    hexSize W bs.length = if 2 * bs.length < 2 ^ W then some (hexText upper bs).length else none := by
  refine ⟨hexLoop_eq upper bs m p h, ?_⟩
  obtain ⟨k, rfl⟩ : ∃ k, W = k + 1 := ⟨W - 1, by omega⟩
  have hp : 0 < 2 ^ k := by positivity
  unfold hexSize
  rw [hexText_length, pow_succ]
  by_cases h2 : 2 * bs.length < 2 ^ k * 2
  · rw [if_neg (by omega), if_pos h2, Nat.mod_eq_of_lt (by omega), Nat.mul_comm]
  · rw [if_pos (by omega), if_neg h2]

/-- The text determines the bytes. -/
theorem c69_hex_injective (upper : Bool) (a b : List Nat) (ha : ∀ x ∈ a, x < 256) (hb : ∀ x ∈ b, x < 256)
    (h : hexText upper a = hexText upper b) : a = b := by
  induction a generalizing b with
  | nil =>
    cases b with
    | nil => rfl
    | cons y ys => simp [hexText] at h
  | cons x xs ih =>
    cases b with
    | nil => simp [hexText] at h
    | cons y ys =>
      have hinj : ∀ u v : Nat, u < 16 → v < 16 → digitChar upper u = digitChar upper v → u = v := by
        intro u v hu hv
        unfold digitChar
        cases upper <;> simp only [Bool.false_eq_true, if_false, if_true] <;> split_ifs <;> omega
      have hx := ha x (by simp)
      have hy := hb y (by simp)
      simp only [hexText, List.flatMap_cons, List.cons_append, List.nil_append, List.cons.injEq] at h
      have h1 := hinj _ _ (by omega) (by omega) h.1
      have h2 := hinj _ _ (by omega) (by omega) h.2.1
      rw [ih ys (fun z hz => ha z (by simp [hz])) (fun z hz => hb z (by simp [hz])) h.2.2, show x = y by omega]

example : (hexLoop false [0, 255, 0x3c] (fun _ => 0, 5)).map (fun r => (load r.1 5 7, r.2)) = some (ascii "00ff3c" ++ [0], 11) := by decide +kernel

theorem slice_some (l : List Nat) (i n : Nat) (h : i + n ≤ l.length) : slice l i n = some ((l.drop i).take n) := by
  rw [slice, if_pos h]

/-- **C69**: a UUID is written as groups of 8, 4, 4, 4 and 12 digits. -/
theorem c69_uuid (upper : Bool) (u : List Nat) (hl : u.length = 16) (h : ∀ b ∈ u, b < 256) (m : Mem) (p : Nat) :
    printUuid upper u (m, p) = some (store m p (uuidText upper u), p + 36) ∧ (uuidText upper u).length = 36 := by
  have hs : ∀ i n, ∀ b ∈ (u.drop i).take n, b < 256 := fun i n b hb => h b (List.mem_of_mem_drop (List.mem_of_mem_take hb))
  have hn : (uuidText upper u).length = 36 := by
    simp only [uuidText, List.length_append, List.length_take, List.length_drop, List.length_singleton, hexText_length, hl]
    rfl
  refine ⟨?_, hn⟩
  have e : uuidText upper u = hexText upper ((u.drop 0).take 4) ++ [45] ++ hexText upper ((u.drop 4).take 2) ++ [45] ++
      hexText upper ((u.drop 6).take 2) ++ [45] ++ hexText upper ((u.drop 8).take 2) ++ [45] ++ hexText upper ((u.drop 10).take 6) := by
    unfold uuidText
    simp only [hexText_take, hexText_drop]
    rw [List.take_of_length_le (i := 2 * 6) (by rw [List.length_drop, hexText_length]; omega)]
    simp
  simp only [printUuid, uuidLoop, putc, slice_some u 0 4 (by omega), slice_some u 4 2 (by omega), slice_some u 6 2 (by omega),
    slice_some u 8 2 (by omega), slice_some u 10 6 (by omega), Option.bind_eq_bind, Option.bind_some, Nat.reduceAdd]
  rw [hexLoop_eq _ _ _ _ (hs _ _), Option.bind_some]
  simp only []
  rw [hexLoop_eq _ _ _ _ (hs _ _), Option.bind_some]
  simp only []
  rw [hexLoop_eq _ _ _ _ (hs _ _), Option.bind_some]
  simp only []
  rw [hexLoop_eq _ _ _ _ (hs _ _), Option.bind_some]
  rw [Option.bind_some]
  simp only []
  rw [slice_some u 10 6 (by omega), Option.bind_some, hexLoop_eq _ _ _ _ (hs _ _)]
  rw [← hn, e]
  simp only [List.length_append, List.length_singleton]
  simp (disch := first | rfl | (simp only [List.length_append, List.length_singleton]; omega)) only [store_store_at]
  refine congrArg some (Prod.ext rfl ?_)
  simp only [List.length_append, List.length_singleton]
  omega

example : (printUuid false [0x12, 0x3e, 0x45, 0x67, 0xe8, 0x9b, 0x12, 0xd3, 0xa4, 0x56, 0x42, 0x66, 0x14, 0x17, 0x40, 0x00] (fun _ => 0, 0)).map
    (fun r => load r.1 0 r.2) = some (ascii "123e4567-e89b-12d3-a456-426614174000") := by decide +kernel

/-! ## Digests -/

/-- The text of a digest in the three formats. -/
def digestText (f : Format) (d : List Nat) : List Nat := match f with
  | .lower => hexText false d
  | .upper => hexText true d
  | .raw => d

/-- **C69**: a digest is written in the requested format into exactly the announced space. -/
theorem c69_digest (f : Format) (d : List Nat) (h : ∀ b ∈ d, b < 256) (m : Mem) (p : Nat) :
    printDigest f d (m, p) = some (store m p (digestText f d), p + digestReserve f d.length) ∧
    (digestText f d).length = digestReserve f d.length := by
  have hl : (digestText f d).length = digestReserve f d.length := by
    cases f <;> simp [digestText, digestReserve, hexText_length, Nat.mul_comm]
  refine ⟨?_, hl⟩
  rw [← hl]
  cases f
  · exact hexLoop_eq false d m p h
  · exact hexLoop_eq true d m p h
  · rfl

/-- What `hash_compress` writes when it stays inside the range. -/
theorem hashCompress_eq (dig : List (List Nat) → Option (List Nat)) (H : List Nat → List Nat) (hH : ∀ x, (∀ b ∈ x, b < 256) → dig [x] = some (H x))
    (hB : ∀ x, ∀ b ∈ H x, b < 256) (f : Format) (r : Rng) (hr : r.Ok) (hf : f = .lower ∨ r.isByte ∨ r.self = r.elem) (m : Mem) (p : Nat) :
    hashCompress dig f r (m, p) = some (store m p (digestText f (H r.bytes)), p + digestReserve f (H r.bytes).length) := by
  have hlen : compressLen f r = r.bytes.length := by
    unfold compressLen
    rw [hr.1]
    rcases hf with rfl | h | h
    · by_cases hb : r.isByte
      · rw [if_pos hb, hr.2.1 hb, Nat.mul_one]
      · rw [if_neg hb, if_pos rfl]
    · rw [if_pos h, hr.2.1 h, Nat.mul_one]
    · by_cases hb : r.isByte
      · rw [if_pos hb, hr.2.1 hb, Nat.mul_one]
      · rw [if_neg hb, h, ite_self]
  unfold hashCompress
  rw [hlen, slice_some _ _ _ (by omega)]
  simp only [List.drop_zero, List.take_length, Option.bind_eq_bind, Option.bind_some]
  rw [hH _ hr.2.2, Option.bind_some, (c69_digest f _ (hB _) m p).1]

open Verif.Hash Verif.Hash.Sha2 Verif.Hash.Legacy Verif.Hash.Fips

/-- The hash functions whose contexts are modelled (C24-C27). -/
inductive Alg where
  | md5 | sha1 | sha224 | sha256 | sha384 | sha512

/-- The context of the library, from construction over the `update`s to the digest; `old` is what the buffer held before. -/
def Alg.run (native : Bool) (old : List Nat) : Alg → List (List Nat) → Option (List Nat)
  | .md5 => digest native (md5P native) iv5 16 old
  | .sha1 => digest native (sha1P native) iv1 20 old
  | .sha224 => digest native (sha256P native) iv224 28 old
  | .sha256 => digest native (sha256P native) iv256 32 old
  | .sha384 => digest native (sha512P native) iv384 48 old
  | .sha512 => digest native (sha512P native) iv512 64 old

/-- The size of a block. -/
def Alg.block : Alg → Nat
  | .sha384 | .sha512 => 128
  | _ => 64

/-- The function of the standard. -/
def Alg.spec : Alg → List Nat → List Nat
  | .md5 => Rfc1321.MD5
  | .sha1 => SHA1
  | .sha224 => SHA224
  | .sha256 => SHA256
  | .sha384 => SHA384
  | .sha512 => SHA512

theorem Alg.run_eq (a : Alg) (native : Bool) (old : List Nat) (ho : old.length = a.block) (chunks : List (List Nat))
    (h : ∀ c ∈ chunks, ∀ b ∈ c, b < 256) : a.run native old chunks = some (a.spec chunks.flatten) := by
  cases a
  · exact c27_md5 native old ho chunks h
  · exact c26_sha1 native old ho chunks h
  · exact c24_sha224 native old ho chunks h
  · exact c24_sha256 native old ho chunks h
  · exact c25_sha384 native old ho chunks h
  · exact c25_sha512 native old ho chunks h

theorem V8_bytes_lt {w : Nat} (v : Fips.V w) : ∀ b ∈ v.bytes, b < 256 := by
  intro b hb
  unfold Fips.V.bytes at hb
  obtain ⟨x, _, hx⟩ := List.mem_flatMap.mp hb
  exact beBytes_lt _ _ _ hx

theorem Alg.spec_lt (a : Alg) (x : List Nat) : ∀ b ∈ a.spec x, b < 256 := by
  intro b hb
  cases a
  · obtain ⟨v, _, hv⟩ := List.mem_flatMap.mp (show b ∈ Rfc1321.MD5 x from hb); exact leBytes_lt _ _ _ hv
  · obtain ⟨v, _, hv⟩ := List.mem_flatMap.mp (show b ∈ SHA1 x from hb); exact beBytes_lt _ _ _ hv
  · exact V8_bytes_lt _ _ (List.mem_of_mem_take hb)
  · exact V8_bytes_lt _ _ hb
  · exact V8_bytes_lt _ _ (List.mem_of_mem_take hb)
  · exact V8_bytes_lt _ _ hb

/-- **C69** (partial: for the upper case and raw formats only ranges of `std::byte`, see `c69_compress_violated`): printing
`hash_compress<H>(range)` writes the digest of the bytes of the range by the standard. -/
theorem c69_compress_partial (a : Alg) (native : Bool) (old : List Nat) (ho : old.length = a.block) (f : Format) (r : Rng) (hr : r.Ok)
    (hf : f = .lower ∨ r.isByte ∨ r.self = r.elem) (m : Mem) (p : Nat) :
    hashCompress (a.run native old) f r (m, p) =
      some (store m p (digestText f (a.spec r.bytes)), p + digestReserve f (a.spec r.bytes).length) :=
  hashCompress_eq _ a.spec (fun x hx => by simpa using a.run_eq native old ho [x] (by simpa using hx)) a.spec_lt f r hr hf m p

/-- **C69 is false for the upper case and raw formats**: for a `std::string_view` (16 bytes) of `abc`, whatever the hash function,
48 bytes are read from an array of 3. -/
theorem c69_compress_violated (dig : List (List Nat) → Option (List Nat)) (m : Mem) (p : Nat) :
    Rng.Ok ⟨ascii "abc", 3, 1, 16, false⟩ ∧ hashCompress dig .upper ⟨ascii "abc", 3, 1, 16, false⟩ (m, p) = none ∧
    hashCompress dig .raw ⟨ascii "abc", 3, 1, 16, false⟩ (m, p) = none := by
  refine ⟨⟨by decide, by decide, by decide⟩, by rfl, by rfl⟩

example : (hashCompress (Alg.md5.run true (List.replicate 64 7)) .lower ⟨ascii "abc", 3, 1, 16, false⟩ (fun _ => 0, 0)).map
    (fun r => load r.1 0 r.2) = some (ascii "900150983cd24fb0d6963f7d28e17f72") := by decide +kernel

/-- The bytes a call writes to the file. -/
def Call.bytes : Call → List Nat
  | .write bs => bs
  | .scatter parts => parts.flatten

/-- **C69**: a hash context used as an output file hashes the concatenation of everything written, however it is cut into `write`
and `scatter_write` calls. -/
theorem c69_as_file (a : Alg) (native : Bool) (old : List Nat) (ho : old.length = a.block) (calls : List Call)
    (h : ∀ c ∈ calls, ∀ b ∈ c.bytes, b < 256) :
    a.run native old (calls.flatMap Call.updates) = some (a.spec (calls.flatMap Call.bytes)) := by
  have hu : ∀ c : Call, c.updates.flatten = c.bytes := by
    intro c; cases c <;> simp [Call.updates, Call.bytes]
  rw [a.run_eq native old ho]
  · congr 2
    induction calls with
    | nil => rfl
    | cons c cs ih =>
      simp only [List.flatMap_cons, List.flatten_append, hu]
      rw [ih (fun x hx => h x (by simp [hx]))]
  · intro c hc b hb
    obtain ⟨k, hk, hk2⟩ := List.mem_flatMap.mp hc
    exact h k hk b (by rw [← hu]; exact List.mem_flatten.mpr ⟨c, hk2, hb⟩)

example : Alg.md5.run true (List.replicate 64 7) ([Call.write (ascii "a"), Call.scatter [ascii "b", [], ascii "c"]].flatMap Call.updates) =
    some (Alg.md5.spec (ascii "abc")) :=
  c69_as_file .md5 true _ (by simp [Alg.block]) [Call.write (ascii "a"), Call.scatter [ascii "b", [], ascii "c"]] (by
    intro c hc b hb
    simp only [List.mem_cons, List.not_mem_nil, or_false] at hc
    rcases hc with rfl | rfl <;> revert b <;> decide)

/-! ## Permissions and bit sets -/

/-- **C69**: permissions are written as nine characters. -/
theorem c69_perms (p : Nat) (m : Mem) (it : Nat) :
    printPerms p (m, it) = (store m it (permText p), it + permReserve) ∧ (permText p).length = permReserve := by
  refine ⟨?_, by simp [permText, permReserve]⟩
  have hb : ∀ k, (p &&& 2 ^ k = 0) = (p.testBit k = false) := by
    intro k
    rw [Nat.and_two_pow]
    cases p.testBit k <;> simp
  have h0 := hb 0; have h1 := hb 1; have h2 := hb 2; have h3 := hb 3; have h4 := hb 4; have h5 := hb 5
  have h6 := hb 6; have h7 := hb 7; have h8 := hb 8
  norm_num only at h0 h1 h2 h3 h4 h5 h6 h7 h8
  simp only [printPerms, permPut, putc, h0, h1, h2, h3, h4, h5, h6, h7, h8]
  repeat rw [store_store_at _ _ _ _ _ (by simp)]
  have er : List.range 9 = [0, 1, 2, 3, 4, 5, 6, 7, 8] := by decide
  have ea : ascii "rwx" = [114, 119, 120] := by decide
  simp only [permText, er, ea, List.map_cons, List.map_nil, List.append_assoc, List.cons_append, List.nil_append, permReserve]
  cases p.testBit 0 <;> cases p.testBit 1 <;> cases p.testBit 2 <;> cases p.testBit 3 <;> cases p.testBit 4 <;> cases p.testBit 5 <;>
    cases p.testBit 6 <;> cases p.testBit 7 <;> cases p.testBit 8 <;> rfl

example : (printPerms 0o754 (fun _ => 0, 3)).2 = 12 ∧ load (printPerms 0o754 (fun _ => 0, 3)).1 3 9 = ascii "rwxr-xr--" := by decide +kernel

theorem bitText_succ (k v : Nat) : bitText (k + 1) v = bitText k (v / 2) ++ [48 + v % 2] := by
  unfold bitText
  rw [List.range_succ, List.map_append]
  congr 1
  · apply List.map_congr_left
    intro i hi
    rw [List.mem_range] at hi
    rw [show k + 1 - 1 - i = (k - 1 - i) + 1 by omega, Nat.testBit_succ]
  · have : v % 2 = 0 ∨ v % 2 = 1 := by omega
    rcases this with h | h <;> simp [Nat.testBit_zero, h]

theorem bitText_length (k v : Nat) : (bitText k v).length = k := by simp [bitText]

/-- High digits, then low digits. -/
theorem bitText_add (j k v : Nat) : bitText (j + k) v = bitText j (v / 2 ^ k) ++ bitText k v := by
  induction k generalizing v with
  | zero => simp [bitText]
  | succ k ih =>
    rw [← Nat.add_assoc, bitText_succ, ih, bitText_succ, List.append_assoc, Nat.div_div_eq_div_mul, pow_succ, Nat.mul_comm]

theorem bitText_mod (k v : Nat) : bitText k (v % 2 ^ k) = bitText k v := by
  unfold bitText
  apply List.map_congr_left
  intro i hi
  rw [List.mem_range] at hi
  rw [Nat.testBit_mod_two_pow]
  simp [show k - 1 - i < k by omega]

theorem bitsLoop_eq (first : Nat) : ∀ k p m, bitsLoop first k p m = store m first (bitText k p)
  | 0, p, m => by simp [bitsLoop, bitText]
  | k + 1, p, m => by
    simp only [bitsLoop]
    rw [bitsLoop_eq first k, store_store_before _ _ _ _ _ (by rw [bitText_length]), bitText_succ]

theorem ofWords_split (w : Nat) : ∀ (ws : List Nat) (k : Nat) (x : Nat), ws[k]? = some x → (∀ y ∈ ws, y < 2 ^ w) →
    ofWords w ws / 2 ^ (w * k) % 2 ^ w = x
  | [], k, x, h, _ => by simp at h
  | y :: ys, 0, x, h, hy => by
    simp only [List.getElem?_cons_zero, Option.some.injEq] at h
    subst h
    simp only [ofWords, Nat.mul_zero, pow_zero, Nat.div_one, Nat.add_mul_mod_self_left]
    exact Nat.mod_eq_of_lt (hy _ (by simp))
  | y :: ys, k + 1, x, h, hy => by
    simp only [List.getElem?_cons_succ] at h
    rw [ofWords, Nat.mul_add, Nat.mul_one, Nat.add_comm (w * k), pow_add, ← Nat.div_div_eq_div_mul, Nat.add_mul_div_left _ _ (by positivity),
      Nat.div_eq_of_lt (hy y (by simp)), Nat.zero_add]
    exact ofWords_split w ys k x h (fun z hz => hy z (by simp [hz]))

theorem wordsLoop_eq (w : Nat) (ws : List Nat) (hw : ∀ y ∈ ws, y < 2 ^ w) : ∀ (k : Nat) (m : Mem) (p : Nat), k ≤ ws.length →
    wordsLoop w ws k (m, p) = some (store m p (bitText (k * w) (ofWords w ws)), p + k * w)
  | 0, m, p, _ => by simp [wordsLoop, bitText]
  | k + 1, m, p, h => by
    have hx : ws[k]? = some ws[k] := List.getElem?_eq_getElem (by omega)
    simp only [wordsLoop, hx, Option.bind_some]
    rw [bitsLoop_eq, wordsLoop_eq w ws hw k _ _ (by omega), store_store_at _ _ _ _ _ (by rw [bitText_length])]
    have e : bitText w ws[k] = bitText w (ofWords w ws / 2 ^ (k * w)) := by
      rw [← bitText_mod w (ofWords w ws / 2 ^ (k * w)), Nat.mul_comm k w, ofWords_split w ws k _ hx hw]
    rw [e, ← bitText_add, show w + k * w = (k + 1) * w by ring, show p + w + k * w = p + (k + 1) * w by ring]

/-- **C69**: a `std::bitset<n>` is written as its `n` bits, the highest first, reading only its own words; nothing else is written,
and the announced size (`n`) is exact. The bits above `n` in the last word do not matter. -/
theorem c69_bitset (w : Nat) (hw : 0 < w) (ws : List Nat) (h : ∀ y ∈ ws, y < 2 ^ w) (n : Nat) (hn : ws.length = (n + w - 1) / w)
    (m : Mem) (p : Nat) : printBitset w ws n (m, p) = some (store m p (bitText n (ofWords w ws)), p + n) := by
  have hdm := Nat.div_add_mod n w
  have hml := Nat.mod_lt n hw
  unfold printBitset
  by_cases hr : n % w = 0
  · simp only [hr, ne_eq, not_true_eq_false, if_false, Option.bind_eq_bind, Option.bind_some]
    have hle : n / w ≤ ws.length := by
      rw [hn]; exact Nat.div_le_div_right (by omega)
    rw [wordsLoop_eq w ws h _ _ _ hle]
    have : n / w * w = n := by rw [Nat.mul_comm]; omega
    rw [this]
  · have hlt : n / w < ws.length := by
      rw [hn, Nat.lt_iff_add_one_le, Nat.le_div_iff_mul_le hw]
      have : (n / w + 1) * w = w * (n / w) + w := by ring
      omega
    have hx : ws[n / w]? = some ws[n / w] := List.getElem?_eq_getElem hlt
    simp only [ne_eq, hr, not_false_eq_true, if_true, hx, Option.map_some, Option.bind_eq_bind, Option.bind_some]
    rw [bitsLoop_eq, wordsLoop_eq w ws h _ _ _ (by omega), store_store_at _ _ _ _ _ (by rw [bitText_length])]
    have e : bitText (n % w) ws[n / w] = bitText (n % w) (ofWords w ws / 2 ^ (n / w * w)) := by
      have hs := ofWords_split w ws (n / w) _ hx h
      rw [Nat.mul_comm w] at hs
      rw [← hs, ← bitText_mod (n % w) (ofWords w ws / 2 ^ (n / w * w)), ← bitText_mod (n % w) (_ % 2 ^ w),
        Nat.mod_mod_of_dvd _ (pow_dvd_pow 2 hml.le)]
    have hsum : n % w + n / w * w = n := by rw [Nat.mul_comm]; omega
    rw [e, ← bitText_add, hsum, Nat.add_assoc, hsum]

/-- Hypotheses met: 70 bits in words of 64. -/
example : (printBitset 64 [1, 2 ^ 63 + 5] 70 (fun _ => 0, 0)).map (fun r => (load r.1 0 9, load r.1 66 5, r.2)) =
    some (ascii "000101000", ascii "0001" ++ [0], 70) := by decide +kernel

/-! ## File status -/

/-- **C69**: a file type is written as its name, within the announced 20 characters, and different types have different names. -/
theorem c69_file_type (t : FileType) : fileTypeText t.code = ascii t.name ∧ (ascii t.name).length ≤ fileTypeReserve ∧
    ∀ u : FileType, ascii u.name = ascii t.name → u = t := by
  cases t <;> refine ⟨by decide, by decide, ?_⟩ <;> intro u <;> cases u <;> decide

theorem puts_num (n : Nat) (h : n < 2 ^ 64) (l : List Nat) (m : Mem) (p : Nat) :
    putNum n (lit l (m, p)) = some (store m p (l ++ decText n), p + (l ++ decText n).length) := by
  have := printInt_eq 64 (by simp [Width]) false {} rfl (by norm_num) (by norm_num) (by intro h; simp at h) (n : Int)
    (by simp only [InRange, Bool.false_eq_true, if_false]; norm_num at h ⊢; omega) (store m p l) (p + l.length)
  simp only [putNum, lit]
  rw [this]
  simp only []
  rw [store_store_append]
  have e : signText false (n : Int) = [] := by
    rw [TsText.signText_eq]; simp
  simp [e, decText, Nat.add_assoc]

theorem decText_len (n : Nat) (h : n < 2 ^ 64) : (decText n).length ≤ reserveSize 64 false 10 false false := by
  rw [decText, List.length_map]
  refine le_trans (numeral_length_le (by norm_num) 20 n (by norm_num) |>.mpr (by norm_num at h ⊢; omega)) (by decide +kernel)

theorem puts_time (t : TS) (ht : t.Ok) : ∃ txt, TsText.DecimalText [46] txt t.val ∧ txt.length ≤ TsText.tsReserve ∧
    ∀ l m p, putTime t (lit l (m, p)) = some (store m p (l ++ txt), p + (l ++ txt).length) := by
  obtain ⟨fs, f1, f2, f3, f4, f5, f6⟩ := TsText.print_text t ht
  obtain ⟨txt, d1, d2⟩ := TsText.c68_print t ht (fun _ => 0) 0
  obtain ⟨m', e, g1, g2, _⟩ := TsText.c68_fits t ht (fun _ => 0) 0
  have h6 := f6 (fun _ => 0) 0
  simp only [] at h6
  rw [d2] at g1
  have hl : txt.length ≤ TsText.tsReserve := by
    have := congrArg Prod.snd (Option.some.inj g1); simp only at this; omega
  have hs : ∀ l : List Nat, load (store (fun _ => 0) 0 l) 0 l.length = l := by
    intro l
    apply List.ext_getElem
    · simp [load]
    · intro i h1 h2
      simp [load, store_apply, h2]
  rw [d2] at h6
  have h7 := Option.some.inj h6
  have e1 := congrArg Prod.fst h7
  have e2 := congrArg Prod.snd h7
  simp only [Nat.zero_add] at e1 e2
  have e3 : txt = signText false t.sec ++ TsText.chars (numeral 10 t.sec.natAbs) ++ (if fs = [] then [] else [46] ++ TsText.chars fs) := by
    rw [← hs txt, e1, e2, hs]
  refine ⟨txt, d1, hl, fun l m p => ?_⟩
  have := f6 (store m p l) (p + l.length)
  simp only [] at this
  rw [← e3] at this
  simp only [putTime, lit]
  rw [this, store_store_append]
  simp [Nat.add_assoc]

theorem merge (m : Mem) (p : Nat) (a b : List Nat) : ((store (store m p a) (p + a.length) b, p + a.length + b.length) : Mem × Nat) =
    (store m p (a ++ b), p + (a ++ b).length) := by
  rw [store_store_append, List.length_append, Nat.add_assoc]

theorem puts_perm (p : Nat) (l : List Nat) (m : Mem) (it : Nat) :
    printPerms p (lit l (m, it)) = (store m it (l ++ permText p), it + (l ++ permText p).length) := by
  rw [lit, (c69_perms p _ _).1, store_store_append]
  simp [Nat.add_assoc, (c69_perms p m it).2]

theorem puts_type (t : FileType) (l : List Nat) (m : Mem) (it : Nat) :
    lit (fileTypeText t.code) (lit l (m, it)) = (store m it (l ++ ascii t.name), it + (l ++ ascii t.name).length) := by
  rw [lit, lit, (c69_file_type t).1]
  simp only []
  rw [store_store_append]
  simp [Nat.add_assoc]

set_option maxHeartbeats 1000000 in
/-- **C69**: a file status is written as one line per field, within the announced space. -/
theorem c69_status (st : Status) (hnum : ∀ n ∈ [st.dev, st.ino, st.nlink, st.uid, st.gid, st.rdev, st.size, st.blksize, st.blocks, st.flags, st.gen], n < 2 ^ 64)
    (htime : ∀ t ∈ [st.atim, st.mtim, st.ctim, st.btim], t.Ok) (m : Mem) (p : Nat) :
    ∃ txt, Lines [("dev", (.num st.dev)), ("ino", (.num st.ino)), ("perm", (.perm st.perm)), ("type", (.type st.type)), ("nlink", (.num st.nlink)), ("uid", (.num st.uid)), ("gid", (.num st.gid)), ("rdev", (.num st.rdev)), ("size", (.num st.size)), ("blksize", (.num st.blksize)), ("blocks", (.num st.blocks)), ("atim", (.time st.atim)), ("mtim", (.time st.mtim)), ("ctim", (.time st.ctim)), ("btim", (.time st.btim)), ("flags", (.num st.flags)), ("gen", (.num st.gen))] txt ∧
      printStatus st (m, p) = some (store m p txt, p + txt.length) ∧ txt.length ≤ statusReserve := by
  have n_dev := hnum st.dev (by simp)
  have n_ino := hnum st.ino (by simp)
  have n_nlink := hnum st.nlink (by simp)
  have n_uid := hnum st.uid (by simp)
  have n_gid := hnum st.gid (by simp)
  have n_rdev := hnum st.rdev (by simp)
  have n_size := hnum st.size (by simp)
  have n_blksize := hnum st.blksize (by simp)
  have n_blocks := hnum st.blocks (by simp)
  have n_flags := hnum st.flags (by simp)
  have n_gen := hnum st.gen (by simp)
  obtain ⟨t_atim, d_atim, l_atim, w_atim⟩ := puts_time st.atim (htime st.atim (by simp))
  obtain ⟨t_mtim, d_mtim, l_mtim, w_mtim⟩ := puts_time st.mtim (htime st.mtim (by simp))
  obtain ⟨t_ctim, d_ctim, l_ctim, w_ctim⟩ := puts_time st.ctim (htime st.ctim (by simp))
  obtain ⟨t_btim, d_btim, l_btim, w_btim⟩ := puts_time st.btim (htime st.btim (by simp))
  have a_dev : ascii "dev:" = ascii "dev" ++ [58] := by decide
  have a_ino : ascii "\nino:" = [10] ++ (ascii "ino" ++ [58]) := by decide
  have a_perm : ascii "\nperm:" = [10] ++ (ascii "perm" ++ [58]) := by decide
  have a_type : ascii "\ntype:" = [10] ++ (ascii "type" ++ [58]) := by decide
  have a_nlink : ascii "\nnlink:" = [10] ++ (ascii "nlink" ++ [58]) := by decide
  have a_uid : ascii "\nuid:" = [10] ++ (ascii "uid" ++ [58]) := by decide
  have a_gid : ascii "\ngid:" = [10] ++ (ascii "gid" ++ [58]) := by decide
  have a_rdev : ascii "\nrdev:" = [10] ++ (ascii "rdev" ++ [58]) := by decide
  have a_size : ascii "\nsize:" = [10] ++ (ascii "size" ++ [58]) := by decide
  have a_blksize : ascii "\nblksize:" = [10] ++ (ascii "blksize" ++ [58]) := by decide
  have a_blocks : ascii "\nblocks:" = [10] ++ (ascii "blocks" ++ [58]) := by decide
  have a_atim : ascii "\natim:" = [10] ++ (ascii "atim" ++ [58]) := by decide
  have a_mtim : ascii "\nmtim:" = [10] ++ (ascii "mtim" ++ [58]) := by decide
  have a_ctim : ascii "\nctim:" = [10] ++ (ascii "ctim" ++ [58]) := by decide
  have a_btim : ascii "\nbtim:" = [10] ++ (ascii "btim" ++ [58]) := by decide
  have a_flags : ascii "\nflags:" = [10] ++ (ascii "flags" ++ [58]) := by decide
  have a_gen : ascii "\ngen:" = [10] ++ (ascii "gen" ++ [58]) := by decide
  refine ⟨_, (Lines.cons _ _ _ _ _ rfl (Lines.cons _ _ _ _ _ rfl (Lines.cons _ _ _ _ _ rfl (Lines.cons _ _ _ _ _ rfl (Lines.cons _ _ _ _ _ rfl (Lines.cons _ _ _ _ _ rfl (Lines.cons _ _ _ _ _ rfl (Lines.cons _ _ _ _ _ rfl (Lines.cons _ _ _ _ _ rfl (Lines.cons _ _ _ _ _ rfl (Lines.cons _ _ _ _ _ rfl (Lines.cons _ _ _ _ _ d_atim (Lines.cons _ _ _ _ _ d_mtim (Lines.cons _ _ _ _ _ d_ctim (Lines.cons _ _ _ _ _ d_btim (Lines.cons _ _ _ _ _ rfl (Lines.one _ _ _ rfl))))))))))))))))), ?_, ?_⟩
  · unfold printStatus
    simp only [Option.bind_eq_bind]
    rw [puts_num st.dev n_dev (ascii "dev:"), Option.bind_some]
    rw [puts_num st.ino n_ino (ascii "\nino:"), Option.bind_some, merge]
    rw [puts_perm, merge]
    rw [puts_type, merge]
    rw [puts_num st.nlink n_nlink (ascii "\nnlink:"), Option.bind_some, merge]
    rw [puts_num st.uid n_uid (ascii "\nuid:"), Option.bind_some, merge]
    rw [puts_num st.gid n_gid (ascii "\ngid:"), Option.bind_some, merge]
    rw [puts_num st.rdev n_rdev (ascii "\nrdev:"), Option.bind_some, merge]
    rw [puts_num st.size n_size (ascii "\nsize:"), Option.bind_some, merge]
    rw [puts_num st.blksize n_blksize (ascii "\nblksize:"), Option.bind_some, merge]
    rw [puts_num st.blocks n_blocks (ascii "\nblocks:"), Option.bind_some, merge]
    rw [w_atim (ascii "\natim:"), Option.bind_some, merge]
    rw [w_mtim (ascii "\nmtim:"), Option.bind_some, merge]
    rw [w_ctim (ascii "\nctim:"), Option.bind_some, merge]
    rw [w_btim (ascii "\nbtim:"), Option.bind_some, merge]
    rw [puts_num st.flags n_flags (ascii "\nflags:"), Option.bind_some, merge]
    rw [puts_num st.gen n_gen (ascii "\ngen:"), merge]
    simp only [a_dev, a_ino, a_perm, a_type, a_nlink, a_uid, a_gid, a_rdev, a_size, a_blksize, a_blocks, a_atim, a_mtim, a_ctim, a_btim, a_flags, a_gen, List.append_assoc]
  · simp only [List.length_append]
    have k_dev := decText_len st.dev n_dev
    have k_ino := decText_len st.ino n_ino
    have k_nlink := decText_len st.nlink n_nlink
    have k_uid := decText_len st.uid n_uid
    have k_gid := decText_len st.gid n_gid
    have k_rdev := decText_len st.rdev n_rdev
    have k_size := decText_len st.size n_size
    have k_blksize := decText_len st.blksize n_blksize
    have k_blocks := decText_len st.blocks n_blocks
    have k_flags := decText_len st.flags n_flags
    have k_gen := decText_len st.gen n_gen
    have k_perm := (c69_perms st.perm m p).2
    have k_type := (c69_file_type st.type).2.1
    have z_dev : (ascii "dev").length = 3 := by decide
    have z_ino : (ascii "ino").length = 3 := by decide
    have z_perm : (ascii "perm").length = 4 := by decide
    have z_type : (ascii "type").length = 4 := by decide
    have z_nlink : (ascii "nlink").length = 5 := by decide
    have z_uid : (ascii "uid").length = 3 := by decide
    have z_gid : (ascii "gid").length = 3 := by decide
    have z_rdev : (ascii "rdev").length = 4 := by decide
    have z_size : (ascii "size").length = 4 := by decide
    have z_blksize : (ascii "blksize").length = 7 := by decide
    have z_blocks : (ascii "blocks").length = 6 := by decide
    have z_atim : (ascii "atim").length = 4 := by decide
    have z_mtim : (ascii "mtim").length = 4 := by decide
    have z_ctim : (ascii "ctim").length = 4 := by decide
    have z_btim : (ascii "btim").length = 4 := by decide
    have z_flags : (ascii "flags").length = 5 := by decide
    have z_gen : (ascii "gen").length = 3 := by decide
    have hr : statusReserve = reserveSize 64 false 10 false false * 11 + 104 + permReserve + fileTypeReserve + TsText.tsReserve * 4 := by decide +kernel
    rw [hr]
    generalize reserveSize 64 false 10 false false = R at *
    generalize TsText.tsReserve = T at *
    clear hr n_dev n_ino n_nlink n_uid n_gid n_rdev n_size n_blksize n_blocks n_flags n_gen hnum htime
    simp only [List.length_cons, List.length_nil, z_dev, z_ino, z_perm, z_type, z_nlink, z_uid, z_gid, z_rdev, z_size, z_blksize, z_blocks, z_atim, z_mtim, z_ctim, z_btim, z_flags, z_gen, k_perm, permReserve, fileTypeReserve] at k_type ⊢
    generalize (ascii st.type.name).length = A at k_type ⊢
    generalize (decText st.dev).length = x_dev at k_dev ⊢
    generalize (decText st.ino).length = x_ino at k_ino ⊢
    generalize (decText st.nlink).length = x_nlink at k_nlink ⊢
    generalize (decText st.uid).length = x_uid at k_uid ⊢
    generalize (decText st.gid).length = x_gid at k_gid ⊢
    generalize (decText st.rdev).length = x_rdev at k_rdev ⊢
    generalize (decText st.size).length = x_size at k_size ⊢
    generalize (decText st.blksize).length = x_blksize at k_blksize ⊢
    generalize (decText st.blocks).length = x_blocks at k_blocks ⊢
    generalize (decText st.flags).length = x_flags at k_flags ⊢
    generalize (decText st.gen).length = x_gen at k_gen ⊢
    clear z_dev z_ino z_perm z_type z_nlink z_uid z_gid z_rdev z_size z_blksize z_blocks z_atim z_mtim z_ctim z_btim z_flags z_gen a_dev a_ino a_perm a_type a_nlink a_uid a_gid a_rdev a_size a_blksize a_blocks a_atim a_mtim a_ctim a_btim a_flags a_gen k_perm w_atim w_mtim w_ctim w_btim d_atim d_mtim d_ctim d_btim
    linarith

/-- Hypotheses met. -/
def exampleStatus : Status := ⟨2049, 131, 0o644, .regular, 1, 1000, 1000, 0, 2 ^ 64 - 1, 4096, 8, ⟨5, 0⟩, ⟨5, 5000000000000000000⟩, ⟨-3, 0⟩, ⟨0, 0⟩, 0, 0⟩

example : (∀ n ∈ [exampleStatus.dev, exampleStatus.ino, exampleStatus.nlink, exampleStatus.uid, exampleStatus.gid, exampleStatus.rdev,
      exampleStatus.size, exampleStatus.blksize, exampleStatus.blocks, exampleStatus.flags, exampleStatus.gen], n < 2 ^ 64) ∧
    (∀ t ∈ [exampleStatus.atim, exampleStatus.mtim, exampleStatus.ctim, exampleStatus.btim], t.Ok) ∧
    (printStatus exampleStatus (fun _ => 0, 0)).map (fun r => load r.1 0 r.2) = some (ascii ("dev:2049\nino:131\nperm:rw-r--r--\ntype:regular\n" ++
      "nlink:1\nuid:1000\ngid:1000\nrdev:0\nsize:18446744073709551615\nblksize:4096\nblocks:8\natim:5\nmtim:5.5\nctim:-3\nbtim:0\nflags:0\ngen:0")) := by
  refine ⟨by decide, ?_, by decide +kernel⟩
  intro t ht
  simp only [exampleStatus, List.mem_cons, List.not_mem_nil, or_false] at ht
  rcases ht with rfl | rfl | rfl | rfl <;> norm_num [TS.Ok, S]

end Verif.Forms
