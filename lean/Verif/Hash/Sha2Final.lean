import Verif.Hash.Sha2Lemmas
/-!
# From blocks to digests
-/
namespace Verif.Hash.Sha2
open Verif Verif.Hash Verif.Hash.Fips

theorem W_congr {w : Nat} (F : Sha2 w) (M M' : Nat → BitVec w) (h : ∀ i, i < 16 → M i = M' i) (t : Nat) :
    W F M t = W F M' t := by
  induction t using Nat.strong_induction_on with
  | _ t ih =>
    rw [W.eq_1 F M t, W.eq_1 F M' t]
    split
    · rename_i ht; exact h t ht
    · rename_i ht
      rw [ih (t - 2) (by omega), ih (t - 7) (by omega), ih (t - 15) (by omega), ih (t - 16) (by omega)]

theorem rounds_congr {w : Nat} (F : Sha2 w) (M M' : Nat → BitVec w) (h : ∀ i, i < 16 → M i = M' i) (H : V w) (t : Nat) :
    rounds F M H t = rounds F M' H t := by
  induction t with
  | zero => rfl
  | succ t ih => rw [rounds, rounds, ih, W_congr F M M' h t]

theorem loadWord_eq (native : Bool) (w : Nat) (block : List Nat) (i : Nat) (hb : ∀ b ∈ block, b < 256)
    (hl : i * (w / 8) + w / 8 ≤ block.length) : loadWord native true w block i = word w block i := by
  unfold loadWord word
  have hlen : ((block.drop (i * (w / 8))).take (w / 8)).length = w / 8 := by simp; omega
  have hbt : ∀ b ∈ (block.drop (i * (w / 8))).take (w / 8), b < 256 :=
    fun b hm => hb b (List.mem_of_mem_drop (List.mem_of_mem_take hm))
  cases native
  · simp [Lebe.ofRepr]
  · simp only [Lebe.ofRepr, if_true]
    have := byteSwap_ofLe _ hbt
    rw [hlen] at this
    rw [this]

theorem ofBe_cons (b : Nat) (l : List Nat) : ofBe (b :: l) = b * 256 ^ l.length + ofBe l := by
  rw [ofBe, ofBe, List.reverse_cons, ofLe_append, List.length_reverse]; simp [ofLe]; ring

theorem shl_or (w n b : Nat) (hb : b < 256) :
    ((BitVec.ofNat w n) <<< 8) ||| BitVec.ofNat w b = BitVec.ofNat w (n * 256 + b) := by
  have h1 : (BitVec.ofNat w n) <<< 8 = BitVec.ofNat w (n * 256) := by
    apply BitVec.eq_of_toNat_eq
    simp [BitVec.toNat_shiftLeft, Nat.shiftLeft_eq]
  have h2 : n * 256 + b = n * 256 ||| b := by
    have := Nat.shiftLeft_add_eq_or_of_lt (show b < 2 ^ 8 by simpa using hb) n
    rwa [Nat.shiftLeft_eq] at this
  rw [h1, h2]
  apply BitVec.eq_of_toNat_eq
  simp [Nat.or_mod_two_pow]

theorem constWord_fold (w : Nat) : ∀ (l : List Nat) (n : Nat), (∀ b ∈ l, b < 256) →
    l.foldl (fun (v : BitVec w) b => (v <<< 8) ||| BitVec.ofNat w b) (BitVec.ofNat w n) = BitVec.ofNat w (n * 256 ^ l.length + ofBe l)
  | [], n, _ => by simp [ofBe, ofLe]
  | b :: l, n, h => by
    rw [List.foldl_cons, shl_or w n b (h b (by simp)), constWord_fold w l _ (fun x hx => h x (by simp [hx])), ofBe_cons,
      List.length_cons, Nat.pow_succ]
    congr 1; ring

theorem constWord_eq (w : Nat) (block : List Nat) (i : Nat) (hb : ∀ b ∈ block, b < 256) :
    constWord w block i = word w block i := by
  have hbt : ∀ b ∈ (block.drop (i * (w / 8))).take (w / 8), b < 256 :=
    fun b hm => hb b (List.mem_of_mem_drop (List.mem_of_mem_take hm))
  have := constWord_fold w ((block.drop (i * (w / 8))).take (w / 8)) 0 hbt
  rw [Nat.zero_mul, Nat.zero_add] at this
  exact this

theorem mem_blocks (bs : Nat) (p b : List Nat) (hb : b ∈ blocks bs p) : b.length = bs ∧ ∀ x ∈ b, x ∈ p := by
  simp only [blocks, List.mem_map, List.mem_range] at hb
  obtain ⟨i, hi, rfl⟩ := hb
  have hle : i * bs + bs ≤ p.length := by
    have h2 : (i + 1) * bs ≤ p.length / bs * bs := Nat.mul_le_mul_right _ hi
    have := Nat.div_mul_le_self p.length bs
    rw [Nat.add_mul] at h2; omega
  exact ⟨by simp; omega, fun x hx => List.mem_of_mem_drop (List.mem_of_mem_take hx)⟩

theorem pad_bytes (bs cs : Nat) (big : Bool) (m : List Nat) (hm : ∀ b ∈ m, b < 256) : ∀ b ∈ pad bs cs big m, b < 256 := by
  intro b hb
  simp only [pad, List.mem_append, List.mem_singleton, List.mem_replicate] at hb
  rcases hb with ((hb | hb) | hb) | hb
  · exact hm b hb
  · omega
  · omega
  · cases big
    · exact leBytes_lt _ _ b (by simpa using hb)
    · exact beBytes_lt _ _ b (by simpa using hb)

/-- Two compression functions that agree (through a representation `rep`) on blocks of bytes give the same hash. -/
theorem hashState_rep {S T : Type} (rep : T → S) (bs cs : Nat) (big : Bool) (f : S → List Nat → S) (g : T → List Nat → T)
    (h : ∀ t b, b.length = bs → (∀ x ∈ b, x < 256) → f (rep t) b = rep (g t b)) (iv : T) (m : List Nat)
    (hm : ∀ b ∈ m, b < 256) : hashState bs cs big f (rep iv) m = rep (hashState bs cs big g iv m) := by
  unfold hashState
  have hb : ∀ b ∈ blocks bs (pad bs cs big m), b.length = bs ∧ ∀ x ∈ b, x < 256 := fun b hb =>
    ⟨(mem_blocks _ _ b hb).1, fun x hx => pad_bytes bs cs big m hm x ((mem_blocks _ _ b hb).2 x hx)⟩
  revert hb iv
  generalize blocks bs (pad bs cs big m) = l
  induction l with
  | nil => intro iv _; rfl
  | cons b l ih =>
    intro iv hb
    rw [List.foldl_cons, List.foldl_cons, h iv b (hb b (by simp)).1 (hb b (by simp)).2]
    exact ih _ (fun b' hb' => hb b' (by simp [hb']))

theorem flatten_bytes (chunks : List (List Nat)) (h : ∀ c ∈ chunks, ∀ b ∈ c, b < 256) : ∀ b ∈ chunks.flatten, b < 256 := by
  intro b hb
  obtain ⟨c, hc, hbc⟩ := List.mem_flatten.mp hb
  exact h c hc b hbc

theorem compress_eq {w : Nat} (F : Sha2 w) (H : V w) (block : List Nat) (M : Nat → BitVec w)
    (h : ∀ i, i < 16 → M i = word w block i) :
    (let v := rounds F M H F.rounds
     (⟨v.a + H.a, v.b + H.b, v.c + H.c, v.d + H.d, v.e + H.e, v.f + H.f, v.g + H.g, v.h + H.h⟩ : V w)) =
      compress F H block := by
  unfold compress
  rw [rounds_congr F M _ h]

/-- Truncated digest bytes. -/
theorem digest_bytes_eq {w : Nat} (native : Bool) (size : Nat) (v : V w) (hw : 0 < w / 8) (hs : size ≤ 8 * (w / 8)) :
    digestBytes native (w / 8) size true (v.toList.map BitVec.toNat) = v.bytes.take size := by
  rw [digestBytes_eq]
  simp only [if_true]
  have key : ∀ (l : List Nat) (n : Nat), n ≤ l.length * (w / 8) →
      (l.take (n / (w / 8))).flatMap (fun v => beBytes (w / 8) v) ++
        (beBytes (w / 8) (l.getD (n / (w / 8)) 0)).take (n % (w / 8)) =
      (l.flatMap (fun v => beBytes (w / 8) v)).take n := by
    intro l
    induction l with
    | nil =>
      intro n hn
      have : n = 0 := by simpa using hn
      subst this; simp
    | cons x l ih =>
      intro n hn
      rw [List.flatMap_cons]
      by_cases h : n < w / 8
      · rw [Nat.div_eq_of_lt h, Nat.mod_eq_of_lt h, List.take_append_of_le_length (by simp; omega)]
        simp
      · have h1 : n / (w / 8) = (n - w / 8) / (w / 8) + 1 := by
          rw [Nat.div_eq (n), if_pos ⟨hw, by omega⟩]
        have h2 : n % (w / 8) = (n - w / 8) % (w / 8) := by
          conv_lhs => rw [Nat.mod_eq, if_pos ⟨hw, by omega⟩]
        have := ih (n - w / 8) (by rw [List.length_cons, Nat.succ_mul] at hn; omega)
        rw [h1, h2, List.take_succ_cons, List.flatMap_cons, List.getD_cons_succ, List.append_assoc, this,
          List.take_append, List.take_of_length_le (i := n) (by simp; omega)]
        simp
  rw [key _ _ (by simpa [V.toList] using hs)]
  simp [V.bytes, List.flatMap_map]

theorem K256_eq : K256 = Fips.sha256.K := by decide +kernel
theorem K512_eq : K512 = Fips.sha512.K := by decide +kernel
theorem lines256_eq : sha256Lines = stdLines ∧ sha256Lines0 = stdLines0 K256 := by decide +kernel
theorem lines512_eq : sha512Lines = stdLines ∧ sha512Lines0 = stdLines0 K512 := by decide +kernel
theorem K256_length : Fips.sha256.K.length = 64 := by rw [← K256_eq]; rfl
theorem K512_length : Fips.sha512.K.length = 80 := by rw [← K512_eq]; rfl

theorem rounds256 : Fips.sha256.rounds = Fips.sha256.K.length := by rw [K256_length]; rfl
theorem rounds512 : Fips.sha512.rounds = Fips.sha512.K.length := by rw [K512_length]; rfl

theorem comp256 (native : Bool) (H : V 32) (b : List Nat) (hl : b.length = 64) (hb : ∀ x ∈ b, x < 256) :
    (sha256P native).comp H.toList b = (compress Fips.sha256 H b).toList := by
  have e : (sha256P native).comp = runtimeBlock native alg256 Fips.sha256.K (stdLines0 Fips.sha256.K) stdLines := by
    rw [sha256P]; simp only; rw [lines256_eq.1, lines256_eq.2, K256_eq]
  rw [e]
  exact (runtimeBlock_eq native alg256 Fips.sha256 agree256 (by rw [K256_length]) (by rw [K256_length]; decide)
      rounds256 H b _ rfl).trans
    (congrArg V.toList (compress_eq Fips.sha256 H b _ (fun i hi => loadWord_eq native 32 b i hb (by rw [hl]; omega))))

theorem comp512 (native : Bool) (H : V 64) (b : List Nat) (hl : b.length = 128) (hb : ∀ x ∈ b, x < 256) :
    (sha512P native).comp H.toList b = (compress Fips.sha512 H b).toList := by
  have e : (sha512P native).comp = runtimeBlock native alg512 Fips.sha512.K (stdLines0 Fips.sha512.K) stdLines := by
    rw [sha512P]; simp only; rw [lines512_eq.1, lines512_eq.2, K512_eq]
  rw [e]
  exact (runtimeBlock_eq native alg512 Fips.sha512 agree512 (by rw [K512_length]) (by rw [K512_length]; decide)
      rounds512 H b _ rfl).trans
    (congrArg V.toList (compress_eq Fips.sha512 H b _ (fun i hi => loadWord_eq native 64 b i hb (by rw [hl]; omega))))

theorem comp256c (H : V 32) (b : List Nat) (hb : ∀ x ∈ b, x < 256) :
    sha256ConstP.comp H.toList b = (compress Fips.sha256 H b).toList := by
  show constBlock alg256 K256 (constWord 32 b) H.toList = _
  rw [K256_eq]
  exact (constBlock_eq alg256 Fips.sha256 agree256 (by rw [K256_length]; decide) rounds256 H _).trans
    (congrArg V.toList (compress_eq Fips.sha256 H b _ (fun i _ => constWord_eq 32 b i hb)))

theorem comp512c (H : V 64) (b : List Nat) (hb : ∀ x ∈ b, x < 256) :
    sha512ConstP.comp H.toList b = (compress Fips.sha512 H b).toList := by
  show constBlock alg512 K512 (constWord 64 b) H.toList = _
  rw [K512_eq]
  exact (constBlock_eq alg512 Fips.sha512 agree512 (by rw [K512_length]; decide) rounds512 H _).trans
    (congrArg V.toList (compress_eq Fips.sha512 H b _ (fun i _ => constWord_eq 64 b i hb)))

theorem iv256_eq : iv256 = ivSha256.toList := by decide +kernel
theorem iv224_eq : iv224 = ivSha224.toList := by decide +kernel
theorem iv512_eq : iv512 = ivSha512.toList := by decide +kernel
theorem iv384_eq : iv384 = ivSha384.toList := by decide +kernel

/-- A digest computed through the context with a compression that represents the standard's. -/
theorem digest_eq {w : Nat} (native : Bool) (P : Params (List (BitVec w))) (F : Sha2 w) (hP : P.big = true) (h0 : 0 < P.bs)
    (hcs : P.cs < P.bs) (hw : 0 < w / 8)
    (hc : ∀ H b, b.length = P.bs → (∀ x ∈ b, x < 256) → P.comp (V.toList H) b = (compress F H b).toList)
    (iv : V w) (size : Nat) (hs : size ≤ 8 * (w / 8)) (buf : List Nat) (hb : buf.length = P.bs) (chunks : List (List Nat))
    (hch : ∀ c ∈ chunks, ∀ b ∈ c, b < 256) :
    digest native P iv.toList size buf chunks =
      some ((hashState P.bs P.cs true (compress F) iv chunks.flatten).bytes.take size) := by
  unfold digest
  rw [run_eq native P h0 hcs _ buf hb chunks, hP,
    hashState_rep V.toList P.bs P.cs true P.comp (compress F) hc iv _ (flatten_bytes chunks hch)]
  rw [Option.map_some, digest_bytes_eq native size _ hw hs]

end Verif.Hash.Sha2
