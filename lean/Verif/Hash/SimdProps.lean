import Verif.Hash.NiLemmas
import Verif.Hash.Sha512t
/-!
# C24, C25 for the vector code
-/
namespace Verif.Hash
open Verif Verif.Hash.Sha2 Verif.Hash.Fips Verif.Hash.Simd Verif.Hash.Ni

theorem comp256simd (native : Bool) (H : V 32) (b : List Nat) (hl : b.length = 64) (hb : ∀ x ∈ b, x < 256) :
    (sha256SimdP native).comp H.toList b = (compress Fips.sha256 H b).toList := by
  have h := block256x16_eq native H b hl hb
  rw [show (sha256SimdP native).comp = block256x16 native from rfl]
  exact h

theorem comp256ni (H : V 32) (b : List Nat) (hl : b.length = 64) (hb : ∀ x ∈ b, x < 256) :
    (sha256NiP niRun).comp H.toList b = (compress Fips.sha256 H b).toList :=
  niRun_eq H [b] (fun c hc => by rw [List.mem_singleton] at hc; subst hc; exact ⟨hl, hb⟩)

theorem comp256msvc (H : V 32) (b : List Nat) (hl : b.length = 64) (hb : ∀ x ∈ b, x < 256) :
    (sha256NiP niRunMsvc).comp H.toList b = (compress Fips.sha256 H b).toList :=
  niRunMsvc_eq H [b] (fun c hc => by rw [List.mem_singleton] at hc; subst hc; exact ⟨hl, hb⟩)

/-- C24: SHA-256 and SHA-224 with the 128-bit vector routine (sha256_simd16.h), on either byte order. -/
theorem c24_simd16 (native : Bool) (buf : List Nat) (hb : buf.length = 64) (chunks : List (List Nat))
    (hch : ∀ c ∈ chunks, ∀ b ∈ c, b < 256) :
    digest native (sha256SimdP native) iv256 32 buf chunks = some (SHA256 chunks.flatten) ∧
    digest native (sha256SimdP native) iv224 28 buf chunks = some (SHA224 chunks.flatten) := by
  constructor
  · rw [iv256_eq, digest_eq native (sha256SimdP native) Fips.sha256 rfl (by decide : 0 < 64) (by decide : 8 < 64) (by decide)
      (fun H b hl hx => comp256simd native H b hl hx) ivSha256 32 (by decide) buf hb chunks hch]
    congr 1
  · rw [iv224_eq, digest_eq native (sha256SimdP native) Fips.sha256 rfl (by decide : 0 < 64) (by decide : 8 < 64) (by decide)
      (fun H b hl hx => comp256simd native H b hl hx) ivSha224 28 (by decide) buf hb chunks hch]
    rfl

/-- C24: SHA-256 and SHA-224 with the x86 SHA instructions (sha256_x86_sha_extensions.h). -/
theorem c24_ni (buf : List Nat) (hb : buf.length = 64) (chunks : List (List Nat)) (hch : ∀ c ∈ chunks, ∀ b ∈ c, b < 256) :
    digest true (sha256NiP niRun) iv256 32 buf chunks = some (SHA256 chunks.flatten) ∧
    digest true (sha256NiP niRun) iv224 28 buf chunks = some (SHA224 chunks.flatten) := by
  constructor
  · rw [iv256_eq, digest_eq true (sha256NiP niRun) Fips.sha256 rfl (by decide : 0 < 64) (by decide : 8 < 64) (by decide)
      comp256ni ivSha256 32 (by decide) buf hb chunks hch]
    congr 1
  · rw [iv224_eq, digest_eq true (sha256NiP niRun) Fips.sha256 rfl (by decide : 0 < 64) (by decide : 8 < 64) (by decide)
      comp256ni ivSha224 28 (by decide) buf hb chunks hch]
    rfl

/-- C24: the same with the MSVC intrinsics (sha256_x86_sha_extensions_msvc.h). -/
theorem c24_ni_msvc (buf : List Nat) (hb : buf.length = 64) (chunks : List (List Nat)) (hch : ∀ c ∈ chunks, ∀ b ∈ c, b < 256) :
    digest true (sha256NiP niRunMsvc) iv256 32 buf chunks = some (SHA256 chunks.flatten) ∧
    digest true (sha256NiP niRunMsvc) iv224 28 buf chunks = some (SHA224 chunks.flatten) := by
  constructor
  · rw [iv256_eq, digest_eq true (sha256NiP niRunMsvc) Fips.sha256 rfl (by decide : 0 < 64) (by decide : 8 < 64) (by decide)
      comp256msvc ivSha256 32 (by decide) buf hb chunks hch]
    congr 1
  · rw [iv224_eq, digest_eq true (sha256NiP niRunMsvc) Fips.sha256 rfl (by decide : 0 < 64) (by decide : 8 < 64) (by decide)
      comp256msvc ivSha224 28 (by decide) buf hb chunks hch]
    rfl

/-- C24: a call of the SHA-instruction routines on a range of blocks applies the standard's compression to each block in
turn. -/
theorem c24_ni_blocks (H : V 32) (bl : List (List Nat)) (h : ∀ b ∈ bl, b.length = 64 ∧ ∀ x ∈ b, x < 256) :
    niRun H.toList bl = (bl.foldl (compress Fips.sha256) H).toList ∧
    niRunMsvc H.toList bl = (bl.foldl (compress Fips.sha256) H).toList := ⟨niRun_eq H bl h, niRunMsvc_eq H bl h⟩

/-- C24: the alternative expressions for the schedule functions left in `sha256_simd16.h` are all equal. -/
theorem c24_alternatives (v : Vec 32) :
    (∀ x ∈ s1Alt256 v, x = v.map Fips.sha256.s1) ∧ (∀ x ∈ s0Alt256 v, x = v.map Fips.sha256.s0) := by
  simp only [s1Alt256, s0Alt256, List.mem_cons, List.not_mem_nil, or_false, forall_eq_or_imp, forall_eq]
  induction v with
  | nil => decide
  | cons x v ih =>
    obtain ⟨⟨a1, a2, a3⟩, b1, b2, b3⟩ := ih
    simp only [vxor, vadd, vshr, vshl, List.map_cons, List.zipWith_cons_cons] at a1 a2 a3 b1 b2 b3 ⊢
    rw [a1, a2, a3, b1, b2, b3, s1_256_a, s1_256_b, s1_256_c, s0_256_a, s0_256_b, s0_256_c]
    exact ⟨⟨rfl, rfl, rfl⟩, rfl, rfl, rfl⟩

/-- C25: SHA-512, SHA-384, SHA-512/224 and SHA-512/256 with each of the three vector routines (sha512_simd16.h,
sha512_simd32.h, sha512_simd32_shuffle.h), on either byte order. -/
theorem c25_simd (native : Bool) (block : List (BitVec 64) → List Nat → List (BitVec 64))
    (hblock : block = block512x16 native ∨ block = block512x32 native ∨ block = block512xs native) (buf : List Nat)
    (hb : buf.length = 128) (chunks : List (List Nat)) (hch : ∀ c ∈ chunks, ∀ b ∈ c, b < 256) :
    digest native (sha512SimdP block) iv512 64 buf chunks = some (SHA512 chunks.flatten) ∧
    digest native (sha512SimdP block) iv384 48 buf chunks = some (SHA384 chunks.flatten) ∧
    digest native (sha512SimdP block) iv512_224 28 buf chunks = some (SHA512_224 chunks.flatten) ∧
    digest native (sha512SimdP block) iv512_256 32 buf chunks = some (SHA512_256 chunks.flatten) := by
  have hc : ∀ H b, b.length = 128 → (∀ x ∈ b, x < 256) → (sha512SimdP block).comp (V.toList H) b = (compress Fips.sha512 H b).toList := by
    intro H b hl hx
    show block H.toList b = _
    rcases hblock with h | h | h <;> subst h
    · exact block512x16_eq native H b hl hx
    · exact block512x32_eq native H b hl hx
    · exact block512xs_eq native H b hl hx
  refine ⟨?_, ?_, ?_, ?_⟩
  · rw [iv512_eq, digest_eq native (sha512SimdP block) Fips.sha512 rfl (by decide : 0 < 128) (by decide : 16 < 128) (by decide)
      hc ivSha512 64 (by decide) buf hb chunks hch]
    congr 1
  · rw [iv384_eq, digest_eq native (sha512SimdP block) Fips.sha512 rfl (by decide : 0 < 128) (by decide : 16 < 128) (by decide)
      hc ivSha384 48 (by decide) buf hb chunks hch]
    rfl
  · rw [iv512_224_eq, digest_eq native (sha512SimdP block) Fips.sha512 rfl (by decide : 0 < 128) (by decide : 16 < 128) (by decide)
      hc _ 28 (by decide) buf hb chunks hch]
    rfl
  · rw [iv512_256_eq, digest_eq native (sha512SimdP block) Fips.sha512 rfl (by decide : 0 < 128) (by decide : 16 < 128) (by decide)
      hc _ 32 (by decide) buf hb chunks hch]
    rfl

/-- C25: the alternative expressions for the schedule functions left in the SHA-512 headers are all equal. -/
theorem c25_alternatives (v : Vec 64) :
    (∀ x ∈ s1Alt512 v, x = v.map Fips.sha512.s1) ∧ (∀ x ∈ s0Alt512 v, x = v.map Fips.sha512.s0) := by
  simp only [s1Alt512, s0Alt512, List.mem_cons, List.not_mem_nil, or_false, forall_eq_or_imp, forall_eq]
  induction v with
  | nil => decide
  | cons x v ih =>
    obtain ⟨⟨a1, a2, a3⟩, b1, b2, b3⟩ := ih
    simp only [vxor, vadd, vshr, vshl, List.map_cons, List.zipWith_cons_cons] at a1 a2 a3 b1 b2 b3 ⊢
    rw [a1, a2, a3, b1, b2, b3, s1_512_a, s1_512_b, s1_512_c, s0_512_a, s0_512_b, s0_512_c]
    exact ⟨⟨rfl, rfl, rfl⟩, rfl, rfl, rfl⟩

-- "abc" again, through each routine.
example : (digest true (sha256SimdP true) iv256 32 (List.replicate 64 0xcc) [[0x61], [0x62, 0x63]]).map (·.take 4) =
    some [0xba, 0x78, 0x16, 0xbf] ∧
    (digest true (sha256NiP niRun) iv256 32 (List.replicate 64 0xcc) [[0x61], [0x62, 0x63]]).map (·.take 4) =
    some [0xba, 0x78, 0x16, 0xbf] ∧
    (digest true (sha256NiP niRunMsvc) iv256 32 (List.replicate 64 0xcc) [[0x61], [0x62, 0x63]]).map (·.take 4) =
    some [0xba, 0x78, 0x16, 0xbf] := by decide +kernel
example : [block512x16 true, block512x32 true, block512xs true].map (fun bl =>
      (digest true (sha512SimdP bl) iv512 64 (List.replicate 128 0xcc) [[0x61], [0x62, 0x63]]).map (·.take 4)) =
    List.replicate 3 (some [0xdd, 0xaf, 0x35, 0xa1]) := by decide +kernel

end Verif.Hash
