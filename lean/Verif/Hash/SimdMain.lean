import Verif.Hash.SimdLemmas
/-!
# The calls of the vector routines are made in a correct order

`chk` follows a list of calls, tracking how many rounds and how many schedule words have been done and which word sits in each
cell of the `wt` arrays. `chk_sound`: if it accepts, the calls do what FIPS 180-4 prescribes.
-/
namespace Verif.Hash.Simd
open Verif Verif.Hash Verif.Hash.Sha2 Verif.Hash.Fips

/-- Rounds done, words done, lanes in `simd`, and the word index in every cell of the `wt` arrays. -/
structure Ab where
  t : Nat
  n : Nat
  lanes : Nat
  tags : List (List Nat)
deriving DecidableEq

/-- The cells after storing words `r, r+1, ..`. -/
def tagStore (tags : List (List Nat)) (buf off r N : Nat) : List (List Nat) :=
  tags.set buf ((List.range (tags.getD buf []).length).map fun j =>
    if off ≤ j ∧ j < off + N then r + (j - off) else (tags.getD buf []).getD j 0)

def chk1 (um : Bool) (N L R : Nat) (a : Ab) : Op → Option Ab
  | .load buf off r =>
    if r = a.n ∧ r + N ≤ 16 ∧ off + N ≤ (a.tags.getD buf []).length ∧ buf < a.tags.length then
      some { a with n := a.n + N, lanes := N, tags := tagStore a.tags buf off r N } else none
  | .comp buf off r =>
    if r = a.n ∧ 16 ≤ r ∧ r + N ≤ R ∧ off + N ≤ (a.tags.getD buf []).length ∧ buf < a.tags.length ∧ a.lanes = L ∧ L ≤ N then
      some { a with n := a.n + N, tags := tagStore a.tags buf off r N } else none
  | .rnd buf idx args =>
    if (a.tags.getD buf []).getD idx R = a.t ∧ a.t < a.n ∧ args = rowArgs a.t then some { a with t := a.t + 1 } else none
  | .mix rd buf r args =>
    if um = true ∧ r = a.n ∧ 16 ≤ r ∧ r + N ≤ R ∧ N ≤ (a.tags.getD buf []).length ∧ buf < a.tags.length ∧ a.lanes = 2 ∧ N = 4 ∧
      a.t % 4 = 0 ∧ a.t + 4 ≤ a.n ∧ args = mixArgs a.t ∧ (a.tags.getD rd []) = [a.t, a.t + 1, a.t + 2, a.t + 3] then
      some { a with t := a.t + 4, n := a.n + N, tags := tagStore a.tags buf 0 r N } else none
  | .half => if a.lanes = 4 ∧ 4 ≤ a.n then some { a with lanes := 2 } else none

def chk (um : Bool) (N L R : Nat) (a : Ab) : List Op → Option Ab
  | [] => some a
  | o :: l => (chk1 um N L R a o).bind fun a => chk um N L R a l

/-- What the tracked facts mean. -/
structure VInv {w : Nat} (F : Sha2 w) (M : Nat → BitVec w) (H : V w) (R : Nat) (a : Ab) (s : VSt w) : Prop where
  regs : s.regs = place a.t (rounds F M H a.t)
  bpc : s.bpc = (rounds F M H a.t).b ^^^ (rounds F M H a.t).c
  len : s.wd.length = R
  words : WOk F M a.n s.wd
  le : a.n ≤ R
  simd : 0 < a.n → a.lanes ≤ a.n ∧ s.simd = wsl F M (a.n - a.lanes) a.lanes
  shape : s.wt.map List.length = a.tags.map List.length
  cells : ∀ b i k, (a.tags.getD b []).getD i R = k → k < a.n → (s.wt.getD b []).getD i 0 = BitVec.ofNat w (F.K.getD k 0) + W F M k
  junk : ∀ b i, (a.tags.getD b []).getD i R < a.n ∨ R ≤ (a.tags.getD b []).getD i R

theorem shape_getD {α β : Type} (l : List (List α)) (m : List (List β)) (h : l.map List.length = m.map List.length) (b : Nat) :
    (l.getD b []).length = (m.getD b []).length := by
  have h1 : (l.map List.length).getD b 0 = (m.map List.length).getD b 0 := by rw [h]
  simp only [List.getD_eq_getElem?_getD, List.getElem?_map] at h1 ⊢
  cases hl : l[b]? <;> cases hm : m[b]? <;> simp_all

theorem cells_store {w : Nat} (F : Sha2 w) (M : Nat → BitVec w) (R n N buf off : Nat) (tags : List (List Nat))
    (wt : List (List (BitVec w))) (shape : wt.map List.length = tags.map List.length) (hbuf : buf < tags.length)
    (hoff : off + N ≤ (tags.getD buf []).length) (hR : n + N ≤ R)
    (cells : ∀ b i k, (tags.getD b []).getD i R = k → k < n → (wt.getD b []).getD i 0 = BitVec.ofNat w (F.K.getD k 0) + W F M k)
    (junk : ∀ b i, (tags.getD b []).getD i R < n ∨ R ≤ (tags.getD b []).getD i R) :
    (wtStore wt buf off (wksl F M n N)).map List.length = (tagStore tags buf off n N).map List.length ∧
    (∀ b i k, ((tagStore tags buf off n N).getD b []).getD i R = k → k < n + N →
      ((wtStore wt buf off (wksl F M n N)).getD b []).getD i 0 = BitVec.ofNat w (F.K.getD k 0) + W F M k) ∧
    (∀ b i, ((tagStore tags buf off n N).getD b []).getD i R < n + N ∨ R ≤ ((tagStore tags buf off n N).getD b []).getD i R) := by
  have hl : (wksl F M n N).length = N := by simp [wksl]
  have hlen := shape_getD wt tags shape buf
  obtain ⟨v1, v2⟩ := vstore_spec (wt.getD buf []) off (wksl F M n N) (by rw [hl, hlen]; exact hoff)
  have hwl : wt.length = tags.length := by have := congrArg List.length shape; simpa using this
  have hb : ∀ b, (wtStore wt buf off (wksl F M n N)).getD b [] =
      if buf = b then vstore (wt.getD buf []) off (wksl F M n N) else wt.getD b [] := by
    intro b; rw [wtStore, getD_set' _ _ _ _ _ (by omega)]
  have ht : ∀ b, (tagStore tags buf off n N).getD b [] = if buf = b then ((List.range (tags.getD buf []).length).map fun j =>
      if off ≤ j ∧ j < off + N then n + (j - off) else (tags.getD buf []).getD j 0) else tags.getD b [] := by
    intro b; rw [tagStore, getD_set' _ _ _ _ _ hbuf]
  have tg : ∀ i, ((List.range (tags.getD buf []).length).map fun j =>
      if off ≤ j ∧ j < off + N then n + (j - off) else (tags.getD buf []).getD j 0).getD i R =
      if off ≤ i ∧ i < off + N then n + (i - off) else (tags.getD buf []).getD i R := by
    intro i
    by_cases hi : i < (tags.getD buf []).length
    · rw [getD_map_range _ _ _ _ hi]
      congr 1
      simp only [List.getD_eq_getElem?_getD] at hi ⊢
      rw [List.getElem?_eq_getElem hi]; rfl
    · rw [if_neg (by omega), List.getD_eq_default _ _ (by simp only [List.length_map, List.length_range]; omega),
        List.getD_eq_default _ _ (by omega)]
  refine ⟨?_, ?_, ?_⟩
  · rw [wtStore, tagStore, List.map_set, List.map_set, shape]
    congr 1
    rw [v1, hlen]; simp
  · intro b i k h1 h2
    rw [ht] at h1
    rw [hb]
    by_cases e : buf = b
    · subst e
      rw [if_pos rfl] at h1 ⊢
      rw [tg] at h1
      rw [v2, hl]
      by_cases c : off ≤ i ∧ i < off + N
      · rw [if_pos c] at h1 ⊢
        rw [wksl, getD_map_range _ _ _ _ (by omega), h1]
      · rw [if_neg c] at h1 ⊢
        refine cells _ _ _ h1 ?_
        have := junk buf i
        omega
    · rw [if_neg e] at h1 ⊢
      refine cells _ _ _ h1 ?_
      have := junk b i
      omega
  · intro b i
    rw [ht]
    by_cases e : buf = b
    · subst e
      rw [if_pos rfl, tg]
      have := junk buf i
      by_cases c : off ≤ i ∧ i < off + N
      · rw [if_pos c]; omega
      · rw [if_neg c]; omega
    · rw [if_neg e]
      have := junk b i
      omega

/-- The pieces of a vector routine are correct. -/
structure Pieces {w : Nat} (F : Sha2 w) (A : Alg w) (N L : Nat) (compute : Nat → Nat → Nat → VSt w → VSt w)
    (mix : Nat → Nat → Nat → List Nat → VSt w → VSt w) (M : Nat → BitVec w) (H : V w) (useMix : Bool) : Prop where
  agree : Agree A F
  comp : CompOk F N L compute
  mix : ∀ (t n rd buf : Nat) (s : VSt w), useMix = true → N = 4 → t % 4 = 0 → 16 ≤ n → WOk F M n s.wd → s.simd = wsl F M (n - 2) 2 →
    s.regs = place t (rounds F M H t) → s.bpc = (rounds F M H t).b ^^^ (rounds F M H t).c →
    (∀ i, i < 4 → (s.wt.getD rd []).getD i 0 = BitVec.ofNat w (F.K.getD (t + i) 0) + W F M (t + i)) →
    mix rd buf n (mixArgs t) s =
      { regs := place (t + 4) (rounds F M H (t + 4)), bpc := (rounds F M H (t + 4)).b ^^^ (rounds F M H (t + 4)).c,
        simd := wsl F M (n + 4 - 2) 2, wd := vstore s.wd n (wsl F M n 4), wt := wtStore s.wt buf 0 (wksl F M n 4) }

theorem shuffle_half {w : Nat} (F : Sha2 w) (M : Nat → BitVec w) (n : Nat) :
    shuffle (wsl F M n 4) (wsl F M n 4) [2, 3] = wsl F M (n + 2) 2 := rfl

theorem chk1_sound {w : Nat} (native um : Bool) (F : Sha2 w) (A : Alg w) (N L R : Nat) (hN : 0 < N)
    (compute : Nat → Nat → Nat → VSt w → VSt w) (mix : Nat → Nat → Nat → List Nat → VSt w → VSt w) (block : List Nat)
    (M : Nat → BitVec w) (hM : loadWord native true w block = M) (hR : 16 ≤ R) (H : V w) (P : Pieces F A N L compute mix M H um)
    (a a' : Ab) (s : VSt w) (o : Op) (h : VInv F M H R a s) (hc : chk1 um N L R a o = some a') :
    VInv F M H R a' (step native A N F.K compute mix block s o) := by
  obtain ⟨t, n, lanes, tags⟩ := a
  obtain ⟨hreg, hbpc, hlen, hwords, hle, hsimd, hshape, hcells, hjunk⟩ := h
  simp only at hreg hbpc hlen hwords hle hsimd hshape hcells hjunk
  cases o with
  | load buf off r =>
    simp only [chk1] at hc
    split at hc
    · rename_i hh
      obtain ⟨rfl, h16, hoff, hbuf⟩ := hh
      cases hc
      have e1 : (List.range N).map (fun i => loadWord native true w block (r + i)) = wsl F M r N := by
        unfold wsl
        apply List.map_congr_left
        intro i hi
        have hi' := List.mem_range.mp hi
        rw [hM, W, if_pos (by omega)]
      have e2 : vadd (kvec w N F.K r) (wsl F M r N) = wksl F M r N := by
        unfold vadd kvec wsl wksl
        rw [List.zipWith_map_left, List.zipWith_map_right, List.zipWith_self]
      simp only [step, byteSwapMessage, e1, e2]
      obtain ⟨w1, w2⟩ := WOk_store F M r N s.wd hwords (by omega)
      obtain ⟨c1, c2, c3⟩ := cells_store F M R r N buf off tags s.wt hshape hbuf hoff (by omega) hcells hjunk
      exact ⟨hreg, hbpc, by rw [← hlen]; exact w2, w1, by simp only; omega, fun _ => ⟨by simp only; omega, by simp only [Nat.add_sub_cancel]⟩, c1, c2, c3⟩
    · cases hc
  | comp buf off r =>
    simp only [chk1] at hc
    split at hc
    · rename_i hh
      obtain ⟨rfl, h16, hNR, hoff, hbuf, rfl, hLN⟩ := hh
      cases hc
      simp only [step]
      rw [P.comp M r buf off s h16 hwords (hsimd (by omega)).2]
      obtain ⟨w1, w2⟩ := WOk_store F M r N s.wd hwords (by omega)
      obtain ⟨c1, c2, c3⟩ := cells_store F M R r N buf off tags s.wt hshape hbuf hoff (by omega) hcells hjunk
      exact ⟨hreg, hbpc, by rw [← hlen]; exact w2, w1, by simp only; omega, fun _ => ⟨by simp only; omega, rfl⟩, c1, c2, c3⟩
    · cases hc
  | rnd buf idx args =>
    simp only [chk1] at hc
    split at hc
    · rename_i hh
      obtain ⟨htag, htn, rfl⟩ := hh
      cases hc
      simp only [step]
      rw [hcells buf idx t htag htn, hreg, hbpc,
        scalarRound_place A F P.agree t _ (BitVec.ofNat w (F.K.getD t 0)) (W F M t) _ (BitVec.add_comm _ _)]
      exact ⟨rfl, rfl, hlen, hwords, hle, hsimd, hshape, hcells, hjunk⟩
    · cases hc
  | mix rd buf r args =>
    simp only [chk1] at hc
    split at hc
    · rename_i hh
      obtain ⟨hum, rfl, h16, hNR, hoff, hbuf, rfl, rfl, ht4, htn, rfl, htags⟩ := hh
      cases hc
      simp only [step]
      have hwt : ∀ i, i < 4 → (s.wt.getD rd []).getD i 0 = BitVec.ofNat w (F.K.getD (t + i) 0) + W F M (t + i) := by
        intro i hi
        refine hcells rd i (t + i) ?_ (by omega)
        rw [htags]
        have : i = 0 ∨ i = 1 ∨ i = 2 ∨ i = 3 := by omega
        rcases this with h | h | h | h <;> subst h <;> rfl
      rw [P.mix t r rd buf s hum rfl ht4 h16 hwords (hsimd (by omega)).2 hreg hbpc hwt]
      obtain ⟨w1, w2⟩ := WOk_store F M r 4 s.wd hwords (by omega)
      obtain ⟨c1, c2, c3⟩ := cells_store F M R r 4 buf 0 tags s.wt hshape hbuf (by omega) (by omega) hcells hjunk
      exact ⟨rfl, rfl, by rw [← hlen]; exact w2, w1, by simp only; omega, fun _ => ⟨by simp only; omega, rfl⟩, c1, c2, c3⟩
    · cases hc
  | half =>
    simp only [chk1] at hc
    split at hc
    · rename_i hh
      obtain ⟨rfl, h4⟩ := hh
      cases hc
      obtain ⟨_, hs⟩ := hsimd (by omega)
      refine ⟨hreg, hbpc, hlen, hwords, hle, fun _ => ⟨by simp only; omega, ?_⟩, hshape, hcells, hjunk⟩
      simp only [step]
      rw [hs, shuffle_half]
      congr 1; omega
    · cases hc

theorem chk_sound {w : Nat} (native um : Bool) (F : Sha2 w) (A : Alg w) (N L R : Nat) (hN : 0 < N)
    (compute : Nat → Nat → Nat → VSt w → VSt w) (mix : Nat → Nat → Nat → List Nat → VSt w → VSt w) (block : List Nat)
    (M : Nat → BitVec w) (hM : loadWord native true w block = M) (hR : 16 ≤ R) (H : V w) (P : Pieces F A N L compute mix M H um) :
    ∀ (ops : List Op) (a a' : Ab) (s : VSt w), VInv F M H R a s → chk um N L R a ops = some a' →
      VInv F M H R a' (ops.foldl (step native A N F.K compute mix block) s)
  | [], a, a', s, h, hc => by cases hc; exact h
  | o :: l, a, a', s, h, hc => by
    rw [chk] at hc
    cases h1 : chk1 um N L R a o with
    | none => rw [h1] at hc; cases hc
    | some b =>
      rw [h1] at hc
      exact chk_sound native um F A N L R hN compute mix block M hM hR H P l b a' _
        (chk1_sound native um F A N L R hN compute mix block M hM hR H P a b s o h h1) hc

/-- The tracked state at the start of a block: nothing in the arrays. -/
def ab0 (R : Nat) (wt : List Nat) : Ab := ⟨0, 0, 0, wt.map fun n => List.replicate n R⟩

theorem simdBlock_eq {w : Nat} (native um : Bool) (F : Sha2 w) (A : Alg w) (N L R : Nat) (hN : 0 < N)
    (compute : Nat → Nat → Nat → VSt w → VSt w) (mix : Nat → Nat → Nat → List Nat → VSt w → VSt w) (block : List Nat)
    (M : Nat → BitVec w) (hM : loadWord native true w block = M) (hR : 16 ≤ R) (hr : F.rounds = R) (hm : R % 8 = 0) (H : V w)
    (P : Pieces F A N L compute mix M H um) (sizes : List Nat) (ops : List Op)
    (hc : (chk um N L R (ab0 R sizes) ops).map Ab.t = some R) :
    simdBlock native A N R (sizes.map fun n => List.replicate n 0) F.K compute mix ops H.toList block =
      (let v := rounds F M H F.rounds
       (⟨v.a + H.a, v.b + H.b, v.c + H.c, v.d + H.d, v.e + H.e, v.f + H.f, v.g + H.g, v.h + H.h⟩ : V w)).toList := by
  unfold simdBlock
  have hjunk : ∀ b i, ((ab0 R sizes).tags.getD b []).getD i R = R := by
    intro b i
    simp only [ab0, List.getD_eq_getElem?_getD, List.getElem?_map]
    cases h : sizes[b]? with
    | none => simp
    | some k => simp only [Option.map_some, Option.getD_some, List.getElem?_replicate]; split <;> rfl
  have h0 : VInv F M H R (ab0 R sizes) ⟨H.toList, H.toList.getD 1 0 ^^^ H.toList.getD 2 0, List.replicate N 0,
      sizes.map fun n => List.replicate n 0, List.replicate R 0⟩ :=
    ⟨rfl, rfl, by simp, fun i hi => by simp [ab0] at hi, by simp [ab0], fun h => by simp [ab0] at h,
      by simp [ab0, Function.comp_def], fun b i k h1 h2 => by simp [ab0] at h2, fun b i => by rw [hjunk]; exact Or.inr le_rfl⟩
  cases he : chk um N L R (ab0 R sizes) ops with
  | none => rw [he] at hc; cases hc
  | some a' =>
    rw [he] at hc
    have ht : a'.t = R := by simpa using hc
    have := (chk_sound native um F A N L R hN compute mix block M hM hR H P ops _ a' _ h0 he).regs
    simp only at this ⊢
    rw [this, ht, place_mod, hm, place_zero, hr]
    simp only [V.toList, List.zipWith_cons_cons, List.zipWith_nil_left, BitVec.add_comm]

theorem block256x16_eq (native : Bool) (H : V 32) (b : List Nat) (hl : b.length = 64) (hb : ∀ x ∈ b, x < 256) :
    block256x16 native H.toList b = (compress Fips.sha256 H b).toList := by
  unfold block256x16
  rw [K256_eq]
  exact (simdBlock_eq native false Fips.sha256 alg256 4 4 64 (by decide) _ _ b _ rfl (by decide) rfl (by decide) H
    ⟨agree256, compute256_ok, fun t n rd buf s h => by cases h⟩ [64] ops256x16 (by decide +kernel)).trans
    (congrArg V.toList (compress_eq Fips.sha256 H b _ (fun i hi => loadWord_eq native 32 b i hb (by rw [hl]; omega))))

theorem block512x16_eq (native : Bool) (H : V 64) (b : List Nat) (hl : b.length = 128) (hb : ∀ x ∈ b, x < 256) :
    block512x16 native H.toList b = (compress Fips.sha512 H b).toList := by
  unfold block512x16
  rw [K512_eq]
  exact (simdBlock_eq native false Fips.sha512 alg512 2 2 80 (by decide) _ _ b _ rfl (by decide) rfl (by decide) H
    ⟨agree512, compute512x16_ok, fun t n rd buf s h => by cases h⟩ [2, 2] ops512x16 (by decide +kernel)).trans
    (congrArg V.toList (compress_eq Fips.sha512 H b _ (fun i hi => loadWord_eq native 64 b i hb (by rw [hl]; omega))))

theorem block512x32_eq (native : Bool) (H : V 64) (b : List Nat) (hl : b.length = 128) (hb : ∀ x ∈ b, x < 256) :
    block512x32 native H.toList b = (compress Fips.sha512 H b).toList := by
  unfold block512x32
  rw [K512_eq]
  exact (simdBlock_eq native false Fips.sha512 alg512 4 2 80 (by decide) _ _ b _ rfl (by decide) rfl (by decide) H
    ⟨agree512, compute512x32_ok, fun t n rd buf s h => by cases h⟩ [4, 4] ops512x32 (by decide +kernel)).trans
    (congrArg V.toList (compress_eq Fips.sha512 H b _ (fun i hi => loadWord_eq native 64 b i hb (by rw [hl]; omega))))

theorem block512xs_eq (native : Bool) (H : V 64) (b : List Nat) (hl : b.length = 128) (hb : ∀ x ∈ b, x < 256) :
    block512xs native H.toList b = (compress Fips.sha512 H b).toList := by
  unfold block512xs
  rw [K512_eq]
  exact (simdBlock_eq native true Fips.sha512 alg512 4 2 80 (by decide) _ _ b _ rfl (by decide) rfl (by decide) H
    ⟨agree512, compute512x32_ok, fun t n rd buf s _ _ ht hn hw hs hr hb hwt =>
      mix512_ok _ H t n rd buf ht s hn hw hs hr hb hwt⟩ [4, 4] ops512xs (by decide +kernel)).trans
    (congrArg V.toList (compress_eq Fips.sha512 H b _ (fun i hi => loadWord_eq native 64 b i hb (by rw [hl]; omega))))

end Verif.Hash.Simd
