import Verif.Hash.Sha2Model
import Verif.Hash.Fips
import Verif.Hash.CtxLemmas
/-!
# The unrolled scalar rounds compute the FIPS 180-4 recurrences
-/
namespace Verif.Hash.Sha2
open Verif Verif.Hash Verif.Hash.Fips

theorem maj_trick {w : Nat} (a b c : BitVec w) : ((a ^^^ b) &&& (b ^^^ c)) ^^^ b = Maj a b c := by
  ext i hi
  simp only [Maj, BitVec.getElem_xor, BitVec.getElem_and]
  cases a[i] <;> cases b[i] <;> cases c[i] <;> rfl

theorem ch256 {w : Nat} (x y z : BitVec w) : ((y ^^^ z) &&& x) ^^^ z = Ch x y z := by
  ext i hi
  simp only [Ch, BitVec.getElem_xor, BitVec.getElem_and, BitVec.getElem_not]
  cases x[i] <;> cases y[i] <;> cases z[i] <;> rfl

theorem ch512 {w : Nat} (x y z : BitVec w) : (x &&& (y ^^^ z)) ^^^ z = Ch x y z := by
  rw [BitVec.and_comm, ch256]

/-- The library's functions are those of the standard. -/
structure Agree {w : Nat} (A : Alg w) (F : Sha2 w) : Prop where
  S0 : ∀ x, A.S0 x = F.S0 x
  S1 : ∀ x, A.S1 x = F.S1 x
  s0 : ∀ x, A.s0 x = F.s0 x
  s1 : ∀ x, A.s1 x = F.s1 x
  ch : ∀ x y z, A.ch x y z = Ch x y z

theorem agree256 : Agree alg256 Fips.sha256 :=
  ⟨fun _ => rfl, fun _ => rfl, fun _ => rfl, fun _ => rfl, fun x y z => ch256 x y z⟩

theorem agree512 : Agree alg512 Fips.sha512 :=
  ⟨fun _ => rfl, fun _ => rfl, fun _ => rfl, fun _ => rfl, fun x y z => ch512 x y z⟩

/-- The register arguments of round `t` when the names rotate instead of the values. -/
def rowArgs (t : Nat) : List Nat := [0, 1, 3, 4, 5, 6, 7].map fun j => (j + 7 * t) % 8

/-- Where the working variables live after `t` rounds. -/
def place {w : Nat} (t : Nat) (v : V w) : List (BitVec w) := (List.range 8).map fun i => v.toList.getD ((i + t) % 8) 0

theorem place_mod {w : Nat} (t : Nat) (v : V w) : place t v = place (t % 8) v := by
  unfold place
  apply List.map_congr_left
  intro i _
  rw [Nat.add_mod_mod]

theorem rowArgs_mod (t : Nat) : rowArgs t = rowArgs (t % 8) := by
  unfold rowArgs
  apply List.map_congr_left
  intro i _
  omega

theorem scalarRound_place {w : Nat} (A : Alg w) (F : Sha2 w) (hA : Agree A F) (t : Nat) (v : V w) (k wt T1k : BitVec w)
    (hT : T1k = wt + k) (x : List (BitVec w)) :
    scalarRound A T1k (rowArgs t) ⟨place t v, v.b ^^^ v.c, x⟩ =
      ⟨place (t + 1) (round F k wt v), (round F k wt v).b ^^^ (round F k wt v).c, x⟩ := by
  have e1 : place (t + 1) (round F k wt v) = place (t % 8 + 1) (round F k wt v) := by
    rw [place_mod (t + 1), place_mod (t % 8 + 1)]; congr 1; omega
  rw [rowArgs_mod, place_mod t v, e1]
  have hr : t % 8 < 8 := Nat.mod_lt _ (by decide)
  have ha : ∀ v : V w, A.S0 v.a + (((v.a ^^^ v.b) &&& (v.b ^^^ v.c)) ^^^ v.b) + (T1k + (v.h + A.S1 v.e + A.ch v.e v.f v.g)) =
      (round F k wt v).a := by
    intro v
    simp only [round, hA.S0, hA.S1, hA.ch, maj_trick, hT]
    ac_rfl
  have he : ∀ v : V w, v.d + (T1k + (v.h + A.S1 v.e + A.ch v.e v.f v.g)) = (round F k wt v).e := by
    intro v
    simp only [round, hA.S1, hA.ch, hT]
    ac_rfl
  generalize t % 8 = r at hr
  have h8 : r = 0 ∨ r = 1 ∨ r = 2 ∨ r = 3 ∨ r = 4 ∨ r = 5 ∨ r = 6 ∨ r = 7 := by omega
  have hrange : List.range 8 = [0, 1, 2, 3, 4, 5, 6, 7] := rfl
  rcases h8 with h | h | h | h | h | h | h | h <;> subst h <;>
  · simp only [scalarRound, place, rowArgs, hrange, List.map_cons, List.map_nil, V.toList, Nat.reduceMul, Nat.reduceAdd, Nat.reduceMod,
      List.getD_cons_zero, List.getD_cons_succ, List.set_cons_zero, List.set_cons_succ, ha, he]
    rfl

/-- The table rows are the rotated argument lists. -/
def stdLines : List Line := (List.range 16).map fun i => ⟨i, (i + 1) % 16, (i + 14) % 16, (i + 9) % 16, rowArgs i, i⟩
def stdLines0 (K : List Nat) : List Line0 := (List.range 16).map fun i => ⟨i, i, rowArgs i, K.getD i 0⟩

/-- The locals after `t` rounds on the block with words `M`. -/
structure RInv {w : Nat} (F : Sha2 w) (M : Nat → BitVec w) (H : V w) (t : Nat) (s : St w) : Prop where
  regs : s.regs = place t (rounds F M H t)
  bpc : s.bpc = (rounds F M H t).b ^^^ (rounds F M H t).c
  xlen : s.x.length = 16
  x : ∀ i, i < t → t ≤ i + 16 → s.x.getD (i % 16) 0 = W F M i

theorem getD_set' {α : Type} (l : List α) (i j : Nat) (a d : α) (hi : i < l.length) :
    (l.set i a).getD j d = if i = j then a else l.getD j d := by
  by_cases h : i = j
  · subst h; simp [List.getD_eq_getElem?_getD, hi]
  · simp [List.getD_eq_getElem?_getD, List.getElem?_set_ne h, h]

theorem ring_set {w : Nat} (f : Nat → BitVec w) (x : List (BitVec w)) (t : Nat) (hl : x.length = 16)
    (h : ∀ i, i < t → t ≤ i + 16 → x.getD (i % 16) 0 = f i) :
    ∀ i, i < t + 1 → t + 1 ≤ i + 16 → (x.set (t % 16) (f t)).getD (i % 16) 0 = f i := by
  intro i h1 h2
  rw [getD_set' _ _ _ _ _ (by rw [hl]; exact Nat.mod_lt _ (by decide))]
  by_cases hi : i = t
  · subst hi; simp
  · rw [if_neg (by omega)]
    exact h i (by omega) (by omega)

theorem line0_inv {w : Nat} (A : Alg w) (F : Sha2 w) (hA : Agree A F) (M : Nat → BitVec w) (H : V w) (t : Nat) (ht : t < 16)
    (s : St w) (hs : RInv F M H t s) : RInv F M H (t + 1) (line0 A M s ⟨t, t, rowArgs t, F.K.getD t 0⟩) := by
  obtain ⟨regs, bpc, x⟩ := s
  have h1 := hs.regs; have h2 := hs.bpc
  simp only at h1 h2
  subst h1; subst h2
  unfold line0
  simp only
  have hW : W F M t = M t := by rw [W, if_pos ht]
  rw [scalarRound_place A F hA t _ (BitVec.ofNat w (F.K.getD t 0)) (W F M t) _ (by rw [hW])]
  refine ⟨rfl, rfl, by simpa using hs.xlen, ?_⟩
  have := ring_set (W F M) x t hs.xlen hs.x
  rw [Nat.mod_eq_of_lt ht, hW] at this
  exact this

theorem line_inv {w : Nat} (A : Alg w) (F : Sha2 w) (hA : Agree A F) (M : Nat → BitVec w) (H : V w) (t : Nat) (ht : 16 ≤ t)
    (k5 : List Nat) (hk : k5.getD (t % 16) 0 = F.K.getD t 0)
    (s : St w) (hs : RInv F M H t s) :
    RInv F M H (t + 1) (line A k5 s ⟨t % 16, (t + 1) % 16, (t + 14) % 16, (t + 9) % 16, rowArgs t, t % 16⟩) := by
  obtain ⟨regs, bpc, x⟩ := s
  have h1 := hs.regs; have h2 := hs.bpc
  simp only at h1 h2
  subst h1; subst h2
  have hx := hs.x
  simp only at hx
  unfold line
  simp only
  have e0 : x.getD (t % 16) 0 = W F M (t - 16) := by
    rw [← hx (t - 16) (by omega) (by omega)]; congr 1; omega
  have e1 : x.getD ((t + 1) % 16) 0 = W F M (t - 15) := by
    rw [← hx (t - 15) (by omega) (by omega)]; congr 1; omega
  have e14 : x.getD ((t + 14) % 16) 0 = W F M (t - 2) := by
    rw [← hx (t - 2) (by omega) (by omega)]; congr 1; omega
  have e9 : x.getD ((t + 9) % 16) 0 = W F M (t - 7) := by
    rw [← hx (t - 7) (by omega) (by omega)]; congr 1; omega
  have hW : x.getD (t % 16) 0 + (A.s0 (x.getD ((t + 1) % 16) 0) + A.s1 (x.getD ((t + 14) % 16) 0) + x.getD ((t + 9) % 16) 0) =
      W F M t := by
    rw [W, if_neg (by omega), e0, e1, e14, e9, hA.s0, hA.s1]
    ac_rfl
  rw [hW, hk]
  rw [scalarRound_place A F hA t _ (BitVec.ofNat w (F.K.getD t 0)) (W F M t) _ rfl]
  exact ⟨rfl, rfl, by simpa using hs.xlen, ring_set (W F M) x t hs.xlen hs.x⟩

/-- Folding over a range with an indexed invariant. -/
theorem foldl_range_inv {α : Type} (f : α → Nat → α) (I : Nat → α → Prop) (a n : Nat)
    (hstep : ∀ i s, i < n → I (a + i) s → I (a + i + 1) (f s i)) (s : α) (h0 : I a s) :
    I (a + n) ((List.range n).foldl f s) := by
  induction n with
  | zero => simpa using h0
  | succ n ih =>
    rw [List.range_succ, List.foldl_append, List.foldl_cons, List.foldl_nil]
    exact hstep n _ (by omega) (ih (fun i s hi => hstep i s (by omega)))

theorem lines0_inv {w : Nat} (A : Alg w) (F : Sha2 w) (hA : Agree A F) (M : Nat → BitVec w) (H : V w) (s : St w)
    (hs : RInv F M H 0 s) : RInv F M H 16 ((stdLines0 F.K).foldl (line0 A M) s) := by
  unfold stdLines0
  rw [List.foldl_map]
  have := foldl_range_inv (fun s i => line0 A M s ⟨i, i, rowArgs i, F.K.getD i 0⟩) (RInv F M H) 0 16
    (fun i s hi h => by rw [Nat.zero_add] at h ⊢; exact line0_inv A F hA M H i hi s h) s hs
  rwa [Nat.zero_add] at this

theorem lines_inv {w : Nat} (A : Alg w) (F : Sha2 w) (hA : Agree A F) (M : Nat → BitVec w) (H : V w) (t : Nat) (ht : 16 ≤ t)
    (hd : t % 16 = 0) (s : St w) (hs : RInv F M H t s) :
    RInv F M H (t + 16) (stdLines.foldl (line A (F.K.drop t)) s) := by
  unfold stdLines
  rw [List.foldl_map]
  refine foldl_range_inv _ (RInv F M H) t 16 (fun i s hi h => ?_) s hs
  have := line_inv A F hA M H (t + i) (by omega) (F.K.drop t) (by
    simp only [List.getD_eq_getElem?_getD, List.getElem?_drop]; congr 2; omega) s h
  rw [show (t + i) % 16 = i by omega, show (t + i + 1) % 16 = (i + 1) % 16 by omega,
    show (t + i + 14) % 16 = (i + 14) % 16 by omega, show (t + i + 9) % 16 = (i + 9) % 16 by omega,
    show rowArgs (t + i) = rowArgs i by rw [rowArgs_mod, rowArgs_mod i]; congr 1; omega] at this
  exact this

theorem k5Loop_inv {w : Nat} (A : Alg w) (F : Sha2 w) (hA : Agree A F) (M : Nat → BitVec w) (H : V w) :
    ∀ (n t : Nat) (s : St w), 16 ≤ t → t % 16 = 0 → t ≤ F.K.length → F.K.length % 16 = 0 → F.K.length - t ≤ n →
      RInv F M H t s → RInv F M H F.K.length (k5Loop A stdLines n (F.K.drop t) s) := by
  intro n
  induction n with
  | zero =>
    intro t s _ _ hle _ hn hs
    have : t = F.K.length := by omega
    subst this
    exact hs
  | succ n ih =>
    intro t s h16 hm hle hK hn hs
    by_cases he : t = F.K.length
    · subst he
      simp only [List.drop_length, k5Loop]
      exact hs
    · have hlt : t < F.K.length := by omega
      have hcons : F.K.drop t = F.K[t] :: F.K.drop (t + 1) := List.drop_eq_getElem_cons hlt
      have : k5Loop A stdLines (n + 1) (F.K.drop t) s =
          k5Loop A stdLines n ((F.K.drop t).drop 16) (stdLines.foldl (line A (F.K.drop t)) s) := by
        rw [hcons]; rfl
      rw [this, List.drop_drop]
      exact ih (t + 16) _ (by omega) (by omega) (by omega) hK (by omega) (lines_inv A F hA M H t h16 hm s hs)

theorem place_zero {w : Nat} (v : V w) : place 0 v = v.toList := rfl

/-- One block at run time is the standard's compression. -/
theorem runtimeBlock_eq {w : Nat} (native : Bool) (A : Alg w) (F : Sha2 w) (hA : Agree A F) (hK : F.K.length % 16 = 0)
    (h16 : 16 ≤ F.K.length) (hr : F.rounds = F.K.length) (H : V w) (block : List Nat) (M : Nat → BitVec w)
    (hM : loadWord native true w block = M) :
    runtimeBlock native A F.K (stdLines0 F.K) stdLines H.toList block =
      (let v := rounds F M H F.rounds
       (⟨v.a + H.a, v.b + H.b, v.c + H.c, v.d + H.d, v.e + H.e, v.f + H.f, v.g + H.g, v.h + H.h⟩ : V w)).toList := by
  unfold runtimeBlock
  rw [hM, hr]
  have h0 : RInv F M H 0 ⟨H.toList, H.toList.getD 1 0 ^^^ H.toList.getD 2 0, List.replicate 16 0⟩ :=
    ⟨rfl, rfl, by simp, fun i hi => by omega⟩
  have h1 := lines0_inv A F hA M H _ h0
  have h2 := k5Loop_inv A F hA M H (F.K.drop 16).length 16 _ le_rfl rfl h16 hK (by simp) h1
  simp only
  rw [h2.regs, place_mod, show F.K.length % 8 = 0 by omega, place_zero]
  simp only [V.toList, List.zipWith_cons_cons, List.zipWith_nil_left, BitVec.add_comm]

/-- The locals of the constant-evaluation loop after `t` rounds. -/
structure CInv {w : Nat} (F : Sha2 w) (M : Nat → BitVec w) (H : V w) (t : Nat) (s : CSt w) : Prop where
  regs : (⟨s.a, s.b, s.c, s.d, s.e, s.f, s.g, s.h⟩ : V w) = rounds F M H t
  xlen : s.X.length = 16
  x : ∀ i, i < t → t ≤ i + 16 → s.X.getD (i % 16) 0 = W F M i

theorem and15 (n : Nat) : n &&& 0xf = n % 16 := Nat.and_two_pow_sub_one_eq_mod n 4

theorem constBody0_inv {w : Nat} (A : Alg w) (F : Sha2 w) (hA : Agree A F) (M : Nat → BitVec w) (H : V w) (t : Nat)
    (ht : t < 16) (s : CSt w) (hs : CInv F M H t s) : CInv F M H (t + 1) (constBody0 A F.K M s t) := by
  have hW : W F M t = M t := by rw [W, if_pos ht]
  refine ⟨?_, by simpa [constBody0] using hs.xlen, ?_⟩
  · rw [rounds, ← hs.regs, hW]
    simp only [constBody0, round, maj, Maj, hA.S0, hA.S1, hA.ch]
  · have := ring_set (W F M) s.X t hs.xlen hs.x
    rw [Nat.mod_eq_of_lt ht, hW] at this
    exact this

theorem constBody_inv {w : Nat} (A : Alg w) (F : Sha2 w) (hA : Agree A F) (M : Nat → BitVec w) (H : V w) (t : Nat)
    (ht : 16 ≤ t) (s : CSt w) (hs : CInv F M H t s) : CInv F M H (t + 1) (constBody A F.K s t) := by
  have hx := hs.x
  have e0 : s.X.getD (t % 16) 0 = W F M (t - 16) := by
    rw [← hx (t - 16) (by omega) (by omega)]; congr 1; omega
  have e1 : s.X.getD ((t + 1) % 16) 0 = W F M (t - 15) := by
    rw [← hx (t - 15) (by omega) (by omega)]; congr 1; omega
  have e14 : s.X.getD ((t + 14) % 16) 0 = W F M (t - 2) := by
    rw [← hx (t - 2) (by omega) (by omega)]; congr 1; omega
  have e9 : s.X.getD ((t + 9) % 16) 0 = W F M (t - 7) := by
    rw [← hx (t - 7) (by omega) (by omega)]; congr 1; omega
  have hW : s.X.getD (t % 16) 0 + (A.s0 (s.X.getD ((t + 1) % 16) 0) + A.s1 (s.X.getD ((t + 14) % 16) 0) +
      s.X.getD ((t + 9) % 16) 0) = W F M t := by
    rw [W, if_neg (by omega), e0, e1, e14, e9, hA.s0, hA.s1]
    ac_rfl
  have key : constBody A F.K s t =
      (let T1 := W F M t + (s.h + A.S1 s.e + A.ch s.e s.f s.g + BitVec.ofNat w (F.K.getD t 0))
       let T2 := A.S0 s.a + maj s.a s.b s.c
       { a := T1 + T2, b := s.a, c := s.b, d := s.c, e := s.d + T1, f := s.e, g := s.f, h := s.g,
         X := s.X.set (t % 16) (W F M t) }) := by
    simp only [constBody, and15, hW]
  rw [key]
  refine ⟨?_, by simpa using hs.xlen, ring_set (W F M) s.X t hs.xlen hs.x⟩
  rw [rounds, ← hs.regs]
  simp only [round, maj, Maj, hA.S0, hA.S1, hA.ch, BitVec.add_comm (W F M t)]

/-- One block during constant evaluation is the standard's compression. -/
theorem constBlock_eq {w : Nat} (A : Alg w) (F : Sha2 w) (hA : Agree A F) (h16 : 16 ≤ F.K.length)
    (hr : F.rounds = F.K.length) (H : V w) (M : Nat → BitVec w) :
    constBlock A F.K M H.toList =
      (let v := rounds F M H F.rounds
       (⟨v.a + H.a, v.b + H.b, v.c + H.c, v.d + H.d, v.e + H.e, v.f + H.f, v.g + H.g, v.h + H.h⟩ : V w)).toList := by
  unfold constBlock
  rw [hr]
  have h0 : CInv F M H 0 ⟨H.toList.getD 0 0, H.toList.getD 1 0, H.toList.getD 2 0, H.toList.getD 3 0, H.toList.getD 4 0,
      H.toList.getD 5 0, H.toList.getD 6 0, H.toList.getD 7 0, List.replicate 16 0⟩ :=
    ⟨rfl, by simp, fun i hi => by omega⟩
  have h1 := foldl_range_inv (constBody0 A F.K M) (CInv F M H) 0 16
    (fun i s hi h => by rw [Nat.zero_add] at h ⊢; exact constBody0_inv A F hA M H i hi s h) _ h0
  rw [Nat.zero_add] at h1
  have h2 := foldl_range_inv (fun s i => constBody A F.K s (16 + i)) (CInv F M H) 16 (F.K.length - 16)
    (fun i s hi h => constBody_inv A F hA M H (16 + i) (by omega) s h) _ h1
  rw [Nat.add_sub_cancel' h16] at h2
  have e : ∀ s, (List.range' 16 (F.K.length - 16)).foldl (constBody A F.K) s =
      (List.range (F.K.length - 16)).foldl (fun s i => constBody A F.K s (16 + i)) s := by
    intro s
    rw [List.range'_eq_map_range, List.foldl_map]
  simp only [e]
  have h3 := h2.regs
  rw [← h3]
  simp only [V.toList, BitVec.add_comm, List.getD_cons_zero, List.getD_cons_succ]

theorem byteSwap_ofLe (l : List Nat) (hl : ∀ b ∈ l, b < 256) : byteSwap l.length (ofLe l) = ofBe l := by
  rw [byteSwap_eq, beBytes, leBytes_ofLe l hl, ofBe]

end Verif.Hash.Sha2
