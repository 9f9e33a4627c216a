import Verif.Hash.NiModel
import Verif.Hash.SimdMain
/-!
# The SHA-extension routines compute the FIPS 180-4 recurrences
-/
namespace Verif.Hash.Ni
open Verif Verif.Hash Verif.Hash.Sha2 Verif.Hash.Fips Verif.Hash.Simd

/-- What is known about a vector variable. -/
inductive Tag where
  | junk
  | raw (off : Nat)
  | words (k : Nat)
  | wk (k : Nat)
  | wkhi (k : Nat)
  | part1 (k : Nat)
  | part2 (k : Nat)
  | abef (t : Nat)
  | cdgh (t : Nat)
deriving DecidableEq

/-- Its meaning for the block with words `M`, from the hash value `H`. -/
def Tag.Holds (block : List Nat) (M : Nat → X) (H : V 32) (v : Vec 32) : Tag → Prop
  | .junk => True
  | .raw off => v = loadu block off
  | .words k => v = wsl Fips.sha256 M k 4
  | .wk k => v = wksl Fips.sha256 M k 4
  | .wkhi k => v.getD 0 0 = (wksl Fips.sha256 M k 4).getD 2 0 ∧ v.getD 1 0 = (wksl Fips.sha256 M k 4).getD 3 0
  | .part1 k => v = (List.range 4).map fun i => W Fips.sha256 M (k + i) + Fips.sha256.s0 (W Fips.sha256 M (k + i + 1))
  | .part2 k => v = (List.range 4).map fun i => W Fips.sha256 M (k + i) + Fips.sha256.s0 (W Fips.sha256 M (k + i + 1)) +
      W Fips.sha256 M (k + i + 9)
  | .abef t => v = (let r := rounds Fips.sha256 M H t; [r.f, r.e, r.b, r.a])
  | .cdgh t => v = (let r := rounds Fips.sha256 M H t; [r.h, r.g, r.d, r.c])

abbrev TEnv := Reg → Tag
def TEnv.set (e : TEnv) (r : Reg) (v : Tag) : TEnv := fun x => if x = r then v else e x

def kOk (k : Nat) (l : List Int) : Bool :=
  l.map (fun z => BitVec.ofInt 32 z) == (List.range 4).map fun i => (BitVec.ofNat 32 (K256.getD (k + i) 0) : X)

def tstep (e : TEnv) : NOp → Option TEnv
  | .load d off => some (e.set d (.raw off))
  | .swapTo d s => match e s with
    | .raw off => if off % 16 = 0 ∧ off ≤ 48 then some (e.set d (.words (off / 4))) else none
    | _ => none
  | .addk s l => match e s with
    | .words k => if kOk k l then some (e.set .msg (.wk k)) else none
    | _ => none
  | .rnds2 d s =>
    if d = s ∨ d = .msg ∨ s = .msg then none else
    match e d, e s, e .msg with
    | .cdgh t, .abef t', .wk k => if t = t' ∧ t = k then some ((e.set d (.abef (t + 2))).set s (.cdgh (t + 2))) else none
    | .cdgh t, .abef t', .wkhi k => if t = t' ∧ t = k + 2 then some ((e.set d (.abef (t + 2))).set s (.cdgh (t + 2))) else none
    | _, _, _ => none
  | .pshufd => match e .msg with
    | .wk k => some (e.set .msg (.wkhi k))
    | _ => none
  | .sigma1 d s => match e d, e s with
    | .words k, .words k' => if k' = k + 4 then some (e.set d (.part1 k)) else none
    | _, _ => none
  | .sigma2 d s => match e d, e s with
    | .part2 k, .words k' => if k' = k + 12 then some (e.set d (.words (k + 16))) else none
    | _, _ => none
  | .addalign d hi lo => match e d, e hi, e lo with
    | .part1 k, .words h, .words l => if h = k + 12 ∧ l = k + 8 then some (e.set d (.part2 k)) else none
    | _, _, _ => none

def tchk (e : TEnv) : List NOp → Option TEnv
  | [] => some e
  | o :: l => (tstep e o).bind fun e => tchk e l

def EnvOk (block : List Nat) (M : Nat → X) (H : V 32) (e : Env) (t : TEnv) : Prop := ∀ r, (t r).Holds block M H (e r)

theorem EnvOk.set {block : List Nat} {M : Nat → X} {H : V 32} {e : Env} {t : TEnv} (h : EnvOk block M H e t) (r : Reg) (v : Vec 32)
    (g : Tag) (hv : g.Holds block M H v) : EnvOk block M H (e.set r v) (t.set r g) := by
  intro x
  unfold Env.set TEnv.set
  by_cases c : x = r
  · rw [if_pos c, if_pos c]; exact hv
  · rw [if_neg c, if_neg c]; exact h x

theorem niRound_eq (k w a b c d e f g h : X) :
    niRound (k + w) (a, b, c, d, e, f, g, h) =
      (let v := round Fips.sha256 k w ⟨a, b, c, d, e, f, g, h⟩; (v.a, v.b, v.c, v.d, v.e, v.f, v.g, v.h)) := by
  have hS0 : ∀ x : X, bigS0 x = Fips.sha256.S0 x := fun _ => rfl
  have hS1 : ∀ x : X, bigS1 x = Fips.sha256.S1 x := fun _ => rfl
  have hC : ∀ x y z : X, chI x y z = Ch x y z := fun _ _ _ => rfl
  have hM : ∀ x y z : X, majI x y z = Maj x y z := fun _ _ _ => rfl
  simp only [niRound, round, hS0, hS1, hC, hM, Prod.mk.injEq, true_and, and_true]
  exact ⟨by ac_rfl, by ac_rfl⟩

theorem rnds2_eq (M : Nat → X) (H : V 32) (t : Nat) (wk : Vec 32)
    (h0 : wk.getD 0 0 = BitVec.ofNat 32 (Fips.sha256.K.getD t 0) + W Fips.sha256 M t)
    (h1 : wk.getD 1 0 = BitVec.ofNat 32 (Fips.sha256.K.getD (t + 1) 0) + W Fips.sha256 M (t + 1)) :
    (let r := rounds Fips.sha256 M H t
     sha256rnds2 [r.h, r.g, r.d, r.c] [r.f, r.e, r.b, r.a] wk) =
      (let r := rounds Fips.sha256 M H (t + 2); [r.f, r.e, r.b, r.a]) ∧
    (let r := rounds Fips.sha256 M H t; [r.f, r.e, r.b, r.a]) =
      (let r := rounds Fips.sha256 M H (t + 2); [r.h, r.g, r.d, r.c]) := by
  have e1 : rounds Fips.sha256 M H (t + 2) =
      round Fips.sha256 (BitVec.ofNat 32 (Fips.sha256.K.getD (t + 1) 0)) (W Fips.sha256 M (t + 1))
      (round Fips.sha256 (BitVec.ofNat 32 (Fips.sha256.K.getD t 0)) (W Fips.sha256 M t) (rounds Fips.sha256 M H t)) := rfl
  rw [e1]
  refine ⟨?_, rfl⟩
  generalize rounds Fips.sha256 M H t = v
  obtain ⟨a, b, c, d, e, f, g, h⟩ := v
  simp only [sha256rnds2, List.getD_cons_zero, List.getD_cons_succ, h0, h1]
  rw [niRound_eq, niRound_eq]

theorem bswap_load (block : List Nat) (off : Nat) (h16 : off % 16 = 0) (hoff : off ≤ 48) (hl : block.length = 64)
    (hb : ∀ x ∈ block, x < 256) : bswapLanes (loadu block off) = wsl Fips.sha256 (word 32 block) (off / 4) 4 := by
  unfold bswapLanes loadu wsl
  rw [List.map_map]
  apply List.map_congr_left
  intro i hi
  have hi' := List.mem_range.mp hi
  rw [W, if_pos (by omega)]
  have := loadWord_eq true 32 block (off / 4 + i) hb (by rw [hl]; omega)
  rw [← this]
  unfold loadWord
  have e : (off / 4 + i) * (32 / 8) = off + 4 * i := by omega
  simp only [Function.comp, e, if_pos, Lebe.ofRepr]
  congr 2
  rw [BitVec.toNat_ofNat]
  apply Nat.mod_eq_of_lt
  have := ofLe_lt ((block.drop (off + 4 * i)).take (32 / 8)) (fun b hm => hb b (List.mem_of_mem_drop (List.mem_of_mem_take hm)))
  have hlen : ((block.drop (off + 4 * i)).take (32 / 8)).length = 4 := by simp; omega
  rw [hlen] at this
  exact this

theorem tstep_sound (block : List Nat) (hl : block.length = 64) (hb : ∀ x ∈ block, x < 256) (H : V 32) (e : Env) (t t' : TEnv)
    (o : NOp) (h : EnvOk block (word 32 block) H e t) (hc : tstep t o = some t') :
    EnvOk block (word 32 block) H (nstep block e o) t' := by
  cases o with
  | load d off => cases hc; exact h.set d _ _ rfl
  | swapTo d s =>
    have hs := h s
    simp only [tstep] at hc
    split at hc
    · rename_i off he
      rw [he] at hs
      split at hc
      · rename_i hh
        cases hc
        refine h.set d _ _ ?_
        simp only [Tag.Holds] at hs ⊢
        rw [hs, bswap_load block off hh.1 hh.2 hl hb]
      · cases hc
    · cases hc
  | addk s l =>
    have hs := h s
    simp only [tstep] at hc
    split at hc
    · rename_i k he
      rw [he] at hs
      split at hc
      · rename_i hh
        cases hc
        refine h.set .msg _ _ ?_
        simp only [Tag.Holds] at hs ⊢
        unfold kOk at hh
        rw [hs, eq_of_beq hh, K256_eq]
        simp [vadd, wsl, wksl, r4, BitVec.add_comm]
      · cases hc
    · cases hc
  | rnds2 d s =>
    have hd := h d; have hs := h s; have hm := h .msg
    simp only [tstep] at hc
    split at hc
    · cases hc
    · rename_i hne
      push Not at hne
      obtain ⟨n1, n2, n3⟩ := hne
      have fin : ∀ u, (t d = .cdgh u) → (t s = .abef u) →
          (e .msg).getD 0 0 = BitVec.ofNat 32 (Fips.sha256.K.getD u 0) + W Fips.sha256 (word 32 block) u →
          (e .msg).getD 1 0 = BitVec.ofNat 32 (Fips.sha256.K.getD (u + 1) 0) + W Fips.sha256 (word 32 block) (u + 1) →
          EnvOk block (word 32 block) H (nstep block e (.rnds2 d s)) ((t.set d (.abef (u + 2))).set s (.cdgh (u + 2))) := by
        intro u g1 g2 w0 w1
        rw [g1] at hd; rw [g2] at hs
        simp only [Tag.Holds] at hd hs
        obtain ⟨q1, q2⟩ := rnds2_eq (word 32 block) H u (e .msg) w0 w1
        have key := h.set d (sha256rnds2 (e d) (e s) (e .msg)) (.abef (u + 2)) (by
          simp only [Tag.Holds]; rw [hd, hs]; exact q1)
        intro x
        have kx := key x
        unfold TEnv.set at kx ⊢
        by_cases c : x = s
        · subst c
          rw [if_pos rfl]
          simp only [nstep, Env.set, Tag.Holds]
          rw [if_neg (Ne.symm n1), hs]
          exact q2
        · rw [if_neg c]
          exact kx
      split at hc
      · rename_i u u' k g1 g2 g3
        split at hc
        · rename_i hh
          obtain ⟨rfl, rfl⟩ := hh
          cases hc
          rw [g3] at hm
          simp only [Tag.Holds] at hm
          exact fin u g1 g2 (by rw [hm]; rfl) (by rw [hm]; rfl)
        · cases hc
      · rename_i u u' k g1 g2 g3
        split at hc
        · rename_i hh
          obtain ⟨rfl, rfl⟩ := hh
          cases hc
          rw [g3] at hm
          simp only [Tag.Holds] at hm
          exact fin _ g1 g2 (by rw [hm.1]; rfl) (by rw [hm.2]; rfl)
        · cases hc
      · cases hc
  | pshufd =>
    have hm := h .msg
    simp only [tstep] at hc
    split at hc
    · rename_i k g
      cases hc
      rw [g] at hm
      refine h.set .msg _ _ ?_
      simp only [Tag.Holds] at hm ⊢
      rw [hm]
      generalize wksl Fips.sha256 (word 32 block) k 4 = q
      exact ⟨by simp [pshufd, r4], by simp [pshufd, r4]⟩
    · cases hc
  | sigma1 d s =>
    have hd := h d; have hs := h s
    simp only [tstep] at hc
    split at hc
    · rename_i k k' g1 g2
      split at hc
      · rename_i hh
        subst hh
        cases hc
        rw [g1] at hd; rw [g2] at hs
        refine h.set d _ _ ?_
        simp only [Tag.Holds] at hd hs ⊢
        rw [hd, hs]
        have hq : ∀ x : X, smallS0 x = Fips.sha256.s0 x := fun _ => rfl
        simp only [sha256msg1, wsl, r4, List.map_cons, List.map_nil, List.getD_cons_zero, List.getD_cons_succ, hq,
          Nat.add_assoc, Nat.reduceAdd, Nat.add_zero]
      · cases hc
    · cases hc
  | sigma2 d s =>
    have hd := h d; have hs := h s
    simp only [tstep] at hc
    split at hc
    · rename_i k k' g1 g2
      split at hc
      · rename_i hh
        subst hh
        cases hc
        rw [g1] at hd; rw [g2] at hs
        refine h.set d _ _ ?_
        simp only [Tag.Holds] at hd hs ⊢
        rw [hd, hs]
        have hq : ∀ x : X, smallS1 x = Fips.sha256.s1 x := fun _ => rfl
        have e0 := W_rec Fips.sha256 (word 32 block) (k + 16) (by omega)
        have e1 := W_rec Fips.sha256 (word 32 block) (k + 17) (by omega)
        have e2 := W_rec Fips.sha256 (word 32 block) (k + 18) (by omega)
        have e3 := W_rec Fips.sha256 (word 32 block) (k + 19) (by omega)
        simp only [Nat.reduceSubDiff, Nat.add_sub_cancel, Nat.add_zero] at e0 e1 e2 e3
        simp only [sha256msg2, wsl, r4, List.map_cons, List.map_nil, List.getD_cons_zero, List.getD_cons_succ, hq,
          Nat.add_assoc, Nat.reduceAdd, Nat.add_zero]
        have f0 : W Fips.sha256 (word 32 block) k + Fips.sha256.s0 (W Fips.sha256 (word 32 block) (k + 1)) +
            W Fips.sha256 (word 32 block) (k + 9) + Fips.sha256.s1 (W Fips.sha256 (word 32 block) (k + 14)) =
            W Fips.sha256 (word 32 block) (k + 16) := by rw [e0]; ac_rfl
        have f1 : W Fips.sha256 (word 32 block) (k + 1) + Fips.sha256.s0 (W Fips.sha256 (word 32 block) (k + 2)) +
            W Fips.sha256 (word 32 block) (k + 10) + Fips.sha256.s1 (W Fips.sha256 (word 32 block) (k + 15)) =
            W Fips.sha256 (word 32 block) (k + 17) := by rw [e1]; ac_rfl
        rw [f0, f1, e2, e3]
        simp only [List.cons.injEq, and_true, true_and]
        exact ⟨by ac_rfl, by ac_rfl⟩
      · cases hc
    · cases hc
  | addalign d hi lo =>
    have hd := h d; have hh := h hi; have hlo := h lo
    simp only [tstep] at hc
    split at hc
    · rename_i k u v g1 g2 g3
      split at hc
      · rename_i hh'
        obtain ⟨rfl, rfl⟩ := hh'
        cases hc
        rw [g1] at hd; rw [g2] at hh; rw [g3] at hlo
        refine h.set d _ _ ?_
        simp only [Tag.Holds] at hd hh hlo ⊢
        rw [hd, hh, hlo]
        rfl
      · cases hc
    · cases hc

theorem tchk_sound (block : List Nat) (hl : block.length = 64) (hb : ∀ x ∈ block, x < 256) (H : V 32) :
    ∀ (ops : List NOp) (e : Env) (t t' : TEnv), EnvOk block (word 32 block) H e t → tchk t ops = some t' →
      EnvOk block (word 32 block) H (ops.foldl (nstep block) e) t'
  | [], e, t, t', h, hc => by cases hc; exact h
  | o :: l, e, t, t', h, hc => by
    rw [tchk] at hc
    cases h1 : tstep t o with
    | none => rw [h1] at hc; cases hc
    | some b =>
      rw [h1] at hc
      exact tchk_sound block hl hb H l _ b t' (tstep_sound block hl hb H e t b o h h1) hc

/-- The tags at the start of a block. -/
def tag0 : TEnv := fun r => match r with
  | .st0 => .abef 0
  | .st1 => .cdgh 0
  | _ => .junk

/-- The state vectors of a hash value. -/
def pack (H : V 32) : Vec 32 × Vec 32 := ([H.f, H.e, H.b, H.a], [H.h, H.g, H.d, H.c])

theorem niBlock_eq (ops : List NOp) (hops : (tchk tag0 ops).map (fun t => (t .st0, t .st1)) = some (.abef 64, .cdgh 64))
    (H : V 32) (block : List Nat) (hl : block.length = 64) (hb : ∀ x ∈ block, x < 256) :
    niBlock ops (pack H) block = pack (compress Fips.sha256 H block) := by
  cases he : tchk tag0 ops with
  | none => rw [he] at hops; cases hops
  | some t' =>
    rw [he] at hops
    have h0 : EnvOk block (word 32 block) H (env0 (pack H)) tag0 := by
      intro r; cases r <;> first | trivial | rfl
    have h := tchk_sound block hl hb H ops _ tag0 t' h0 he
    simp only [Option.map_some, Option.some.injEq, Prod.mk.injEq] at hops
    have h1 := h .st0; have h2 := h .st1
    rw [hops.1] at h1; rw [hops.2] at h2
    simp only [Tag.Holds] at h1 h2
    unfold niBlock
    simp only
    rw [h1, h2]
    have hr : Fips.sha256.rounds = 64 := rfl
    simp only [pack, compress, hr, vadd, List.zipWith_cons_cons, List.zipWith_nil_left, BitVec.add_comm]

theorem foldl_pack (ops : List NOp) (hops : (tchk tag0 ops).map (fun t => (t .st0, t .st1)) = some (.abef 64, .cdgh 64)) :
    ∀ (bl : List (List Nat)) (H : V 32), (∀ b ∈ bl, b.length = 64 ∧ ∀ x ∈ b, x < 256) →
      bl.foldl (niBlock ops) (pack H) = pack (bl.foldl (compress Fips.sha256) H)
  | [], H, _ => rfl
  | b :: bl, H, h => by
    rw [List.foldl_cons, List.foldl_cons, niBlock_eq ops hops H b (h b (by simp)).1 (h b (by simp)).2]
    exact foldl_pack ops hops bl _ fun c hc => h c (by simp [hc])

theorem niRun_eq (H : V 32) (bl : List (List Nat)) (h : ∀ b ∈ bl, b.length = 64 ∧ ∀ x ∈ b, x < 256) :
    niRun H.toList bl = (bl.foldl (compress Fips.sha256) H).toList := by
  have := foldl_pack niOps (by decide +kernel) bl H h
  unfold niRun
  have e : ((([H.toList.getD 5 0, H.toList.getD 4 0, H.toList.getD 1 0, H.toList.getD 0 0] : Vec 32),
    ([H.toList.getD 7 0, H.toList.getD 6 0, H.toList.getD 3 0, H.toList.getD 2 0] : Vec 32))) = pack H := rfl
  simp only [e, this]
  rfl

theorem niRunMsvc_eq (H : V 32) (bl : List (List Nat)) (h : ∀ b ∈ bl, b.length = 64 ∧ ∀ x ∈ b, x < 256) :
    niRunMsvc H.toList bl = (bl.foldl (compress Fips.sha256) H).toList := by
  have := foldl_pack niOpsMsvc (by decide +kernel) bl H h
  unfold niRunMsvc
  have e : (palignr (pshufd ((List.range 4).map fun i => H.toList.getD i 0) 0xB1)
      (pshufd ((List.range 4).map fun i => H.toList.getD (4 + i) 0) 0x1B) 8,
    pblendw (pshufd ((List.range 4).map fun i => H.toList.getD (4 + i) 0) 0x1B)
      (pshufd ((List.range 4).map fun i => H.toList.getD i 0) 0xB1) 0xF0) = pack H := rfl
  simp only [e, this]
  rfl

end Verif.Hash.Ni
