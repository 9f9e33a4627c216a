import Verif.Hash.LegacyModel
import Verif.Hash.Sha1Spec
import Verif.Hash.Md5Spec
import Verif.Hash.Sha2Final
/-!
# The unrolled SHA-1 and MD5 rounds compute the standards' recurrences
-/
namespace Verif.Hash.Legacy
open Verif Verif.Hash Verif.Hash.Fips Verif.Hash.Sha2

/-! ## SHA-1 -/

def kind1 (t : Nat) : Nat := if t < 16 then 0 else if t < 20 then 1 else if t < 40 then 2 else if t < 60 then 3 else 4
def args1 (t : Nat) : List Nat := [0, 1, 2, 3, 4].map fun j => (j + 4 * t) % 5
def row1 (t : Nat) : Line1 := ⟨kind1 t, args1 t, t % 16⟩

theorem sha1Lines_eq : sha1Lines = (List.range 80).map row1 := by decide +kernel

theorem maj_or (x y z : BitVec 32) : ((x ||| y) &&& z) ||| (x &&& y) = Maj x y z := by
  ext i hi
  simp only [Maj, BitVec.getElem_xor, BitVec.getElem_and, BitVec.getElem_or]
  cases x[i] <;> cases y[i] <;> cases z[i] <;> rfl

theorem rFun_eq (t : Nat) (x y z : BitVec 32) : rFun (kind1 t) x y z = (f1 t x y z, K1 t) := by
  unfold kind1 f1 K1
  by_cases h1 : t < 16
  · simp only [if_pos h1, if_pos (by omega : t ≤ 19), rFun, ch512]
  by_cases h2 : t < 20
  · simp only [if_neg h1, if_pos h2, if_pos (by omega : t ≤ 19), rFun, ch512]
  by_cases h3 : t < 40
  · simp only [if_neg h1, if_neg h2, if_pos h3, if_neg (by omega : ¬ t ≤ 19), if_pos (by omega : t ≤ 39), rFun]
  by_cases h4 : t < 60
  · simp only [if_neg h1, if_neg h2, if_neg h3, if_pos h4, if_neg (by omega : ¬ t ≤ 19), if_neg (by omega : ¬ t ≤ 39),
      if_pos (by omega : t ≤ 59), rFun, maj_or]
  · simp only [if_neg h1, if_neg h2, if_neg h3, if_neg h4, if_neg (by omega : ¬ t ≤ 19), if_neg (by omega : ¬ t ≤ 39),
      if_neg (by omega : ¬ t ≤ 59), rFun]

def place1 (t : Nat) (v : V1) : List (BitVec 32) := (List.range 5).map fun i => v.toList.getD ((i + t) % 5) 0

theorem place1_mod (t : Nat) (v : V1) : place1 t v = place1 (t % 5) v := by
  unfold place1; apply List.map_congr_left; intro i _; rw [Nat.add_mod_mod]

theorem args1_mod (t : Nat) : args1 t = args1 (t % 5) := by
  unfold args1; apply List.map_congr_left; intro i _; omega

/-- The locals after `t` rounds. -/
structure Inv1 (M : Nat → BitVec 32) (H : V1) (t : Nat) (s : List (BitVec 32) × List (BitVec 32)) : Prop where
  regs : s.1 = place1 t (rounds1 M H t)
  xlen : s.2.length = 16
  x : ∀ i, i < t ∨ i < 16 → t ≤ i + 16 → s.2.getD (i % 16) 0 = W1 M i

theorem rCall_inv (M : Nat → BitVec 32) (H : V1) (t : Nat) (s : List (BitVec 32) × List (BitVec 32)) (hs : Inv1 M H t s) :
    Inv1 M H (t + 1) (rCall s (row1 t)) := by
  obtain ⟨regs, X⟩ := s
  have hr := hs.regs; have hl := hs.xlen; have hx := hs.x
  simp only at hr hl hx
  subst hr
  -- the schedule
  have hX' : ∃ X', (if kind1 t = 0 then X else X.set (t % 16) (blk X (t % 16))) = X' ∧ X'.length = 16 ∧
      X'.getD (t % 16) 0 = W1 M t ∧ ∀ i, i < t + 1 ∨ i < 16 → t + 1 ≤ i + 16 → X'.getD (i % 16) 0 = W1 M i := by
    by_cases ht : t < 16
    · have hk : kind1 t = 0 := by simp [kind1, ht]
      rw [if_pos hk]
      refine ⟨X, rfl, hl, hx t (Or.inr ht) (by omega), fun i h1 h2 => hx i (by omega) (by omega)⟩
    · have hk : kind1 t ≠ 0 := by unfold kind1; split_ifs <;> omega
      rw [if_neg hk]
      have e0 : X.getD (t % 16) 0 = W1 M (t - 16) := by
        rw [← hx (t - 16) (Or.inl (by omega)) (by omega)]; congr 1; omega
      have e2 : X.getD ((t % 16 + 2) % 16) 0 = W1 M (t - 14) := by
        rw [← hx (t - 14) (Or.inl (by omega)) (by omega)]; congr 1; omega
      have e8 : X.getD ((t % 16 + 8) % 16) 0 = W1 M (t - 8) := by
        rw [← hx (t - 8) (Or.inl (by omega)) (by omega)]; congr 1; omega
      have e13 : X.getD ((t % 16 + 13) % 16) 0 = W1 M (t - 3) := by
        rw [← hx (t - 3) (Or.inl (by omega)) (by omega)]; congr 1; omega
      have hb : blk X (t % 16) = W1 M t := by
        rw [W1.eq_1 M t, if_neg ht, blk, and15, and15, and15, e0, e2, e8, e13]
        rfl
      rw [hb]
      have key := ring_set (W1 M) X t hl (fun i h1 h2 => hx i (Or.inl h1) h2)
      exact ⟨_, rfl, by simpa using hl, key t (by omega) (by omega), fun i h1 h2 => key i (by omega) h2⟩
  obtain ⟨X', hX', hl', ht', hx'⟩ := hX'
  have hfin : rCall (place1 t (rounds1 M H t), X) (row1 t) = (place1 (t + 1) (rounds1 M H (t + 1)), X') := by
    rw [show row1 t = ⟨kind1 t, args1 t, t % 16⟩ from rfl]
    simp only [rCall, rFun_eq]
    rw [hX', ht']
    rw [rounds1]
    generalize rounds1 M H t = v
    refine Prod.ext ?_ rfl
    simp only
    have e1 : place1 (t + 1) (round1 t (W1 M t) v) = place1 (t % 5 + 1) (round1 t (W1 M t) v) := by
      rw [place1_mod (t + 1), place1_mod (t % 5 + 1)]; congr 1; omega
    rw [args1_mod, place1_mod t v, e1]
    have hr : t % 5 < 5 := Nat.mod_lt _ (by decide)
    have ha : v.e + (f1 t v.b v.c v.d + W1 M t + K1 t + v.a.rotateLeft 5) = (round1 t (W1 M t) v).a := by
      simp only [round1]
      have : v.a.rotateLeft 5 = ROTL 5 v.a := rfl
      rw [this]
      ac_rfl
    have hc : v.b.rotateLeft 30 = (round1 t (W1 M t) v).c := rfl
    generalize t % 5 = r at hr
    have h5 : r = 0 ∨ r = 1 ∨ r = 2 ∨ r = 3 ∨ r = 4 := by omega
    have hrange : List.range 5 = [0, 1, 2, 3, 4] := rfl
    rcases h5 with h | h | h | h | h <;> subst h <;>
    · simp only [place1, args1, hrange, List.map_cons, List.map_nil, V1.toList, Nat.reduceMul, Nat.reduceAdd, Nat.reduceMod,
        List.getD_cons_zero, List.getD_cons_succ, List.set_cons_zero, List.set_cons_succ, ha, hc]
      rfl
  rw [hfin]
  exact ⟨rfl, hl', hx'⟩

theorem sha1Block_eq (M : Nat → BitVec 32) (H : V1) :
    sha1Block M H.toList =
      (let v := rounds1 M H 80
       (⟨v.a + H.a, v.b + H.b, v.c + H.c, v.d + H.d, v.e + H.e⟩ : V1)).toList := by
  unfold sha1Block
  have h0 : Inv1 M H 0 (H.toList, (List.range 16).map M) := by
    refine ⟨rfl, by simp, fun i h1 _ => ?_⟩
    have hi : i < 16 := by omega
    rw [W1.eq_1 M i, if_pos hi, Nat.mod_eq_of_lt hi]
    simp [List.getD_eq_getElem?_getD, hi]
  have h1 := foldl_range_inv (fun s i => rCall s (row1 i)) (Inv1 M H) 0 80
    (fun i s _ h => by rw [Nat.zero_add] at h ⊢; exact rCall_inv M H i s h) _ h0
  rw [Nat.zero_add] at h1
  rw [sha1Lines_eq]
  simp only [List.foldl_map]
  rw [h1.regs, place1_mod]
  show List.zipWith _ _ (V1.toList _) = _
  simp only [V1.toList, List.zipWith_cons_cons, List.zipWith_nil_left, BitVec.add_comm]

theorem W1_congr (M M' : Nat → BitVec 32) (h : ∀ i, i < 16 → M i = M' i) (t : Nat) : W1 M t = W1 M' t := by
  induction t using Nat.strong_induction_on with
  | _ t ih =>
    rw [W1.eq_1 M t, W1.eq_1 M' t]
    split
    · rename_i ht; exact h t ht
    · rename_i ht
      rw [ih (t - 3) (by omega), ih (t - 8) (by omega), ih (t - 14) (by omega), ih (t - 16) (by omega)]

theorem rounds1_congr (M M' : Nat → BitVec 32) (h : ∀ i, i < 16 → M i = M' i) (H : V1) (t : Nat) :
    rounds1 M H t = rounds1 M' H t := by
  induction t with
  | zero => rfl
  | succ t ih => rw [rounds1, rounds1, ih, W1_congr M M' h t]

theorem compress1_eq (H : V1) (b : List Nat) (M : Nat → BitVec 32) (h : ∀ i, i < 16 → M i = word 32 b i) :
    (let v := rounds1 M H 80
     (⟨v.a + H.a, v.b + H.b, v.c + H.c, v.d + H.d, v.e + H.e⟩ : V1)) = compress1 H b := by
  unfold compress1
  rw [rounds1_congr M _ h]

theorem comp1 (native : Bool) (H : V1) (b : List Nat) (hl : b.length = 64) (hb : ∀ x ∈ b, x < 256) :
    (sha1P native).comp H.toList b = (compress1 H b).toList := by
  simp only [sha1P]
  rw [sha1Block_eq]
  exact congrArg V1.toList (compress1_eq H b _ (fun i hi => loadWord_eq native 32 b i hb (by rw [hl]; omega)))

theorem comp1c (H : V1) (b : List Nat) (hb : ∀ x ∈ b, x < 256) :
    sha1ConstP.comp H.toList b = (compress1 H b).toList := by
  simp only [sha1ConstP]
  rw [sha1Block_eq]
  exact congrArg V1.toList (compress1_eq H b _ (fun i _ => constWord_eq 32 b i hb))

/-! ## MD5 -/

def op5 (t : Nat) : Op5 := if t < 16 then .F else if t < 32 then .G else if t < 48 then .Htmp else .I
def args5 (t : Nat) : List Nat := [0, 1, 2, 3].map fun j => (j + 3 * t) % 4
def args5H (t : Nat) : List Nat := [0, 1, 3].map fun j => (j + 3 * t) % 4
def row5 (t : Nat) : Line5 :=
  ⟨op5 t, if op5 t = .Htmp then args5H t else args5 t, Rfc1321.kIdx t, Rfc1321.shift t, Rfc1321.T.getD t 0⟩

theorem md5Lines_eq : md5Lines.take 32 = (List.range 32).map row5 ∧
    md5Lines.drop 32 = (List.range 32).map (fun i => row5 (32 + i)) := by decide +kernel

theorem and_add_disjoint (x y z : BitVec 32) : (z &&& x) + (~~~ z &&& y) = (x &&& z) ||| (y &&& ~~~ z) := by
  rw [BitVec.add_eq_or_of_and_eq_zero, BitVec.and_comm z x, BitVec.and_comm (~~~ z) y]
  ext i hi
  simp only [BitVec.getElem_and, BitVec.getElem_not, BitVec.getElem_zero]
  cases x[i] <;> cases y[i] <;> cases z[i] <;> rfl

theorem f_eq (x y z : BitVec 32) : (x &&& (y ^^^ z)) ^^^ z = Rfc1321.F x y z := by
  ext i hi
  simp only [Rfc1321.F, BitVec.getElem_xor, BitVec.getElem_and, BitVec.getElem_not, BitVec.getElem_or]
  cases x[i] <;> cases y[i] <;> cases z[i] <;> rfl

theorem unit5_eq (t : Nat) (x y z : BitVec 32) : unit5 (op5 t) x y z = Rfc1321.fn t x y z := by
  unfold op5 Rfc1321.fn
  split_ifs
  · exact f_eq x y z
  · exact and_add_disjoint x y z
  · rfl
  · rfl

def place5 (t : Nat) (v : Rfc1321.V) : List (BitVec 32) := (List.range 4).map fun i => v.toList.getD ((i + t) % 4) 0

theorem place5_mod (t : Nat) (v : Rfc1321.V) : place5 t v = place5 (t % 4) v := by
  unfold place5; apply List.map_congr_left; intro i _; rw [Nat.add_mod_mod]

theorem args5_mod (t : Nat) : args5 t = args5 (t % 4) := by
  unfold args5; apply List.map_congr_left; intro i _; omega

theorem args5H_mod (t : Nat) : args5H t = args5H (t % 4) := by
  unfold args5H; apply List.map_congr_left; intro i _; omega

theorem shift_lt (t : Nat) : Rfc1321.shift t < 32 := by
  have ht : t % 4 < 4 := Nat.mod_lt _ (by decide)
  unfold Rfc1321.shift
  generalize t % 4 = r at ht
  have h4 : r = 0 ∨ r = 1 ∨ r = 2 ∨ r = 3 := by omega
  rcases h4 with h | h | h | h <;> subst h <;> split_ifs <;> decide

theorem rotl_eq (x : BitVec 32) (s : Nat) (h : s < 32) : x.rotateLeft s = ROTL s x := by
  rw [BitVec.rotateLeft, Nat.mod_eq_of_lt h]; rfl

theorem call5_step (X : Nat → BitVec 32) (t : Nat) (v : Rfc1321.V) (tmp : BitVec 32)
    (htmp : 32 ≤ t → t < 48 → tmp = v.c ^^^ v.d) :
    (call5 X (place5 t v, tmp) (row5 t)).1 = place5 (t + 1) (Rfc1321.step X t v) ∧
    (32 ≤ t → t < 48 →
      (call5 X (place5 t v, tmp) (row5 t)).2 = (Rfc1321.step X t v).c ^^^ (Rfc1321.step X t v).d) := by
  have hb : ∀ k, (X (Rfc1321.kIdx t) + BitVec.ofNat 32 (Rfc1321.T.getD t 0) + v.a + k).rotateLeft (Rfc1321.shift t) + v.b =
      v.b + ROTL (Rfc1321.shift t) (v.a + k + X (Rfc1321.kIdx t) + BitVec.ofNat 32 (Rfc1321.T.getD t 0)) := by
    intro k
    rw [rotl_eq _ _ (shift_lt t), BitVec.add_comm]
    congr 2
    ac_rfl
  have h4 : t % 4 = 0 ∨ t % 4 = 1 ∨ t % 4 = 2 ∨ t % 4 = 3 := by omega
  have hrange : List.range 4 = [0, 1, 2, 3] := rfl
  have e1 : place5 (t + 1) (Rfc1321.step X t v) = place5 (t % 4 + 1) (Rfc1321.step X t v) := by
    rw [place5_mod (t + 1), place5_mod (t % 4 + 1)]; congr 1; omega
  by_cases hop : op5 t = .Htmp
  · have hrow : row5 t = ⟨.Htmp, args5H t, Rfc1321.kIdx t, Rfc1321.shift t, Rfc1321.T.getD t 0⟩ := by
      rw [row5, hop]; rfl
    have ht : 32 ≤ t ∧ t < 48 := by
      unfold op5 at hop; split_ifs at hop; exact ⟨by omega, by assumption⟩
    have hfn : Rfc1321.fn t v.b v.c v.d = v.c ^^^ v.d ^^^ v.b := by
      unfold Rfc1321.fn
      rw [if_neg (by omega), if_neg (by omega), if_pos (by omega), Rfc1321.H]
      ac_rfl
    have hx : v.c ^^^ v.d ^^^ v.b ^^^ v.d = (Rfc1321.step X t v).c ^^^ (Rfc1321.step X t v).d := by
      simp only [Rfc1321.step]
      ext i hi
      simp only [BitVec.getElem_xor]
      cases v.b[i] <;> cases v.c[i] <;> cases v.d[i] <;> rfl
    have hbb := hb (v.c ^^^ v.d ^^^ v.b)
    have hfin : call5 X (place5 t v, tmp) (row5 t) =
        (place5 (t + 1) (Rfc1321.step X t v), (Rfc1321.step X t v).c ^^^ (Rfc1321.step X t v).d) := by
      rw [hrow, htmp ht.1 ht.2, e1, place5_mod t v]
      simp only [call5, if_true, args5H_mod t, ← hx]
      rcases h4 with h | h | h | h <;> rw [h] <;>
      · simp only [place5, args5H, hrange, List.map_cons, List.map_nil, Rfc1321.V.toList, Nat.reduceMul, Nat.reduceAdd,
          Nat.reduceMod, List.getD_cons_zero, List.getD_cons_succ, List.set_cons_zero, List.set_cons_succ, hbb]
        simp only [Rfc1321.step, hfn]
    rw [hfin]
    exact ⟨rfl, fun _ _ => rfl⟩
  · have hrow : row5 t = ⟨op5 t, args5 t, Rfc1321.kIdx t, Rfc1321.shift t, Rfc1321.T.getD t 0⟩ := by
      rw [row5, if_neg hop]
    have ht : ¬ (32 ≤ t ∧ t < 48) := by
      rintro ⟨h1, h2⟩; apply hop; unfold op5; rw [if_neg (by omega), if_neg (by omega), if_pos h2]
    have hfin : call5 X (place5 t v, tmp) (row5 t) = (place5 (t + 1) (Rfc1321.step X t v), tmp) := by
      rw [hrow, e1, place5_mod t v]
      simp only [call5, if_neg hop, args5_mod t, unit5_eq]
      have hbb := hb (Rfc1321.fn t v.b v.c v.d)
      rcases h4 with h | h | h | h <;> rw [h] <;>
      · simp only [place5, args5, hrange, List.map_cons, List.map_nil, Rfc1321.V.toList, Nat.reduceMul, Nat.reduceAdd,
          Nat.reduceMod, List.getD_cons_zero, List.getD_cons_succ, List.set_cons_zero, List.set_cons_succ, hbb]
        simp only [Rfc1321.step]
    rw [hfin]
    exact ⟨rfl, fun h1 h2 => absurd ⟨h1, h2⟩ ht⟩

theorem md5Block_eq (X : Nat → BitVec 32) (v : Rfc1321.V) :
    md5Block X v.toList =
      (let r := Rfc1321.steps X v 64
       (⟨v.a + r.a, v.b + r.b, v.c + r.c, v.d + r.d⟩ : Rfc1321.V)).toList := by
  unfold md5Block
  have h1 := foldl_range_inv (fun s i => call5 X s (row5 i)) (fun t s => s.1 = place5 t (Rfc1321.steps X v t)) 0 32
    (fun i s hi h => by
      rw [Nat.zero_add] at h ⊢
      obtain ⟨regs, tmp⟩ := s
      simp only at h
      subst h
      exact (call5_step X i _ tmp (fun h1 => by omega)).1) (v.toList, 0) rfl
  rw [Nat.zero_add] at h1
  rw [md5Lines_eq.1, md5Lines_eq.2]
  simp only [List.foldl_map]
  rw [h1]
  have h3 := foldl_range_inv (fun s i => call5 X s (row5 (32 + i)))
    (fun t s => s.1 = place5 t (Rfc1321.steps X v t) ∧
      (32 ≤ t → t < 48 → s.2 = (Rfc1321.steps X v t).c ^^^ (Rfc1321.steps X v t).d)) 32 32
    (fun i s hi h => by
      obtain ⟨regs, tmp⟩ := s
      simp only at h
      obtain ⟨h, h'⟩ := h
      subst h
      obtain ⟨a1, a2⟩ := call5_step X (32 + i) _ tmp h'
      exact ⟨a1, fun b1 b2 => a2 (by omega) (by omega)⟩)
    (place5 32 (Rfc1321.steps X v 32),
      (place5 32 (Rfc1321.steps X v 32)).getD 2 0 ^^^ (place5 32 (Rfc1321.steps X v 32)).getD 3 0)
    ⟨rfl, fun _ _ => rfl⟩
  rw [h3.1]
  rfl

theorem steps_congr (M M' : Nat → BitVec 32) (h : ∀ i, i < 16 → M i = M' i) (v : Rfc1321.V) (t : Nat) (ht : t ≤ 64) :
    Rfc1321.steps M v t = Rfc1321.steps M' v t := by
  induction t with
  | zero => rfl
  | succ t ih =>
    rw [Rfc1321.steps, Rfc1321.steps, ih (by omega)]
    have hk : Rfc1321.kIdx t < 16 := by unfold Rfc1321.kIdx; split_ifs <;> omega
    simp only [Rfc1321.step, h _ hk]

theorem byteSwap_ofBe (l : List Nat) (hl : ∀ b ∈ l, b < 256) : byteSwap l.length (ofBe l) = ofLe l := by
  have := byteSwap_ofLe l.reverse (fun b hb => hl b (by simpa using hb))
  rw [List.length_reverse] at this
  rw [ofBe, this, ofBe, List.reverse_reverse]

theorem loadWordLe_eq (native : Bool) (block : List Nat) (i : Nat) (hb : ∀ b ∈ block, b < 256)
    (hl : i * 4 + 4 ≤ block.length) : loadWord native false 32 block i = Rfc1321.word block i := by
  unfold loadWord Rfc1321.word
  have hlen : ((block.drop (i * 4)).take 4).length = 4 := by simp; omega
  have hbt : ∀ b ∈ (block.drop (i * 4)).take 4, b < 256 :=
    fun b hm => hb b (List.mem_of_mem_drop (List.mem_of_mem_take hm))
  cases native
  · simp only [Lebe.ofRepr, if_true]
    have := byteSwap_ofBe _ hbt
    rw [hlen] at this
    simp only [Nat.reduceDiv, Bool.false_eq_true, if_false, this]
  · simp [Lebe.ofRepr]

theorem compress5_eq (v : Rfc1321.V) (b : List Nat) (M : Nat → BitVec 32) (h : ∀ i, i < 16 → M i = Rfc1321.word b i) :
    (let r := Rfc1321.steps M v 64
     (⟨v.a + r.a, v.b + r.b, v.c + r.c, v.d + r.d⟩ : Rfc1321.V)) = Rfc1321.compress v b := by
  unfold Rfc1321.compress
  rw [steps_congr M _ h v 64 le_rfl]

theorem comp5 (native : Bool) (v : Rfc1321.V) (b : List Nat) (hl : b.length = 64) (hb : ∀ x ∈ b, x < 256) :
    (md5P native).comp v.toList b = (Rfc1321.compress v b).toList := by
  simp only [md5P]
  rw [md5Block_eq]
  exact congrArg Rfc1321.V.toList (compress5_eq v b _ (fun i hi => loadWordLe_eq native b i hb (by rw [hl]; omega)))

end Verif.Hash.Legacy
