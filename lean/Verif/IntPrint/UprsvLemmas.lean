import Verif.IntPrint.UprsvModel
import Verif.IntPrint.Lemmas2
/-! # Lemmas for the second integer printer -/
namespace Verif.IntPrint
open Verif

/-- The base-`b` text of `n`. -/
def baseText (b : Nat) (upper : Bool) (n : Nat) : List Nat := (numeral b n).map (digitChar upper)

/-- `r` is the result of printing `n` at `iter`: its numeral, plus at most one superfluous character after a
numeral of one digit. -/
def UOut (b : Nat) (upper : Bool) (m : Mem) (iter n : Nat) (r : Option (Mem × Nat)) : Prop :=
  ∃ rest : List Nat, rest.length ≤ 1 ∧ (rest ≠ [] → n < b) ∧
    r = some (store m iter (baseText b upper n ++ rest), iter + (baseText b upper n).length)

theorem store_over (m : Mem) (p q : Nat) (a rest l : List Nat) (hq : q = p + a.length)
    (h : rest.length ≤ l.length) : store (store m p (a ++ rest)) q l = store m p (a ++ l) := by
  subst hq
  rw [← store_store_append m p a rest, ← store_store_append m p a l]
  funext x
  simp only [store_apply]
  by_cases hx : p + a.length ≤ x
  · by_cases hl : x - (p + a.length) < l.length
    · simp [hx, hl]
    · have h1 : l[x - (p + a.length)]? = none := List.getElem?_eq_none (by omega)
      have h2 : rest[x - (p + a.length)]? = none := List.getElem?_eq_none (by omega)
      simp [hx, h1, h2]
  · simp [hx]

theorem baseText_two (b : Nat) (upper : Bool) (hb : 2 ≤ b) (n : Nat) (h1 : b ≤ n) (h2 : n < b * b) :
    baseText b upper n = (padded b 2 n).map (digitChar upper) := by
  simp [baseText, numeral_eq_padded hb 1 n (by simpa [Nat.pow_succ] using h2) (Or.inr (by simpa using h1))]

theorem uLead_out (base : Nat) (upper : Bool) (hb : 2 ≤ base) (m : Mem) (iter v : Nat) (hv : v < base * base) :
    UOut base upper m iter v (uLead base upper m iter v) := by
  by_cases h : v < base
  · have hvb : v + 1 < base * base := by nlinarith
    have h1 := digitsTable_get base upper v 1 hv (by omega)
    have h0 := digitsTable_get base upper (v + 1) 0 hvb (by omega)
    simp only [Nat.mul_add, Nat.add_zero, Nat.mul_one] at h1 h0
    refine ⟨[digitChar upper ((v + 1) / base)], by simp, fun _ => h, ?_⟩
    simp only [uLead, if_pos h, copyAt]
    rw [show 1 + 2 * v = 2 * v + 1 by omega, h1, show 2 * v + 1 + 1 = 2 * v + 2 by omega, h0]
    simp [baseText, numeral_small h, Nat.mod_eq_of_lt h]
  · refine ⟨[], by simp, by simp, ?_⟩
    have hc := copyPair_eq base upper m iter v hv
    simp only [uLead, if_neg h]
    have : copyAt (digitsTable base upper) m iter (0 + 2 * v) = copyPair (digitsTable base upper) m iter v := by
      simp [copyAt, copyPair]
    rw [this, hc, baseText_two base upper hb v (by omega) hv]
    simp

/-- Printing more digits after an output. -/
theorem UOut.append {b : Nat} {upper : Bool} (hb : 2 ≤ b) {m : Mem} {iter n : Nat} {r : Option (Mem × Nat)}
    (k : Nat) (hk : 1 ≤ k) (h1 : b ^ k ≤ n) (h : UOut b upper m iter (n / b ^ k) r)
    (f : Mem → Nat → Option (Mem × Nat))
    (hf : ∀ m q, f m q = some (store m q ((padded b k (n % b ^ k)).map (digitChar upper)), q + k)) :
    UOut b upper m iter n (r.bind fun s => f s.1 s.2) := by
  obtain ⟨rest, hl, _, rfl⟩ := h
  refine ⟨[], by simp, by simp, ?_⟩
  simp only [Option.bind_some, hf]
  rw [store_over _ _ _ _ _ _ rfl (by simp; omega)]
  have : baseText b upper n = baseText b upper (n / b ^ k) ++ (padded b k (n % b ^ k)).map (digitChar upper) := by
    simp [baseText, numeral_split hb k n h1]
  rw [this]
  simp [Nat.add_assoc]

/-- The loop of pairs: from a word that encodes `k + 2` more digits, one step. -/
theorem uPair_mid {m : Mem} {iter u len k : Nat} {s : Mem × Nat} (h : Mid m iter u len (k + 2) s) :
    ∃ s', uPair len iter s = some s' ∧ Mid m iter u (len + 2) k s' := jeaD_mid h

theorem mid_start (m : Mem) (iter u k t : Nat) (h : WordInv u k t) : Mid m iter u 0 k (m, t) :=
  ⟨by simp [padded], u, h, rfl⟩

theorem mid_done {m : Mem} {iter u len : Nat} {s : Mem × Nat} (h : Mid m iter u len 0 s) :
    s.1 = store m iter ((padded 10 len u).map (digitChar false)) := by
  have := h.1
  simpa using this

/-- The block values that `uprsv_handle8_impl<false>` prints correctly (among others). -/
def Good8 (n : Nat) : Prop := n = 0 ∨ 226500 ≤ n

theorem word48 (n : Nat) (h : Good8 n) (hn : n < 10 ^ 8) : WordInv n 6 (magic48 * n % 2 ^ 64 / 2 ^ 16) := by
  unfold WordInv magic48
  norm_num at hn ⊢
  rcases h with rfl | h
  · decide
  · rw [Nat.mod_eq_of_lt (show 281474977 * n < _ by omega)]
    omega

theorem word32 (n : Nat) (hn : n < 1000000) : WordInv n 4 (n * magic32) := by
  unfold WordInv magic32
  norm_num
  omega

theorem uNext8_eq (m : Mem) (iter n : Nat) (h : Good8 n) (hn : n < 10 ^ 8) :
    uNext8 m iter n = some (store m iter ((padded 10 8 n).map (digitChar false)), iter + 8) := by
  have hw := word48 n h hn
  have hd := hw.div
  have h100 : n / 10 ^ 6 < 100 := by norm_num at hn ⊢; omega
  have h2 : Mid m iter n 2 6 (store m iter ((padded 10 2 (n / 10 ^ 6)).map (digitChar false)),
      magic48 * n % 2 ^ 64 / 2 ^ 16) := ⟨rfl, n, hw, rfl⟩
  obtain ⟨s1, e1, h1⟩ := uPair_mid h2
  obtain ⟨s2, e2, h2⟩ := uPair_mid h1
  obtain ⟨s3, e3, h3⟩ := uPair_mid h2
  unfold uNext8
  simp only [hd]
  rw [copyPair_eq 10 false m iter _ (by omega)]
  simp only [Option.bind_eq_bind, Option.bind_some, e1, e2, e3]
  rw [mid_done h3]
  rfl

theorem two_pairs (m : Mem) (q u t : Nat) (h : WordInv u 4 t) :
    ((uPair 0 q (m, t)).bind fun s => (uPair 2 q s).bind fun s => some (s.1, q + 4)) =
      some (store m q ((padded 10 4 (u % 10 ^ 4)).map (digitChar false)), q + 4) := by
  have h0 : Mid m q u 0 4 (m, t) := mid_start _ _ _ _ _ h
  obtain ⟨s1, e1, h1⟩ := uPair_mid h0
  obtain ⟨s2, e2, h2⟩ := uPair_mid h1
  rw [e1]; simp only [Option.bind_some]
  rw [e2]; simp only [Option.bind_some]
  rw [mid_done h2, padded_mod 10 (by omega)]

theorem three_pairs (m : Mem) (q u t : Nat) (h : WordInv u 6 t) :
    ((uPair 0 q (m, t)).bind fun s => (uPair 0 (q + 2) s).bind fun s => (uPair 2 (q + 2) s).bind fun s =>
        some (s.1, q + 2 + 4)) =
      some (store m q ((padded 10 6 (u % 10 ^ 6)).map (digitChar false)), q + 6) := by
  have h0 : Mid m q u 0 6 (m, t) := mid_start _ _ _ _ _ h
  obtain ⟨s1, e1, h1⟩ := uPair_mid h0
  obtain ⟨s2, e2, h2⟩ := uPair_mid h1
  obtain ⟨s3, e3, h3⟩ := uPair_mid h2
  rw [e1]; simp only [Option.bind_some]
  rw [show uPair 0 (q + 2) s1 = uPair 2 q s1 from rfl, e2]; simp only [Option.bind_some]
  rw [show uPair 2 (q + 2) s2 = uPair 4 q s2 from rfl, e3]; simp only [Option.bind_some]
  rw [mid_done h3, padded_mod 10 (by omega)]

theorem uFirst8_out (m : Mem) (iter n : Nat) (hn : n < 10 ^ 8) : UOut 10 false m iter n (uFirst8 m iter n) := by
  unfold uFirst8
  split
  · split
    · exact uLead_out 10 false (by omega) m iter n (by omega)
    · rename_i h1 h2
      have e1 : n * magic24 % 2 ^ 32 / 2 ^ 24 = n / 10 ^ 2 := by
        unfold magic24; norm_num
        rw [Nat.mod_eq_of_lt (show n * 167773 < _ by omega)]
        omega
      have e2 : n * magic24 % 2 ^ 32 % 2 ^ 24 * 100 % 2 ^ 32 / 2 ^ 24 = n % 10 ^ 2 := by
        unfold magic24; norm_num
        have hq : n / 100 < 100 := by omega
        have hr : n % 100 < 100 := Nat.mod_lt _ (by omega)
        have hn' : n = 100 * (n / 100) + n % 100 := by omega
        generalize n / 100 = q at *
        generalize n % 100 = r at *
        subst hn'
        clear e1
        have : (100 * q + r) * 167773 % 16777216 = 84 * q + 167773 * r := by omega
        rw [this, Nat.mod_eq_of_lt (show (84 * q + 167773 * r) * 100 < 4294967296 by omega)]
        clear this
        omega
      simp only [e1, e2]
      refine UOut.append (by omega) 2 (by omega) (by omega)
        (uLead_out 10 false (by omega) m iter (n / 10 ^ 2) (by omega))
        (fun m q => (copyPair (digitsTable 10 false) m q (n % 10 ^ 2)).bind fun m => some (m, q + 2)) ?_
      intro m q
      rw [copyPair_eq 10 false m q _ (by omega)]
      rfl
  · split
    · rename_i h1 h2
      have hw := word32 n h2
      simp only [hw.div]
      exact UOut.append (by omega) 4 (by omega) (by omega)
        (uLead_out 10 false (by omega) m iter (n / 10 ^ 4) (by omega))
        (fun m q => (uPair 0 q (m, n * magic32)).bind fun s => (uPair 2 q s).bind fun s => some (s.1, q + 4))
        (fun m q => two_pairs m q n _ hw)
    · rename_i h1 h2
      have hw := word48 n (Or.inr (by omega)) hn
      simp only [hw.div]
      exact UOut.append (by omega) 6 (by omega) (by omega)
        (uLead_out 10 false (by omega) m iter (n / 10 ^ 6) (by norm_num at hn ⊢; omega))
        (fun m q => (uPair 0 q (m, magic48 * n % 2 ^ 64 / 2 ^ 16)).bind fun s =>
          (uPair 0 (q + 2) s).bind fun s => (uPair 2 (q + 2) s).bind fun s => some (s.1, q + 2 + 4))
        (fun m q => three_pairs m q n _ hw)

theorem UOut.next8 {m : Mem} {iter n : Nat} {r : Option (Mem × Nat)} (h1 : 10 ^ 8 ≤ n) (hg : Good8 (n % 10 ^ 8))
    (h : UOut 10 false m iter (n / 10 ^ 8) r) (a : Nat) (ha : a = n % 10 ^ 8) :
    UOut 10 false m iter n (r.bind fun s => uNext8 s.1 s.2 a) := by
  subst ha
  exact h.append (by omega) 8 (by omega) h1 (fun m q => uNext8 m q (n % 10 ^ 8))
    (fun m q => uNext8_eq m q _ hg (Nat.mod_lt _ (by norm_num)))

theorem uNext18_eq (m : Mem) (iter n : Nat) (h1 : Good8 (n / 10 ^ 8 % 10 ^ 8)) (h2 : Good8 (n % 10 ^ 8))
    (hn : n < 10 ^ 18) :
    uNext18 m iter n = some (store m iter ((padded 10 18 n).map (digitChar false)), iter + 18) := by
  have e : n / 10 ^ 8 / 10 ^ 8 % 2 ^ 32 = n / 10 ^ 8 / 10 ^ 8 := by norm_num at hn ⊢; omega
  have ha : n / 10 ^ 8 / 10 ^ 8 < 10 * 10 := by norm_num at hn ⊢; omega
  unfold uNext18
  simp only [e]
  rw [copyPair_eq 10 false m iter _ ha]
  simp only [Option.bind_eq_bind, Option.bind_some]
  rw [uNext8_eq _ _ _ h1 (Nat.mod_lt _ (by norm_num))]
  simp only [Option.bind_some]
  rw [uNext8_eq _ _ _ h2 (Nat.mod_lt _ (by norm_num))]
  rw [store_store_at _ _ _ _ _ (by simp), store_store_at _ _ _ _ _ (by simp), ← List.map_append, ← List.map_append]
  rw [padded_add 10 (by omega) 10 8 n, padded_add 10 (by omega) 2 8 (n / 10 ^ 8)]
  simp only [List.append_assoc, Nat.add_assoc]

theorem UOut.next18 {m : Mem} {iter n : Nat} {r : Option (Mem × Nat)} (h1 : 10 ^ 18 ≤ n)
    (hg1 : Good8 (n / 10 ^ 8 % 10 ^ 8)) (hg2 : Good8 (n % 10 ^ 8))
    (h : UOut 10 false m iter (n / 10 ^ 18) r) (a : Nat) (ha : a = n % 10 ^ 18) :
    UOut 10 false m iter n (r.bind fun s => uNext18 s.1 s.2 a) := by
  subst ha
  refine h.append (by omega) 18 (by omega) h1 (fun m q => uNext18 m q (n % 10 ^ 18))
    (fun m q => uNext18_eq m q _ ?_ ?_ (Nat.mod_lt _ (by norm_num)))
  · have : n % 10 ^ 18 / 10 ^ 8 % 10 ^ 8 = n / 10 ^ 8 % 10 ^ 8 := by norm_num; omega
    rw [this]; exact hg1
  · have : n % 10 ^ 18 % 10 ^ 8 = n % 10 ^ 8 := by norm_num
    rw [this]; exact hg2

end Verif.IntPrint
