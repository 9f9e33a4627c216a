import Verif.LcFloat.Text
import Verif.Float.HexProps
/-! # The hexadecimal format with a locale -/
namespace Verif.LcFloat
open Verif Verif.IntPrint Verif.Float Verif.Lc

/-- Without a locale the printer behaves as with the decimal point `.`. -/
theorem lcPrintHex_dot (t : Trait) (f : Flags) (m : Mem) (iter bits : Nat) :
    lcPrintHex t f [46] m iter bits = printHex t { f with comma := false } m iter bits := by
  have h : ∀ (e : Nat) (m : Mem) (p : Nat), store (store m p [if e = 0 then 48 else 49]) (p + 1) [46] =
      (if e = 0 then hex0d false m p else hex1d false m p).1 := by
    intro e m p
    rw [store_store_at _ p (p + 1) _ _ rfl]
    split <;> simp [hex0d, hex1d, lit]
  have h2 : ∀ (e : Nat) (m : Mem) (p : Nat), (if e = 0 then hex0d false m p else hex1d false m p).2 = p + 2 := by
    intro e m p
    split <;> rfl
  unfold lcPrintHex printHex
  simp only [putPoint_eq, h, h2, List.length_singleton]

/-- The parts of the text with a locale: they do not depend on the decimal point. -/
theorem lcPrintHex_parts (t : Trait) (hg : HexGood t) (f : Flags) (m : Mem) (iter bits : Nat)
    (hhi : Spec.expField t.mbits t.ebits bits ≠ 2 ^ t.ebits - 1 →
      ¬ (Spec.fracField t.mbits bits = 0 ∧ Spec.expField t.mbits t.ebits bits = 0) →
      ((if Spec.expField t.mbits t.ebits bits = 0 then 1 else (Spec.expField t.mbits t.ebits bits : Int)) -
        Spec.bias t.ebits).natAbs < 10 ^ t.e2hexdigits) :
    ∃ (pre post : List Nat) (point : Bool), (∀ c ∈ pre, c ≠ 46) ∧ (∀ c ∈ post, c ≠ 46) ∧
      pre.length + 1 + post.length ≤ 12 + (t.mbits + 3) / 4 ∧
      ∀ dp, lcPrintHex t f dp m iter bits =
        some (store m iter (pre ++ (if point then dp else []) ++ post),
          iter + (pre ++ (if point then dp else []) ++ post).length) := by
  have hb := expBias t hg.ebits
  have hf : Spec.fracField t.mbits bits < 2 ^ t.mbits := Nat.mod_lt _ (Nat.pow_pos (by omega))
  have hd4 := hg.div4
  have hfits := hg.fits
  unfold lcPrintHex
  simp only [punned_eq, hb, fpSign_eq, lit, hex0p0, basePrefix16, putPoint_eq]
  clear hb
  generalize hmk : ((t.mbits / 4 + 1) * 4 - t.mbits) % 4 = mk at *
  have hmk4 : mk < 4 := by omega
  generalize hs : Spec.signText f.showpos (Spec.signBit t.mbits t.ebits bits) = st
  have hst : st.length ≤ 1 ∧ ∀ c ∈ st, c ≠ 46 := by
    rw [← hs]; unfold Spec.signText
    split <;> [simp; split <;> simp]
  generalize Spec.expField t.mbits t.ebits bits = e at *
  generalize Spec.fracField t.mbits bits = fr at *
  have hexp : ∀ x : Int, ∀ c ∈ ((if x < 0 then 45 else 43) :: decText x.natAbs), c ≠ 46 := by
    intro x c hc
    rcases List.mem_cons.mp hc with h | h
    · subst h; split <;> omega
    · unfold decText at h
      obtain ⟨d, hd, rfl⟩ := List.mem_map.mp h
      unfold digitChar
      split
      · omega
      · simp only [Bool.false_eq_true, if_false]; omega
  by_cases hspec : e = 2 ^ t.ebits - 1
  · simp only [if_pos hspec]
    have h3 : (Spec.specialText f.upper (decide (fr ≠ 0))).length = 3 := by
        unfold Spec.specialText; split <;> split <;> rfl
    refine ⟨st ++ Spec.specialText f.upper (decide (fr ≠ 0)), [], false, ?_, by simp, ?_, ?_⟩
    · intro c hc
      rcases List.mem_append.mp hc with h | h
      · exact hst.2 c h
      · unfold Spec.specialText at h
        split at h <;> split at h <;> simp at h <;> omega
    · rw [List.length_append, h3]; simp; omega
    · intro dp
      rw [fpNan_eq, store_store_at _ _ _ _ _ rfl]; simp [Nat.add_assoc]
  · simp only [if_neg hspec]
    obtain ⟨pre, hprelen, hpre46, hs2⟩ : ∃ pre : List Nat, pre.length ≤ 2 ∧ (∀ c ∈ pre, c ≠ 46) ∧
        (if f.showbase = true then
          (store (store m iter st) (iter + st.length) [48, if f.upperShow then 88 else 120],
           iter + st.length + [48, if f.upperShow then 88 else 120].length)
         else (store m iter st, iter + st.length)) =
        (store m iter (st ++ pre), iter + (st ++ pre).length) := by
      cases f.showbase
      · exact ⟨[], by simp, by simp, by simp⟩
      · refine ⟨[48, if f.upperShow then 88 else 120], by simp, ?_, ?_⟩
        · intro c hc
          rcases List.mem_cons.mp hc with h | h
          · omega
          · rw [List.mem_singleton.mp h]; split <;> omega
        · simp [store_store_append, Nat.add_assoc]
    simp only [hs2]
    have hsp46 : ∀ c ∈ st ++ pre, c ≠ 46 := by
      intro c hc
      rcases List.mem_append.mp hc with h | h
      · exact hst.2 c h
      · exact hpre46 c h
    generalize hsp : st ++ pre = sp at *
    have hsplen : sp.length ≤ 3 := by rw [← hsp, List.length_append]; omega
    by_cases hz : fr = 0 ∧ e = 0
    · obtain ⟨rfl, rfl⟩ := hz
      simp only [and_self, if_true]
      refine ⟨sp, (if f.upper then [48, 80, 43, 48] else [48, 112, 43, 48]), false, hsp46, ?_, ?_, ?_⟩
      · intro c hc
        split at hc <;> simp at hc <;> omega
      · have : (if f.upper = true then [48, 80, 43, 48] else [48, 112, 43, 48] : List Nat).length = 4 := by
          split <;> rfl
        omega
      · intro dp
        rw [store_store_at _ _ _ _ _ rfl]; cases f.upper <;> simp [Nat.add_assoc]
    · have hebound := hhi hspec hz
      simp only [if_neg hz]
      by_cases hfr : fr = 0
      · subst hfr
        have he : e ≠ 0 := fun h => hz ⟨rfl, h⟩
        simp only [ne_eq, not_true_eq_false, if_false, Option.bind_some]
        rw [if_neg he, ← Int.add_neg_eq_sub] at hebound
        rw [hexExponent_eq _ hg.dig2 hg.dig5 _ _ _ hebound]
        refine ⟨sp ++ [49], (if f.upperE then 80 else 112) :: (if (e : Int) + -(Spec.bias t.ebits : Int) < 0 then 45 else 43) ::
          decText ((e : Int) + -(Spec.bias t.ebits : Int)).natAbs, false, ?_, ?_, ?_, ?_⟩
        · intro c hc
          rcases List.mem_append.mp hc with h | h
          · exact hsp46 c h
          · simp at h; omega
        · intro c hc
          rcases List.mem_cons.mp hc with h | h
          · subst h; split <;> omega
          · exact hexp _ c h
        · have hdl := (decText_len_le (e + -(Spec.bias t.ebits : Int)).natAbs t.e2hexdigits (by have := hg.dig2; omega)).mpr
            hebound
          have := hg.dig5
          simp
          omega
        · intro dp
          rw [store_store_at _ _ _ _ _ rfl, store_store_at _ _ _ _ _ (by simp [Nat.add_assoc]),
            store_store_at _ _ _ _ _ (by simp [Nat.add_assoc])]
          simp [Nat.add_assoc]
          omega
      · simp only [ne_eq, hfr, not_false_eq_true, if_true]
        have hfrw : t.mw = 128 → fr < 2 ^ 128 := fun h => lt_of_lt_of_le hf (Nat.pow_le_pow_right (by omega) (by omega))
        rw [countrZero_eq _ _ hfr hfrw]
        obtain ⟨y, hy, hfy⟩ := ctz_spec fr hfr
        generalize ctz fr = c at *
        obtain ⟨L, hL⟩ : ∃ L, t.mbits + mk = 4 * L := ⟨(t.mbits + mk) / 4, by omega⟩
        have hM : fr * 2 ^ mk < 16 ^ L := by
          have : (16:Nat) ^ L = 2 ^ t.mbits * 2 ^ mk := by rw [← pow_add, hL, pow_mul]; norm_num
          rw [this]
          exact Nat.mul_lt_mul_of_pos_right hf (Nat.pow_pos (by omega))
        have hMe : fr * 2 ^ mk = 2 ^ (c + mk) * y := by
          conv => lhs; rw [hfy]
          rw [pow_add]; ring
        obtain ⟨k1, k2, k3, k4⟩ := digits_trim L _ _ hM y hy hMe
        have hsh : (fr <<< mk) % 2 ^ t.mw = fr * 2 ^ mk := by
          rw [Nat.shiftLeft_eq]
          apply Nat.mod_eq_of_lt
          calc fr * 2 ^ mk < 16 ^ L := hM
            _ = 2 ^ (4 * L) := by rw [pow_mul]; norm_num
            _ ≤ 2 ^ t.mw := Nat.pow_le_pow_right (by omega) (by omega)
        rw [hsh, show (t.mbits + mk) / 4 = L by omega]
        generalize (fr * 2 ^ mk) >>> ((c + mk) / 4 * 4) = F at *
        generalize hd : (c + mk) / 4 = d4 at *
        have hlen : 0 < L - d4 := by omega
        have hgen : ∀ (m : Mem) (p : Nat), genMain t.mw 16 f.upper m (p + (L - d4)) F (L - d4) =
            some (store m p ((padded 16 (L - d4) F).map (digitChar (f.upper && decide (t.mw ≠ 128))))) := by
          intro m p
          unfold genMain
          by_cases h128 : t.mw = 128
          · rw [if_pos h128, if_pos (by simp)]
            have := gen128Pow_eq 4 (by simp) m p F (L - d4) (by simpa using k2) (by
                have hF2 : F ≤ F * 16 ^ d4 := Nat.le_mul_of_pos_right _ (Nat.pow_pos (by omega))
                calc F ≤ F * 16 ^ d4 := hF2
                  _ = fr * 2 ^ mk := k3
                  _ < 16 ^ L := hM
                  _ = 2 ^ (4 * L) := by rw [pow_mul]; norm_num
                  _ ≤ 2 ^ 128 := Nat.pow_le_pow_right (by omega) (by omega))
            norm_num at this
            rw [this]
            have hu : (f.upper && decide (t.mw ≠ 128)) = false := by simp [h128]
            rw [hu]
          · rw [if_neg h128, genWord_eq 16 (by omega) _ _ _ _ _ k2]
            have hu : (f.upper && decide (t.mw ≠ 128)) = f.upper := by simp [h128]
            rw [hu]
        simp only [hgen, Option.map_some, Option.bind_some]
        have he2 : (if e = 0 then (e : Int) + -(Spec.bias t.ebits : Int) + 1 else e + -(Spec.bias t.ebits : Int)) =
            (if e = 0 then 1 else (e : Int)) - Spec.bias t.ebits := by
          by_cases he : e = 0
          · simp [he]; ring
          · simp [he]; ring
        rw [he2]
        generalize hx : (if e = 0 then 1 else (e : Int)) - Spec.bias t.ebits = x at *
        refine ⟨sp ++ [if e = 0 then 48 else 49], (padded 16 (L - d4) F).map (digitChar (f.upper && decide (t.mw ≠ 128))) ++
          (if f.upperE then 80 else 112) :: (if x < 0 then 45 else 43) :: decText x.natAbs, true, ?_, ?_, ?_, ?_⟩
        · intro c hc
          rcases List.mem_append.mp hc with h | h
          · exact hsp46 c h
          · rw [List.mem_singleton.mp h]; split <;> omega
        · intro c hc
          rcases List.mem_append.mp hc with h | h
          · obtain ⟨d, hd, rfl⟩ := List.mem_map.mp h
            unfold digitChar
            split
            · omega
            · split <;> omega
          · rcases List.mem_cons.mp h with h | h
            · subst h; split <;> omega
            · exact hexp _ c h
        · have hdl := (decText_len_le x.natAbs t.e2hexdigits (by have := hg.dig2; omega)).mpr hebound
          have := hg.dig5
          simp
          omega
        · intro dp
          rw [hexExponent_eq _ hg.dig2 hg.dig5 _ _ _ hebound]
          rw [store_store_at _ _ _ _ _ rfl, store_store_at _ _ _ _ _ (by simp [Nat.add_assoc]),
            store_store_at _ _ _ _ _ (by simp [Nat.add_assoc]),
            store_store_at _ _ _ _ _ (by simp [Nat.add_assoc]; try omega),
            store_store_at _ _ _ _ _ (by simp [Nat.add_assoc]; try omega)]
          simp [Nat.add_assoc]
          omega

theorem withPoint_parts (dp pre post : List Nat) (point : Bool) (h1 : ∀ c ∈ pre, c ≠ 46) (h2 : ∀ c ∈ post, c ≠ 46) :
    withPoint dp (pre ++ (if point then [46] else []) ++ post) = pre ++ (if point then dp else []) ++ post := by
  rw [withPoint_append, withPoint_append, withPoint_none _ _ h1, withPoint_none _ _ h2]
  cases point <;> simp [withPoint]

end Verif.LcFloat
