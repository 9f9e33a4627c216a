import Verif.Utf.Lemmas3
/-!
# The conversion loops
-/
namespace Verif.Utf
open Verif

theorem put_put (o : Out) (a b : List Nat) : put (put o a) b = put o (a ++ b) := by
  unfold put
  simp [store_store_append, Nat.add_assoc]

theorem put_nil (o : Out) : put o [] = o := by simp [put]

theorem put_wrote (o : Out) (l : List Nat) : Wrote l.length o.1 (put o l).1 o.2 l := Wrote.put _ _ _

/-! ## Lengths -/

theorem encOut_length (d : Enc) (swap : Bool) (cs : List Nat) : (encOut d swap cs).length = (encText d cs).length := by
  unfold encOut; split_ifs <;> simp

theorem reads_bound {s d : Enc} {f : Nat} (h1 : ∀ c, Scalar c → (enc d c).length ≤ f * (enc s c).length) (h2 : (enc d 0xFFFD).length ≤ f)
    {l cs t : List Nat} (h : Reads s l cs t) : (encText d cs).length + f * t.length ≤ f * l.length := by
  induction h with
  | done t _ => simp [encText]
  | char c rest cs t hc _ ih =>
    have := h1 c hc
    simp only [encText, List.flatMap_cons, List.length_append, Nat.mul_add] at ih ⊢
    omega
  | bad p rest cs t hp _ ih =>
    have hp1 : 1 ≤ p.length := by
      rcases Nat.eq_zero_or_pos p.length with h | h
      · exact absurd (List.eq_nil_of_length_eq_zero h) hp.1
      · exact h
    have := Nat.mul_le_mul_left f hp1
    simp only [encText, List.flatMap_cons, List.length_append, Nat.mul_add] at ih ⊢
    omega

theorem enc_pos (s : Enc) (c : Nat) : 1 ≤ (enc s c).length := by
  rcases Nat.eq_zero_or_pos (enc s c).length with h | h
  · exact absurd (List.eq_nil_of_length_eq_zero h) ((prefixFree s).1 c)
  · exact h

theorem enc_le (s d : Enc) (c : Nat) : (enc d c).length ≤ factor s d * (enc s c).length := by
  have h := enc_pos s c
  cases d with
  | u32 =>
    have : (enc .u32 c).length = 1 := rfl
    have e : factor s .u32 = 1 := rfl
    rw [e]; omega
  | u16 =>
    have : (enc .u16 c).length ≤ 2 := by simp only [enc, enc16]; split_ifs <;> simp
    have e : factor s .u16 = 2 := rfl
    rw [e]; omega
  | u8 =>
    have : (enc .u8 c).length ≤ 8 := by simp only [enc, enc8]; split_ifs <;> simp
    have e : factor s .u8 = 8 := rfl
    rw [e]; omega
  | ebcdic =>
    have : (enc .ebcdic c).length ≤ 8 := by simp only [enc, encI8, List.length_map]; split_ifs <;> simp
    have e : factor s .ebcdic = 8 := rfl
    rw [e]; omega

theorem enc_fffd_le (s d : Enc) : (enc d 0xFFFD).length ≤ factor s d := by
  cases d <;> cases s <;> decide +kernel

theorem reads_factor {s d : Enc} {l cs t : List Nat} (h : Reads s l cs t) :
    (encText d cs).length + factor s d * t.length ≤ factor s d * l.length :=
  reads_bound (fun c _ => enc_le s d c) (enc_fffd_le s d) h

/-! ## UTF-8 -/

theorem putCode_eq (d : Enc) (swap native : Bool) (h : swap = true → native = true → d ≠ .u32) (c : Nat) (hc : Scalar c) (o : Out) :
    putCode d swap native c o = some (put o (encOut d swap [c])) := by
  unfold putCode
  split_ifs with hd
  · subst hd
    have : (swap && !native) = swap := by
      cases swap <;> cases native <;> simp_all
    rw [this, encOut_single]
    rfl
  · rw [codeUnits_eq d swap c hc]; rfl

theorem enc_ascii (d : Enc) (hd : d ≠ .ebcdic) (c : Nat) (h : c < 0x80) : enc d c = [c] := by
  cases d <;> simp only [enc, enc8, enc16] <;> first | (rw [if_pos (by omega)]) | rfl | exact absurd rfl hd

theorem bsw_ascii8 (swap : Bool) (c : Nat) (h : c < 0x80) (d : Enc) (hd : d.bytes = 1) : bsw d swap c = c := by
  unfold bsw; split_ifs
  · exact swapUnit_one hd (by omega)
  · rfl

theorem loop8_ok (d : Enc) (swap : Bool) (hd : d ≠ .u8) : ∀ (fuel : Nat) (l : List Nat) (o : Out), l.length < fuel → (∀ u ∈ l, u < 256) →
    ∃ cs t, loop8 d swap fuel l o = some (t, put o (encOut d swap cs)) ∧ Reads .u8 l cs t
  | 0, _, _, h, _ => by omega
  | fuel + 1, [], o, _, _ => ⟨[], [], by simp [loop8, encOut_nil, put_nil], .done [] (Or.inl rfl)⟩
  | fuel + 1, c :: rest, o, h, hb => by
    have hc := hb c (by simp)
    simp only [List.length_cons] at h
    unfold loop8
    simp only
    by_cases h1 : c < 0x80
    · have hsc : Scalar c := ⟨by omega, by omega⟩
      have he8 : enc .u8 c = [c] := enc_ascii _ (by simp) c h1
      rw [if_pos h1]
      split_ifs with h2
      · subst h2
        rw [table_some c (by omega), Option.bind_some]
        obtain ⟨cs, t, e1, e2⟩ := loop8_ok .ebcdic swap hd fuel rest (put o [i8ToEbcdic.getD c 0]) (by omega) (fun u hu => hb u (by simp [hu]))
        refine ⟨c :: cs, t, ?_, by have := Reads.char c rest cs t hsc e2; rwa [he8] at this⟩
        have e3 : encOut .ebcdic swap [c] = [i8ToEbcdic.getD c 0] := by
          rw [encOut_single]
          simp only [enc, encI8, if_pos (show c < 0xA0 by omega), List.map_cons, List.map_nil]
          unfold bsw
          split_ifs
          · rw [swapUnit_one rfl (tab_lt c (by omega))]
          · rfl
        rw [e1, put_put, encOut_cons, e3]
      · obtain ⟨cs, t, e1, e2⟩ := loop8_ok d swap hd fuel rest (put o [bsw d (swap && d != .u8) c]) (by omega) (fun u hu => hb u (by simp [hu]))
        refine ⟨c :: cs, t, ?_, by have := Reads.char c rest cs t hsc e2; rwa [he8] at this⟩
        have e3 : encOut d swap [c] = [bsw d (swap && d != .u8) c] := by
          rw [encOut_single, enc_ascii d h2 c h1]
          have : (d != Enc.u8) = true := by simpa using hd
          rw [this, Bool.and_true]
          rfl
        rw [e1, put_put, encOut_cons, e3]
    · rw [if_neg h1]
      have hadv := advance_ok (c :: rest) (by simp) hb
      rcases hadv with ⟨x, r, hx, hl, ha⟩ | ⟨p, r, hp, hl, ha⟩ | ⟨hi, ha⟩
      · have hlen : r.length < fuel := by
          have h2 := enc_pos .u8 x
          have h3 := congrArg List.length hl
          simp only [enc, List.length_cons, List.length_append] at h2 h3
          omega
        rw [ha]
        simp only [Option.bind_some]
        rw [putCode_eq d swap false (by simp) x hx, Option.bind_some]
        have hbr : ∀ u ∈ r, u < 256 := fun u hu => hb u (by rw [hl]; simp [hu])
        obtain ⟨cs, t, e1, e2⟩ := loop8_ok d swap hd fuel r (put o (encOut d swap [x])) hlen hbr
        refine ⟨x :: cs, t, by rw [e1, put_put, ← encOut_append]; rfl, ?_⟩
        rw [hl]; exact .char x r cs t hx e2
      · have hlen : r.length < fuel := by
          have h2 : 1 ≤ p.length := List.length_pos_iff.mpr hp.1
          have h3 := congrArg List.length hl
          simp only [List.length_cons, List.length_append] at h3
          omega
        rw [ha]
        simp only [Option.bind_some]
        rw [putCode_eq d swap false (by simp) 0xFFFD scalar_fffd, Option.bind_some]
        have hbr : ∀ u ∈ r, u < 256 := fun u hu => hb u (by rw [hl]; simp [hu])
        obtain ⟨cs, t, e1, e2⟩ := loop8_ok d swap hd fuel r (put o (encOut d swap [0xFFFD])) hlen hbr
        refine ⟨0xFFFD :: cs, t, by rw [e1, put_put, ← encOut_append]; rfl, ?_⟩
        rw [hl]; exact .bad p r cs t hp e2
      · rw [ha]
        exact ⟨[], c :: rest, by simp [encOut_nil, put_nil], .done _ (Or.inr hi)⟩

theorem wrote_prefix (m : Mem) (p : Nat) (a b : List Nat) : Wrote (a ++ b).length m (store m p (a ++ b)) p a := by
  refine ⟨by simp, ?_, fun x hx => store_outside m p _ x hx⟩
  rw [load_eq_iff]
  intro i hi
  simp [store_apply, List.getElem?_append_left hi, List.getElem?_eq_getElem hi]

theorem ascii_text (d : Enc) (hd : d ≠ .ebcdic) : ∀ a : List Nat, (∀ x ∈ a, x < 0x80) → encText d a = a
  | [], _ => rfl
  | x :: a, h => by
    have := ascii_text d hd a (fun y hy => h y (by simp [hy]))
    simp only [encText, List.flatMap_cons] at this ⊢
    rw [this, enc_ascii d hd x (h x (by simp))]
    rfl

theorem reads_ascii : ∀ (a : List Nat), (∀ x ∈ a, x < 0x80) → ∀ (l cs t : List Nat), Reads .u8 l cs t → Reads .u8 (a ++ l) (a ++ cs) t
  | [], _, _, _, _, h => h
  | x :: a, hx, l, cs, t, h => by
    have := reads_ascii a (fun y hy => hx y (by simp [hy])) l cs t h
    have hxx := hx x (by simp)
    have := Reads.char x _ _ _ ⟨by omega, by omega⟩ this
    rwa [enc_ascii .u8 (by simp) x hxx] at this

/-- The vector loop stops with at most 16 bytes left. -/
theorem sseLoop_ok (d : Enc) (hd : d = .u16 ∨ d = .u32) : ∀ (fuel : Nat) (l : List Nat) (o : Out), l.length < fuel → (∀ u ∈ l, u < 256) →
    ∃ cs l' o', sseLoop d false fuel l o = some (l', o') ∧ (∃ a, l = a ++ l') ∧ o'.2 = o.2 + (encOut d false cs).length ∧
      Wrote l.length o.1 o'.1 o.2 (encOut d false cs) ∧ (encOut d false cs).length + l'.length ≤ l.length ∧
      (∀ cs2 t, Reads .u8 l' cs2 t → Reads .u8 l (cs ++ cs2) t)
  | 0, _, _, h, _ => by omega
  | fuel + 1, l, o, h, hb => by
    have hde : d ≠ .ebcdic := by rcases hd with rfl | rfl <;> simp
    unfold sseLoop
    split_ifs with h16
    · cases l with
      | nil => simp at h16
      | cons c rest =>
        simp only
        split_ifs with hc
        · obtain ⟨A, hA⟩ : ∃ A, A = ((c :: rest).take 16).takeWhile (· < 0x80) := ⟨_, rfl⟩
          rw [← hA]
          have hA1 : ∀ x ∈ A, x < 0x80 := by
            intro x hx
            have := List.all_eq_true.mp (List.all_takeWhile (p := (· < 0x80)) (l := (c :: rest).take 16)) x (by rw [← hA]; exact hx)
            simpa using this
          have hpre : A <+: (c :: rest).take 16 := by rw [hA]; exact List.takeWhile_prefix _
          have hpre2 : A <+: c :: rest := hpre.trans (List.take_prefix _ _)
          obtain ⟨B, hB⟩ := hpre
          obtain ⟨l1, hl1⟩ := hpre2
          have hA2 : 1 ≤ A.length := by
            rw [hA]
            simp [List.takeWhile_cons, hc]
          have hdrop : (c :: rest).drop A.length = l1 := by rw [← hl1]; simp
          have hlen := congrArg List.length hl1
          simp only [List.length_append] at hlen
          rw [hdrop]
          obtain ⟨cs, l', o', e1, ⟨a, e2⟩, e3, e4, e5, e6⟩ := sseLoop_ok d hd fuel l1
            (store o.1 o.2 ((c :: rest).take 16), o.2 + A.length) (by omega) (fun u hu => hb u (by rw [← hl1]; simp [hu]))
          have hAo : encOut d false A = A := by unfold encOut; simpa using ascii_text d hde A hA1
          refine ⟨A ++ cs, l', o', e1, ⟨A ++ a, by rw [← hl1, e2]; simp⟩, ?_, ?_, ?_, ?_⟩
          · rw [e3, encOut_append, hAo]; simp; omega
          · rw [encOut_append, hAo]
            have hw := wrote_prefix o.1 o.2 A B
            rw [hB] at hw
            refine Wrote.append hw e4 ?_ ?_
            · simp
            · omega
          · rw [encOut_append, hAo]; simp only [List.length_append]; omega
          · intro cs2 t hr
            rw [← hl1, List.append_assoc]
            exact reads_ascii A hA1 _ _ _ (e6 cs2 t hr)
        · have hadv := advance_ok (c :: rest) (by simp) hb
          have step : ∀ (x : Nat) (q r : List Nat), Scalar x → c :: rest = q ++ r → (encOut d false [x]).length ≤ q.length → q ≠ [] →
              (∀ cs t, Reads .u8 r cs t → Reads .u8 (q ++ r) (x :: cs) t) → advance (c :: rest) = some (some (r, x)) →
              ∃ cs l' o', ((advanceUnchecked (c :: rest)).bind fun r => (putCode d false true r.2 o).bind fun o => sseLoop d false fuel r.1 o) =
                some (l', o') ∧ (∃ a, c :: rest = a ++ l') ∧ o'.2 = o.2 + (encOut d false cs).length ∧
                Wrote (c :: rest).length o.1 o'.1 o.2 (encOut d false cs) ∧ (encOut d false cs).length + l'.length ≤ (c :: rest).length ∧
                (∀ cs2 t, Reads .u8 l' cs2 t → Reads .u8 (c :: rest) (cs ++ cs2) t) := by
            intro x q r hx hl hql hq hread ha
            have hq1 : 1 ≤ q.length := List.length_pos_iff.mpr hq
            have h3 := congrArg List.length hl
            simp only [List.length_append] at h3
            have hun : advanceUnchecked (c :: rest) = some (r, x) := by unfold advanceUnchecked; rw [ha]; rfl
            rw [hun, Option.bind_some]
            simp only
            rw [putCode_eq d false true (by simp) x hx, Option.bind_some]
            obtain ⟨cs, l', o', e1, ⟨a, e2⟩, e3, e4, e5, e6⟩ := sseLoop_ok d hd fuel r (put o (encOut d false [x])) (by omega)
              (fun u hu => hb u (by rw [hl]; simp [hu]))
            refine ⟨x :: cs, l', o', e1, ⟨q ++ a, by rw [hl, e2]; simp⟩, ?_, ?_, ?_, ?_⟩
            · rw [e3, encOut_cons d false x cs]; simp [put]; omega
            · rw [encOut_cons d false x cs]
              exact Wrote.append (put_wrote o _) e4 (by omega) (by omega)
            · rw [encOut_cons d false x cs]; simp only [List.length_append]; omega
            · intro cs2 t hr
              rw [hl]
              exact hread _ _ (e6 cs2 t hr)
          have hbound : ∀ x, (enc d x).length ≤ (enc8 x).length := by
            intro x
            rcases hd with rfl | rfl <;> simp only [enc, enc16, enc8] <;> split_ifs <;> simp <;> omega
          rcases hadv with ⟨x, r, hx, hl, ha⟩ | ⟨p, r, hp, hl, ha⟩ | ⟨hi, ha⟩
          · exact step x (enc8 x) r hx hl (by rw [encOut_length]; simpa [encText] using hbound x) (enc8_ne x) (fun cs t h => .char x r cs t hx h) ha
          · refine step 0xFFFD p r scalar_fffd hl ?_ hp.1 (fun cs t h => .bad p r cs t hp h) ha
            have : 1 ≤ p.length := List.length_pos_iff.mpr hp.1
            rcases hd with rfl | rfl <;> exact this
          · exfalso
            obtain ⟨_, y, hy, hpre, _⟩ := hi
            have h4 : (enc8 y).length ≤ 4 := by unfold enc8; split_ifs <;> simp
            have := hpre.length_le
            simp only [enc] at this
            omega
    · exact ⟨[], l, o, rfl, ⟨[], rfl⟩, by simp [encOut_nil], by rw [encOut_nil]; exact Wrote.nil _ _ _, by simp [encOut_nil], fun cs2 t h => h⟩

theorem cvt_u8 (c : Cfg) (hd : c.d ≠ .u8) (hs : c.sse = true → c.d = .ebcdic ∨ c.swap = false) (l : List Nat) (hb : ∀ u ∈ l, u < 256)
    (o : Out) : ∃ cs t o', cvt .u8 c l o = some (t, o') ∧ Reads .u8 l cs t ∧ o'.2 = o.2 + (encOut c.d c.swap cs).length ∧
      Wrote (factor .u8 c.d * l.length) o.1 o'.1 o.2 (encOut c.d c.swap cs) := by
  have hplain : ∃ cs t o', loop8 c.d c.swap (l.length + 1) l o = some (t, o') ∧ Reads .u8 l cs t ∧ o'.2 = o.2 + (encOut c.d c.swap cs).length ∧
      Wrote (factor .u8 c.d * l.length) o.1 o'.1 o.2 (encOut c.d c.swap cs) := by
    obtain ⟨cs, t, e1, e2⟩ := loop8_ok c.d c.swap hd (l.length + 1) l o (by omega) hb
    refine ⟨cs, t, _, e1, e2, rfl, (put_wrote o _).mono ?_⟩
    rw [encOut_length]
    have := reads_factor (d := c.d) e2
    omega
  unfold cvt
  rw [if_neg (fun h => hd h.1.symm), if_neg (fun h => hd h.symm)]
  simp only
  split_ifs with h1
  · have hsw : c.swap = false := by
      rcases hs h1.1 with h | h
      · exact absurd h h1.2
      · exact h
    have hdd : c.d = .u16 ∨ c.d = .u32 := by
      rcases hc : c.d with _ | _ | _ | _ <;> simp_all
    obtain ⟨cs, l', o', e1, ⟨a, e2⟩, e3, e4, e5, e6⟩ := sseLoop_ok c.d hdd (l.length + 1) l o (by omega) hb
    rw [hsw, e1, Option.bind_some]
    simp only
    obtain ⟨cs2, t, f1, f2⟩ := loop8_ok c.d false hd (l'.length + 1) l' o' (by omega) (fun u hu => hb u (by rw [e2]; simp [hu]))
    refine ⟨cs ++ cs2, t, _, f1, e6 cs2 t f2, ?_, ?_⟩
    · rw [encOut_append]; simp [put, e3]; omega
    · rw [encOut_append]
      have hf : 1 ≤ factor .u8 c.d := by rcases hdd with h | h <;> rw [h] <;> decide
      have hll : l'.length ≤ l.length := by rw [e2]; simp
      have hw := put_wrote o' (encOut c.d false cs2)
      rw [e3] at hw
      refine Wrote.append e4 hw ?_ ?_
      · exact Nat.le_mul_of_pos_left _ hf
      · rw [encOut_length c.d false cs2]
        have h2 : (encText c.d cs2).length ≤ factor .u8 c.d * l'.length := by have := reads_factor (d := c.d) f2; omega
        have h3 : (encOut c.d false cs).length ≤ factor .u8 c.d * (l.length - l'.length) :=
          le_trans (by omega : _ ≤ l.length - l'.length) (Nat.le_mul_of_pos_left _ hf)
        have h4 : factor .u8 c.d * (l.length - l'.length) + factor .u8 c.d * l'.length = factor .u8 c.d * l.length := by
          rw [← Nat.mul_add]; congr 1; omega
        omega
  · exact hplain

end Verif.Utf
