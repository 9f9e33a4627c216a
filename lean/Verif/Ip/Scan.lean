import Verif.Ip.Lemmas3
/-! Scanning IPv4 addresses from contiguous memory. -/
namespace Verif.Ip
open Verif Verif.IntPrint Verif.IntScan

/-- Settings that can occur. -/
structure Setting (cw simd : Nat) : Prop where
  cw : CharWidth cw
  simd : simd = 0 ∨ simd = 16 ∨ simd = 32 ∨ simd = 64

/-- If the SSE4.1 code is compiled in, the text has no run of 16 or more digits. -/
def NoLongRun (sse : Bool) (l : List Nat) : Prop :=
  sse = true → ∀ p cs q ds, l = p ++ cs ++ q → DigitRun 10 cs ds → cs.length < 16

theorem NoLongRun.tail {sse : Bool} {a l : List Nat} (h : NoLongRun sse (a ++ l)) : NoLongRun sse l := by
  intro hs p cs q ds he hr
  exact h hs (a ++ p) cs q ds (by rw [he]; simp) hr

theorem NoLongRun.take {sse : Bool} {l : List Nat} (h : NoLongRun sse l) (n : Nat) : NoLongRun sse (l.take n) := by
  intro hs p cs q ds he hr
  exact h hs p cs (q ++ l.drop n) ds (by rw [← List.append_assoc, ← he, List.take_append_drop]) hr

theorem octetCfg_valid {cw simd : Nat} (h : Setting cw simd) (sse ns : Bool) : Valid (octetCfg cw simd sse ns) :=
  ⟨by simp [octetCfg], by simp [octetCfg], by simp [octetCfg, Width], h.cw, h.simd, by simp [octetCfg], by simp [octetCfg]⟩

theorem portCfg_valid {cw simd : Nat} (h : Setting cw simd) (sse : Bool) : Valid (portCfg cw simd sse) :=
  ⟨by simp [portCfg], by simp [portCfg], by simp [portCfg, Width], h.cw, h.simd, by simp [portCfg], by simp [portCfg]⟩

/-! ## Numbers -/

theorem digitRun10_chars : ∀ {cs ds : List Nat}, DigitRun 10 cs ds → cs = ds.map (digitChar false)
  | _, _, .nil => rfl
  | _, _, .cons h hs => by
    rw [List.map_cons, digitRun10_chars hs]
    congr 1
    obtain ⟨h1, h2⟩ := h
    rcases h2 with h2 | h2
    · exact h2
    · rw [h2]; simp [digitChar, h1]

theorem digitRun10_dec (v : Nat) : DigitRun 10 (decText v) (numeral 10 v) := by
  unfold decText
  have h := (numeral_isNumeral (b := 10) (by omega) v).digits_lt
  generalize numeral 10 v = ds at *
  induction ds with
  | nil => exact .nil
  | cons d ds ih => exact .cons ⟨h d (by simp), Or.inl rfl⟩ (ih fun x hx => h x (by simp [hx]))

theorem decText_ne (v : Nat) : decText v ≠ [] := by simp [decText, numeral_ne_nil]

theorem num_complete {bits v : Nat} {rest : List Nat} (hv : v < 2 ^ bits) (hr : NoDigitFirst 10 rest) :
    NumSpec bits false false 10 (decText v ++ rest) ⟨rest, .ok, some (v : Int)⟩ := by
  have hn := numeral_isNumeral (b := 10) (by omega) v
  have := NumSpec.ok (bits := bits) (signed := false) (skipzero := false) (base := 10) [] (decText v) (numeral 10 v) rest false
    (Or.inl ⟨rfl, rfl⟩) (digitRun10_dec v) hn.nonempty hr (fun _ => hn.no_leading_zero)
    (by rw [hn.value]; simp only [InRange, signedValue, Bool.false_eq_true, if_false]; exact ⟨by omega, by exact_mod_cast hv⟩)
  rw [hn.value] at this
  simpa [signedValue] using this

theorem num_sound {bits : Nat} {l : List Nat} {o : Outcome} (h : NumSpec bits false false 10 l o) (hc : o.code = .ok) :
    ∃ v, v < 2 ^ bits ∧ l = decText v ++ o.rest ∧ NoDigitFirst 10 o.rest ∧ o.value = some (v : Int) := by
  cases h with
  | noDigits => simp at hc
  | leadingZero => simp at hc
  | overflow => simp at hc
  | ok sgn cs ds rest neg hs hr h0 hnd hz hin =>
    rcases hs with ⟨rfl, rfl⟩ | ⟨h, _⟩
    · have hnum : IsNumeral 10 ds (digitsValue 10 ds) := ⟨digitRun_lt hr, rfl, h0, hz rfl⟩
      refine ⟨digitsValue 10 ds, ?_, ?_, hnd, by simp [signedValue]⟩
      · simp only [InRange, signedValue, Bool.false_eq_true, if_false] at hin
        exact_mod_cast hin.2
      · rw [digitRun10_chars hr, decText, ← isNumeral_unique (by omega) hnum]; simp
    · simp at h

/-- The integer scan used for octets and ports. -/
theorem scan_spec {cfg : Cfg} (hv : Valid cfg) (hns : cfg.noskipws = true) (hsg : cfg.signed = false) (hsk : cfg.skipzero = false)
    (hb : cfg.base = 10) (l : List Nat) (hl : l ≠ []) (hc : CodeUnits cfg.cw l) (hs : NoLongRun cfg.sse l) :
    ∃ o, scanContig cfg l = some o ∧ NumSpec cfg.bits false false 10 l o := by
  have hcl : Clean cfg l := ⟨hc, by intro h; omega⟩
  obtain ⟨o, h1, h2⟩ := c06_scan_partial cfg hv l hcl (by simp [hns])
    (by
      intro ws sgn neg t he _ hsgn
      intro hsse _ _ _ k cs ds rest he' hr _ _ hk _
      have hk0 := hk hsk
      subst hk0
      rw [hb] at hr
      refine ⟨?_, by omega⟩
      have := hs hsse (ws ++ sgn) cs rest ds (by rw [he, he']; simp) hr
      split <;> omega)
    (by
      intro ws t he _ hw _ hlone
      have := hw hns
      subst this
      rcases hlone with ⟨h, _⟩ | ⟨_, h⟩
      · rw [hsg] at h; cases h
      · exact hl (by simp [he, h]))
  refine ⟨o, h1, ?_⟩
  rw [hns, hsg, hsk, hb] at h2
  cases h2 with
  | eof ws h => simp at h
  | num ws l' o hw _ _ h => rw [hw rfl]; simpa using h

theorem scan_complete {cfg : Cfg} (hv : Valid cfg) (hns : cfg.noskipws = true) (hsg : cfg.signed = false) (hsk : cfg.skipzero = false)
    (hb : cfg.base = 10) {v : Nat} {rest : List Nat} (hlt : v < 2 ^ cfg.bits) (hr : NoDigitFirst 10 rest)
    (hc : CodeUnits cfg.cw (decText v ++ rest)) (hs : NoLongRun cfg.sse (decText v ++ rest)) :
    scanContig cfg (decText v ++ rest) = some ⟨rest, .ok, some (v : Int)⟩ := by
  obtain ⟨o, h1, h2⟩ := scan_spec hv hns hsg hsk hb _ (by simp [decText_ne]) hc hs
  rw [h1, numSpec_functional (by omega) (by omega) h2 (num_complete hlt hr)]

theorem noDigit_char {ch : Nat} (h : ch = 46 ∨ ch = 58) (t : List Nat) : NoDigitFirst 10 (ch :: t) := by
  intro c t' d he hd
  have := (isDigit_lt (by omega) hd)
  have h2 : c ≤ 57 := by
    obtain ⟨h1, h2⟩ := hd
    unfold digitChar at h2; simp [h1] at h2; omega
  simp at he; omega

/-! ## The window of three characters -/

theorem CodeUnits.tail {cw : Nat} {a l : List Nat} (h : CodeUnits cw (a ++ l)) : CodeUnits cw l := fun c hc => h c (by simp [hc])

theorem CodeUnits.take {cw : Nat} {l : List Nat} (h : CodeUnits cw l) (n : Nat) : CodeUnits cw (l.take n) :=
  fun c hc => h c (List.mem_of_mem_take hc)

variable {cw simd : Nat} {sse : Bool}

theorem octet3_sound (hst : Setting cw simd) {l : List Nat} (h3 : 3 ≤ l.length) (hc : CodeUnits cw l) (hs : NoLongRun sse l) :
    ∃ o, octet3 (octetCfg cw simd sse true) l = some o ∧
      (o.code = .ok → ∃ v, v < 256 ∧ stored o.value = v ∧ l = decText v ++ o.rest) := by
  obtain ⟨o, h1, h2⟩ := scan_spec (octetCfg_valid hst sse true) rfl rfl rfl rfl (l.take 3)
    (by intro h; have := congrArg List.length h; simp at this; rw [this] at h3; simp at h3) (CodeUnits.take hc 3) (hs.take 3)
  refine ⟨⟨o.rest ++ l.drop 3, o.code, o.value⟩, ?_, ?_⟩
  · unfold octet3; rw [if_neg (by omega), h1]; rfl
  · intro hok
    obtain ⟨v, e1, e2, _, e4⟩ := num_sound h2 hok
    refine ⟨v, e1, by rw [e4]; simp [stored], ?_⟩
    rw [← List.append_assoc, ← e2, List.take_append_drop]

theorem octet3_complete (hst : Setting cw simd) {v : Nat} (hv : v < 256) {t : List Nat} (hc : CodeUnits cw (decText v ++ 46 :: t))
    (h3 : 3 ≤ (decText v ++ 46 :: t).length) (hs : NoLongRun sse (decText v ++ 46 :: t)) :
    octet3 (octetCfg cw simd sse true) (decText v ++ 46 :: t) = some ⟨46 :: t, .ok, some (v : Int)⟩ := by
  have hlen := decText_length v 3 (by omega) (by omega)
  have ht : (decText v ++ 46 :: t).take 3 = decText v ++ (46 :: t).take (3 - (decText v).length) := by
    rw [List.take_append, List.take_of_length_le hlen]
  have hd : (decText v ++ 46 :: t).drop 3 = (46 :: t).drop (3 - (decText v).length) := by
    rw [List.drop_append, List.drop_eq_nil_of_le hlen, List.nil_append]
  have hsc := scan_complete (octetCfg_valid hst sse true) rfl rfl rfl rfl (v := v)
    (rest := (46 :: t).take (3 - (decText v).length)) hv (by
      cases h : 3 - (decText v).length with
      | zero => intro c t' d he; simp at he
      | succ n => rw [List.take_succ_cons]; exact noDigit_char (Or.inl rfl) _)
    (by rw [← ht]; exact CodeUnits.take hc 3) (by rw [← ht]; exact hs.take 3)
  unfold octet3
  rw [if_neg (by omega), ht, hsc, hd]
  simp

/-! ## The address -/

/-- Acceptance is sound. `l` must not end in `.` (see `c34_trailing_dot_violated`). -/
theorem scnInaddr_sound (hst : Setting cw simd) (l : List Nat) (hc : CodeUnits cw l) (hs : NoLongRun sse l) :
    ∃ o, scnInaddr cw simd sse l = some o ∧
      ((∀ p, l ≠ p ++ [46]) → o.code = .ok → ∃ x, o.value = some x ∧ StartsWithAddr l x o.rest) := by
  unfold scnInaddr
  simp only
  by_cases h7 : l.length < 7
  · exact ⟨_, by rw [if_pos h7], by simp⟩
  rw [if_neg h7]
  obtain ⟨o0, e0, s0⟩ := octet3_sound (sse := sse) hst (l := l) (by omega) hc hs
  simp only [thenOk, e0, Option.bind_some]
  by_cases k0 : o0.code ≠ .ok
  · exact ⟨_, by rw [if_pos k0], fun _ h => absurd h k0⟩
  rw [if_neg k0]
  obtain ⟨a, ha, hav, hl0⟩ := s0 (by simpa using k0)
  have la := decText_length a 3 (by omega) (by omega)
  cases hr0 : o0.rest with
  | nil => exact ⟨_, rfl, by simp⟩
  | cons d0 l1 =>
  simp only [thenChar]
  by_cases k1 : d0 ≠ 46
  · exact ⟨_, by rw [if_pos k1], by simp⟩
  rw [if_neg k1]
  simp only [ne_eq, not_not] at k1
  subst k1
  rw [hr0] at hl0
  have hl0' : l = (decText a ++ [46]) ++ l1 := by rw [hl0]; simp
  have len1 : 3 ≤ l1.length := by
    have := congrArg List.length hl0'; simp at this; omega
  rw [hl0'] at hc hs
  have hc1 := CodeUnits.tail hc
  have hs1 := hs.tail
  obtain ⟨o1, e1, s1⟩ := octet3_sound (sse := sse) hst (l := l1) len1 hc1 hs1
  simp only [thenOk, e1, Option.bind_some]
  by_cases k2 : o1.code ≠ .ok
  · exact ⟨_, by rw [if_pos k2], fun _ h => absurd h k2⟩
  rw [if_neg k2]
  obtain ⟨b, hb, hbv, hl1⟩ := s1 (by simpa using k2)
  cases hr1 : o1.rest with
  | nil => exact ⟨_, rfl, by simp⟩
  | cons d1 l2 =>
  simp only
  by_cases k3 : d1 ≠ 46
  · exact ⟨_, by rw [if_pos k3], by simp⟩
  rw [if_neg k3]
  simp only [ne_eq, not_not] at k3
  subst k3
  rw [hr1] at hl1
  have hl1' : l1 = (decText b ++ [46]) ++ l2 := by rw [hl1]; simp
  rw [hl1'] at hc1 hs1
  have hc2 := CodeUnits.tail hc1
  have hs2 := hs1.tail
  by_cases len2 : l2.length < 3
  · exact ⟨_, by rw [if_pos len2], by simp⟩
  rw [if_neg len2]
  obtain ⟨o2, e2, s2⟩ := octet3_sound (sse := sse) hst (l := l2) (by omega) hc2 hs2
  simp only [e2, Option.bind_some]
  by_cases k4 : o2.code ≠ .ok
  · exact ⟨_, by rw [if_pos k4], fun _ h => absurd h k4⟩
  rw [if_neg k4]
  obtain ⟨c, hcc, hcv, hl2⟩ := s2 (by simpa using k4)
  cases hr2 : o2.rest with
  | nil => exact ⟨_, rfl, by simp⟩
  | cons d2 l3 =>
  simp only
  by_cases k5 : d2 ≠ 46
  · exact ⟨_, by rw [if_pos k5], by simp⟩
  rw [if_neg k5]
  simp only [ne_eq, not_not] at k5
  subst k5
  rw [hr2] at hl2
  have hl2' : l2 = (decText c ++ [46]) ++ l3 := by rw [hl2]; simp
  rw [hl2'] at hc2 hs2
  have hc3 := CodeUnits.tail hc2
  have hs3 := hs2.tail
  have hall : l = decText a ++ ascii "." ++ decText b ++ ascii "." ++ decText c ++ ascii "." ++ l3 := by
    rw [hl0', hl1', hl2']; simp [ascii]
  by_cases hn : l3 = []
  · subst hn
    have hlone := scanNoSpace_lone (cfg := octetCfg cw simd sse true) (octetCfg_valid hst sse true) (t := []) (Or.inr ⟨rfl, rfl⟩)
    have : scanContig (octetCfg cw simd sse true) [] = scanNoSpace (octetCfg cw simd sse true) [] := by
      simp [scanContig, octetCfg]
    rw [this, hlone]
    simp only [Option.bind_some]
    refine ⟨_, rfl, fun hp _ => ?_⟩
    exact absurd (by rw [hall]; simp [ascii]) (hp (decText a ++ ascii "." ++ decText b ++ ascii "." ++ decText c))
  · obtain ⟨o3, e3, s3⟩ := scan_spec (octetCfg_valid hst sse true) rfl rfl rfl rfl l3 hn hc3 hs3
    simp only [e3, Option.bind_some]
    by_cases k6 : o3.code ≠ .ok
    · exact ⟨_, by rw [if_pos k6], fun _ h => absurd h k6⟩
    rw [if_neg k6]
    obtain ⟨d, hd, hl3, hnd, hdv⟩ := num_sound s3 (by simpa using k6)
    refine ⟨_, rfl, fun _ _ => ⟨_, rfl, ?_, ?_, hnd⟩⟩
    · rw [hav, hbv, hcv, hdv]; exact ⟨ha, hb, hcc, by simpa [stored, octetCfg] using hd⟩
    · rw [hav, hbv, hcv, hdv, hall, hl3]; simp [dotted, stored]

theorem scnInaddr_complete (hst : Setting cw simd) {l : List Nat} {x : Addr4} {rest : List Nat} (hc : CodeUnits cw l)
    (hs : NoLongRun sse l) (h : StartsWithAddr l x rest) : scnInaddr cw simd sse l = some ⟨rest, .ok, some x⟩ := by
  obtain ⟨hx, hl, hnd⟩ := h
  have hlen := dotted_length x hx
  obtain ⟨h1, h2, h3, h4⟩ := hx
  have e1 := decText_ne x.d
  have l1 : 1 ≤ (decText x.d).length := List.length_pos_of_ne_nil e1
  have l2 : 1 ≤ (decText x.c).length := List.length_pos_of_ne_nil (decText_ne _)
  have l3 : 1 ≤ (decText x.b).length := List.length_pos_of_ne_nil (decText_ne _)
  have t3 : l = decText x.a ++ 46 :: (decText x.b ++ 46 :: (decText x.c ++ 46 :: (decText x.d ++ rest))) := by
    rw [hl]; simp [dotted, ascii]
  have t3' : l = (decText x.a ++ [46]) ++ (decText x.b ++ 46 :: (decText x.c ++ 46 :: (decText x.d ++ rest))) := by rw [t3]; simp
  have hc1 : CodeUnits cw (decText x.b ++ 46 :: (decText x.c ++ 46 :: (decText x.d ++ rest))) := CodeUnits.tail (by rw [← t3']; exact hc)
  have hs1 : NoLongRun sse (decText x.b ++ 46 :: (decText x.c ++ 46 :: (decText x.d ++ rest))) := NoLongRun.tail (by rw [← t3']; exact hs)
  have t2 : decText x.b ++ 46 :: (decText x.c ++ 46 :: (decText x.d ++ rest)) =
    (decText x.b ++ [46]) ++ (decText x.c ++ 46 :: (decText x.d ++ rest)) := by simp
  have hc2 : CodeUnits cw (decText x.c ++ 46 :: (decText x.d ++ rest)) := CodeUnits.tail (by rw [← t2]; exact hc1)
  have hs2 : NoLongRun sse (decText x.c ++ 46 :: (decText x.d ++ rest)) := NoLongRun.tail (by rw [← t2]; exact hs1)
  have t1 : decText x.c ++ 46 :: (decText x.d ++ rest) = (decText x.c ++ [46]) ++ (decText x.d ++ rest) := by simp
  have hc3 : CodeUnits cw (decText x.d ++ rest) := CodeUnits.tail (by rw [← t1]; exact hc2)
  have hs3 : NoLongRun sse (decText x.d ++ rest) := NoLongRun.tail (by rw [← t1]; exact hs2)
  unfold scnInaddr
  simp only
  rw [if_neg (by rw [hl]; simp; omega)]
  rw [t3] at hc hs ⊢
  rw [octet3_complete hst h1 hc (by simp; omega) hs]
  simp only [thenOk, Option.bind_some, ne_eq, not_true_eq_false, if_false, thenChar]
  rw [octet3_complete hst h2 hc1 (by simp; omega) hs1]
  simp only [Option.bind_some, ne_eq, not_true_eq_false, if_false]
  rw [if_neg (by simp; omega), octet3_complete hst h3 hc2 (by simp; omega) hs2]
  simp only [Option.bind_some, ne_eq, not_true_eq_false, if_false]
  rw [scan_complete (octetCfg_valid hst sse true) rfl rfl rfl rfl (v := x.d) h4 hnd hc3 hs3]
  simp [stored]

/-! ## The port -/

theorem scnPort_sound (hst : Setting cw simd) (l : List Nat) (hc : CodeUnits cw l) (hs : NoLongRun sse l) :
    ∃ o, scnPort cw simd sse l = some o ∧
      ((∀ p, l ≠ p ++ [58]) → o.code = .ok → ∃ v, v < 65536 ∧ o.value = some v ∧ l = ascii ":" ++ decText v ++ o.rest ∧ NoDigitFirst 10 o.rest) := by
  unfold scnPort
  cases l with
  | nil => exact ⟨_, rfl, by simp⟩
  | cons c t =>
    simp only [thenChar]
    by_cases k : c ≠ 58
    · exact ⟨_, by rw [if_pos k], by simp⟩
    rw [if_neg k]
    simp only [ne_eq, not_not] at k
    subst k
    by_cases hn : t = []
    · subst hn
      have hlone := scanNoSpace_lone (cfg := portCfg cw simd sse) (portCfg_valid hst sse) (t := []) (Or.inr ⟨rfl, rfl⟩)
      have : scanContig (portCfg cw simd sse) [] = scanNoSpace (portCfg cw simd sse) [] := by simp [scanContig, portCfg]
      rw [this, hlone]
      exact ⟨_, rfl, fun hp _ => absurd rfl (hp [])⟩
    · obtain ⟨o3, e3, s3⟩ := scan_spec (portCfg_valid hst sse) rfl rfl rfl rfl t hn
        (CodeUnits.tail (a := [58]) hc) (NoLongRun.tail (a := [58]) hs)
      simp only [thenOk, e3, Option.bind_some]
      by_cases k6 : o3.code ≠ .ok
      · exact ⟨_, by rw [if_pos k6], fun _ h => absurd h k6⟩
      rw [if_neg k6]
      obtain ⟨d, hd, hl3, hnd, hdv⟩ := num_sound s3 (by simpa using k6)
      refine ⟨_, rfl, fun _ _ => ⟨d, hd, by rw [hdv]; simp [stored], ?_, hnd⟩⟩
      rw [hl3]; simp [ascii]

theorem scnPort_complete (hst : Setting cw simd) {v : Nat} {rest : List Nat} (hv : v < 65536)
    (hc : CodeUnits cw (ascii ":" ++ decText v ++ rest)) (hs : NoLongRun sse (ascii ":" ++ decText v ++ rest)) (hnd : NoDigitFirst 10 rest) :
    scnPort cw simd sse (ascii ":" ++ decText v ++ rest) = some ⟨rest, .ok, some v⟩ := by
  have e : ascii ":" ++ decText v ++ rest = [58] ++ (decText v ++ rest) := by simp [ascii]
  rw [e] at hc hs ⊢
  unfold scnPort
  simp only [List.cons_append, List.nil_append, thenChar, ne_eq, not_true_eq_false, if_false]
  rw [scan_complete (portCfg_valid hst sse) rfl rfl rfl rfl (v := v) hv hnd (CodeUnits.tail (a := [58]) hc) (NoLongRun.tail (a := [58]) hs)]
  simp [thenOk, stored]

end Verif.Ip
