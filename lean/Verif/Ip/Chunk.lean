import Verif.Ip.Scan
/-! Scanning IPv4 addresses that arrive in chunks. -/
namespace Verif.Ip
open Verif Verif.IntPrint Verif.IntScan

/-! ## What remains to be read -/

/-- White space, then a dotted decimal address. -/
def SpacedAddr (l : List Nat) (x : Addr4) (rest : List Nat) : Prop :=
  ∃ ws t, (∀ c ∈ ws, IsSpace c) ∧ l = ws ++ t ∧ StartsWithAddr t x rest

def T3 (u : List Nat) (x : Addr4) (rest : List Nat) : Prop := x.d < 256 ∧ u = decText x.d ++ rest ∧ NoDigitFirst 10 rest
def T2 (u : List Nat) (x : Addr4) (rest : List Nat) : Prop := x.c < 256 ∧ ∃ w, u = decText x.c ++ 46 :: w ∧ T3 w x rest
def T1 (u : List Nat) (x : Addr4) (rest : List Nat) : Prop := x.b < 256 ∧ ∃ w, u = decText x.b ++ 46 :: w ∧ T2 w x rest
def T0 (u : List Nat) (x : Addr4) (rest : List Nat) : Prop :=
  x.a < 256 ∧ ∃ ws w, (∀ c ∈ ws, IsSpace c) ∧ u = ws ++ decText x.a ++ 46 :: w ∧ T1 w x rest

theorem spacedAddr_iff (l : List Nat) (x : Addr4) (rest : List Nat) : SpacedAddr l x rest ↔ T0 l x rest := by
  constructor
  · rintro ⟨ws, t, h1, h2, ⟨ha, hb, hc, hd⟩, h4, h5⟩
    exact ⟨ha, ws, _, h1, by rw [h2, h4]; simp [dotted, ascii], hb, _, rfl, hc, _, rfl, hd, rfl, h5⟩
  · rintro ⟨ha, ws, w, h1, h2, hb, w1, h3, hc, w2, h4, hd, h5, h6⟩
    refine ⟨ws, dotted x ++ rest, h1, ?_, ⟨ha, hb, hc, hd⟩, rfl, h6⟩
    rw [h2, h3, h4, h5]; simp [dotted, ascii]

/-- Cuts that confuse the integer scanner: just behind a number that is a single `0`, or inside a run of six or more digits. -/
def BadEnd (t : List Nat) : Prop :=
  (∃ p, t = p ++ [48] ∧ ∀ p' c d, p = p' ++ [c] → ¬ IsDigit 10 c d) ∨
  (∃ p cs ds, t = p ++ cs ∧ DigitRun 10 cs ds ∧ 6 ≤ cs.length)

variable {cw simd : Nat} {sse : Bool}

/-- What has been read, by phase. -/
inductive IpInv (cw simd : Nat) (sse : Bool) : V4State → List Nat → Prop
  | addr0 (s q) : s.phase = .addr0 → Inv (octetCfg cw simd sse false) s.int q → IpInv cw simd sse s q
  | addr1 (s P q) : s.phase = .addr1 → Inv (octetCfg cw simd sse true) s.int q → (∃ p, P = p ++ [46]) →
      (∀ u x rest, T0 (P ++ u) x rest ↔ x.a = s.addr.a ∧ T1 u x rest) → IpInv cw simd sse s (P ++ q)
  | addr2 (s P q) : s.phase = .addr2 → Inv (octetCfg cw simd sse true) s.int q → (∃ p, P = p ++ [46]) →
      (∀ u x rest, T0 (P ++ u) x rest ↔ x.a = s.addr.a ∧ x.b = s.addr.b ∧ T2 u x rest) → IpInv cw simd sse s (P ++ q)
  | addr3 (s P q) : s.phase = .addr3 → Inv (octetCfg cw simd sse true) s.int q → (∃ p, P = p ++ [46]) →
      (∀ u x rest, T0 (P ++ u) x rest ↔ x.a = s.addr.a ∧ x.b = s.addr.b ∧ x.c = s.addr.c ∧ T3 u x rest) →
      IpInv cw simd sse s (P ++ q)

/-- A call that has now seen `txt` in total is right. -/
def StepGood (cw simd : Nat) (sse : Bool) (txt : List Nat) (r : Option V4Step) : Prop :=
  ∃ s, r = some s ∧
    ((s.code = .part ∧ IpInv cw simd sse s.st txt) ∨
     (s.code = .ok ∧ ∀ fut, T0 (txt ++ fut) s.st.addr (s.rest ++ fut)) ∨
     (s.code ≠ .part ∧ s.code ≠ .ok ∧ ∀ fut x rest, ¬ T0 (txt ++ fut) x rest))

/-! ## One octet -/

theorem octet_spec_complete {ns : Bool} {ws rest : List Nat} {v : Nat} (hw : Ws (octetCfg cw simd sse ns) ws)
    (hv : v < 256) (hr : NoDigitFirst 10 rest) :
    Spec (octetCfg cw simd sse ns) (ws ++ decText v ++ rest) ⟨rest, .ok, some (v : Int)⟩ := by
  rw [List.append_assoc]
  refine .num ws _ _ hw.1 hw.2 ?_ (num_complete (bits := 8) hv hr)
  intro _
  refine ⟨by simp [decText_ne], ?_⟩
  intro c t he
  have := digitRun10_dec v
  have hne := decText_ne v
  cases hd : decText v with
  | nil => exact absurd hd hne
  | cons c' t' =>
    rw [hd] at he this
    simp only [List.cons_append, List.cons.injEq] at he
    rw [← he.1]
    generalize numeral 10 v = ds at this
    cases this with
    | cons h _ => exact not_space_of_digit (by omega) h

theorem digitRun10_range {cs ds : List Nat} (h : DigitRun 10 cs ds) : ∀ c ∈ cs, 48 ≤ c ∧ c ≤ 57 := by
  rw [digitRun10_chars h]
  intro c hc
  obtain ⟨d, hd, rfl⟩ := List.mem_map.mp hc
  have := digitRun_lt h d hd
  simp [digitChar, this]; omega

/-- Only white space and digits are ever consumed without a decision. -/
theorem inv_chars {ns : Bool} {st : CtxState} {q : List Nat} (h : Inv (octetCfg cw simd sse ns) st q) :
    ∀ c ∈ q, c ≤ 57 ∧ c ≠ 46 := by
  have hsp : ∀ ws, Ws (octetCfg cw simd sse ns) ws → ∀ c ∈ ws, c ≤ 57 ∧ c ≠ 46 := by
    intro ws hw c hc
    have := hw.2 c hc
    unfold IsSpace at this; omega
  have hsg : ∀ sgn neg, Sign (octetCfg cw simd sse ns).signed sgn neg → sgn = [] := by
    intro sgn neg h
    rcases h with ⟨h, _⟩ | ⟨h, _⟩
    · exact h
    · simp [octetCfg] at h
  have hrun : ∀ ws k cs ds, Ws (octetCfg cw simd sse ns) ws → DigitRun (octetCfg cw simd sse ns).base cs ds →
      ∀ c ∈ ws ++ ([] ++ (List.replicate k 48 ++ cs)), c ≤ 57 ∧ c ≠ 46 := by
    intro ws k cs ds hw hr c hc
    simp only [List.nil_append, List.mem_append, List.mem_replicate] at hc
    rcases hc with hc | ⟨_, rfl⟩ | hc
    · exact hsp ws hw c hc
    · omega
    · have := digitRun10_range hr c hc; omega
  cases h with
  | space ws hw => exact hsp _ hw
  | sign h => simp [octetCfg] at h
  | zeroU => simp
  | zeroS ws h => simp [octetCfg] at h
  | zeroSkip ws sgn neg k h => simp [octetCfg] at h
  | zeroInvalid ws sgn neg h hw hs =>
    rw [hsg _ _ hs]
    intro c hc
    simp only [List.nil_append, List.mem_append, List.mem_singleton] at hc
    rcases hc with hc | rfl
    · exact hsp ws hw c hc
    · omega
  | digit ws sgn neg k cs ds hw hs hk hr => rw [hsg _ _ hs]; exact hrun ws k cs ds hw hr
  | overflow b ws sgn neg k cs ds hw hs hk hr => rw [hsg _ _ hs]; exact hrun ws k cs ds hw hr

theorem inv_units {ns : Bool} {st : CtxState} {q : List Nat} (hst : Setting cw simd) (h : Inv (octetCfg cw simd sse ns) st q) :
    CodeUnits cw q := by
  intro c hc
  have h1 := (inv_chars h c hc).1
  have h2 : 2 ^ 8 ≤ 2 ^ cw := Nat.pow_le_pow_right (by omega) (by rcases hst.cw with h | h | h <;> omega)
  norm_num at h2; omega

theorem octet_spec_sound {ns : Bool} {l : List Nat} {o : Outcome} (h : Spec (octetCfg cw simd sse ns) l o) (hc : o.code = .ok) :
    ∃ ws v, Ws (octetCfg cw simd sse ns) ws ∧ v < 256 ∧ l = ws ++ decText v ++ o.rest ∧ NoDigitFirst 10 o.rest ∧
      o.value = some (v : Int) := by
  cases h with
  | eof => simp at hc
  | num ws l o h1 h2 h3 h4 =>
    obtain ⟨v, e1, e2, e3, e4⟩ := num_sound h4 hc
    exact ⟨ws, v, ⟨h1, h2⟩, e1, by rw [e2]; simp, e3, e4⟩

/-- Reading an octet and the dot behind it. -/
theorem octet_good (hst : Setting cw simd) (ns : Bool) {P q l : List Nat} {s : V4State}
    (hi : Inv (octetCfg cw simd sse ns) s.int q) (hc : CodeUnits cw l)
    (hsp : ns = false → SpaceSafe (octetCfg cw simd sse ns) l) (hbad : l ≠ [] → ¬ BadCut (octetCfg cw simd sse ns) q)
    (A : List Nat → Addr4 → List Nat → Prop) (B : Nat → List Nat → Addr4 → List Nat → Prop)
    (hder : ∀ u x rest, T0 (P ++ u) x rest ↔ A u x rest)
    (hA : ∀ u x rest, A u x rest → ∃ ws v w, Ws (octetCfg cw simd sse ns) ws ∧ v < 256 ∧ u = ws ++ decText v ++ 46 :: w ∧ B v w x rest)
    (hA' : ∀ ws v w x rest, Ws (octetCfg cw simd sse ns) ws → v < 256 → B v w x rest → A (ws ++ decText v ++ 46 :: w) x rest)
    (set : V4State → Nat → V4State) (next : V4Phase) (k : V4State → List Nat → Option V4Step)
    (hpart : ∀ st', Inv (octetCfg cw simd sse ns) st' (q ++ l) → IpInv cw simd sse { s with int := st' } (P ++ q ++ l))
    (hk : ∀ v t P', v < 256 → P' ++ t = P ++ q ++ l → (∃ p, P' = p ++ [46]) → CodeUnits cw t →
      (∀ u x rest, T0 (P' ++ u) x rest ↔ B v u x rest) →
      StepGood cw simd sse (P ++ q ++ l) (k { set s v with int := ⟨[], .zero⟩, phase := next } t)) :
    StepGood cw simd sse (P ++ q ++ l) (ctxOctet (octetCfg cw simd sse ns) set l s (fun s l => ctxDot next l s k)) := by
  have hvl := octetCfg_valid hst sse ns
  unfold ctxOctet
  by_cases hl : l = []
  · rw [if_pos hl]
    refine ⟨_, rfl, Or.inl ⟨rfl, ?_⟩⟩
    have := hpart s.int (by rw [hl, List.append_nil]; exact hi)
    exact this
  rw [if_neg hl]
  obtain ⟨r, e1, e2⟩ := ctxStep_ok hvl hi l ⟨hc, by intro h; simp [octetCfg] at h⟩ (by
    intro h; exact hsp h) (Or.inl hl) (hbad hl)
  simp only [e1, Option.bind_some]
  rcases e2 with ⟨hp, hinv⟩ | ⟨hp, hspec⟩
  · rw [if_pos (by simp [hp])]
    exact ⟨_, rfl, Or.inl ⟨hp, hpart _ hinv⟩⟩
  · by_cases hok : r.code = .ok
    · rw [if_neg (by simp [hok])]
      obtain ⟨ws, v, hw, hv, ht, hnd, hval⟩ := octet_spec_sound (by simpa using hspec []) hok
      simp only at ht hnd hval
      have hrne : r.rest ≠ [] := by
        intro hr
        obtain ⟨_, _, _, _, _, h48, _⟩ := octet_spec_sound (hspec [48]) hok
        simp only [hr, List.nil_append] at h48
        exact h48 48 [] 0 rfl (isDigit_zero (by omega))
      have hstored : stored r.value = v := by rw [hval]; simp [stored]
      rw [hstored]
      cases hr : r.rest with
      | nil => exact absurd hr hrne
      | cons c t =>
        rw [hr] at ht hnd
        unfold ctxDot
        simp only
        by_cases h46 : c = 46
        · subst h46
          rw [if_neg (by simp)]
          have huniq : ∀ u x rest, T0 (P ++ (ws ++ decText v ++ [46]) ++ u) x rest ↔ B v u x rest := by
            intro u x rest
            rw [List.append_assoc, hder]
            constructor
            · intro h
              obtain ⟨ws', v', w', hw', hv', he, hB⟩ := hA _ _ _ h
              have s1 := octet_spec_complete (cw := cw) (simd := simd) (sse := sse) (rest := 46 :: u) hw hv (noDigit_char (Or.inl rfl) _)
              have s2 := octet_spec_complete (cw := cw) (simd := simd) (sse := sse) (rest := 46 :: w') hw' hv' (noDigit_char (Or.inl rfl) _)
              rw [← he] at s2
              have s1' : Spec (octetCfg cw simd sse ns) (ws ++ decText v ++ [46] ++ u) ⟨46 :: u, .ok, some (v : Int)⟩ := by
                rw [List.append_assoc]; exact s1
              have := scanSpec_functional (by simp [octetCfg]) (by simp [octetCfg]) s1' s2
              simp only [Outcome.mk.injEq, List.cons.injEq, true_and, Option.some.injEq] at this
              obtain ⟨h1, h2⟩ := this
              have : v = v' := by exact_mod_cast h2
              rw [this, h1]; exact hB
            · intro h
              have := hA' ws v u x rest hw hv h
              rw [List.append_assoc]; exact this
          apply hk v t (P ++ (ws ++ decText v ++ [46])) hv _ ⟨P ++ (ws ++ decText v), by simp⟩ _ huniq
          · rw [List.append_assoc P q l, ht]; simp
          · have hall : CodeUnits cw (q ++ l) := by
              intro c hcm
              rcases List.mem_append.mp hcm with h | h
              · exact inv_units hst hi c h
              · exact hc c h
            rw [ht] at hall
            intro c hcm; exact hall c (by simp [hcm])
        · rw [if_pos h46]
          refine ⟨_, rfl, Or.inr (Or.inr ⟨by simp, by simp, ?_⟩)⟩
          intro fut x rest h
          rw [List.append_assoc, List.append_assoc, hder] at h
          obtain ⟨ws', v', w', hw', hv', he, hB⟩ := hA _ _ _ h
          have s2 := octet_spec_complete (cw := cw) (simd := simd) (sse := sse) (rest := 46 :: w') hw' hv' (noDigit_char (Or.inl rfl) _)
          rw [← he] at s2
          have := scanSpec_functional (by simp [octetCfg]) (by simp [octetCfg]) s2 (by simpa using hspec fut)
          simp only [Outcome.mk.injEq] at this
          rw [hr] at this
          simp only [List.cons_append, List.cons.injEq] at this
          exact h46 this.1.1.symm
    · rw [if_pos hok]
      refine ⟨_, rfl, Or.inr (Or.inr ⟨hp, hok, ?_⟩)⟩
      intro fut x rest h
      rw [List.append_assoc, List.append_assoc, hder] at h
      obtain ⟨ws', v', w', hw', hv', he, hB⟩ := hA _ _ _ h
      have s2 := octet_spec_complete (cw := cw) (simd := simd) (sse := sse) (rest := 46 :: w') hw' hv' (noDigit_char (Or.inl rfl) _)
      rw [← he] at s2
      have := scanSpec_functional (by simp [octetCfg]) (by simp [octetCfg]) s2 (by simpa using hspec fut)
      simp only [Outcome.mk.injEq] at this
      exact hok this.2.1.symm

theorem sign_octet {ns : Bool} {sgn : List Nat} {neg : Bool} (h : Sign (octetCfg cw simd sse ns).signed sgn neg) : sgn = [] := by
  rcases h with ⟨h, _⟩ | ⟨h, _⟩
  · exact h
  · simp [octetCfg] at h

theorem ctxCap_octet (ns : Bool) : ctxCap (octetCfg cw simd sse ns) = 6 := by
  simp only [ctxCap, octetCfg, Bool.false_eq_true, if_false]; decide +kernel

theorem not_digit_of {c d : Nat} (h : IsSpace c ∨ c = 46) : ¬ IsDigit 10 c d := by
  intro hd
  rcases h with h | h
  · exact not_space_of_digit (by omega) hd h
  · subst h; exact noDigit_char (Or.inl rfl) [] 46 [] d rfl hd

theorem badEnd_of {ns : Bool} {P q : List Nat} (hP : P = [] ∨ ∃ p, P = p ++ [46]) (h : BadCut (octetCfg cw simd sse ns) q) :
    BadEnd (P ++ q) := by
  rcases h with ⟨_, ws, sgn, neg, e, hw, hs⟩ | ⟨ws, sgn, neg, k, cs, ds, e, hw, hs, hr, h0, hcap⟩
  · left
    rw [sign_octet hs] at e
    refine ⟨P ++ ws, by rw [e]; simp, ?_⟩
    intro p' c d he
    apply not_digit_of
    rcases List.eq_nil_or_concat ws with h | ⟨w', c', h⟩
    · right
      rw [h, List.append_nil] at he
      rcases hP with h | ⟨p, h⟩
      · rw [h] at he; simp at he
      · rw [h] at he
        have := (List.append_inj' he rfl).2
        simpa using this.symm
    · left
      rw [h, List.concat_eq_append, ← List.append_assoc] at he
      have := (List.append_inj' he rfl).2
      simp only [List.cons.injEq, and_true] at this
      rw [← this]; exact hw.2 c' (by rw [h]; simp)
  · right
    rw [sign_octet hs] at e hcap
    rw [ctxCap_octet] at hcap
    exact ⟨P ++ ws ++ List.replicate k 48, cs, ds, by rw [e]; simp, hr, by simpa using hcap⟩

theorem ws_nil {ws : List Nat} (h : Ws (octetCfg cw simd sse true) ws) : ws = [] := h.1 rfl

/-- The last octet. -/
theorem addr3_good (hst : Setting cw simd) {P q l : List Nat} {s : V4State} (hph : s.phase = .addr3)
    (hi : Inv (octetCfg cw simd sse true) s.int q) (hc : CodeUnits cw l) (hP : ∃ p, P = p ++ [46])
    (hbad : l ≠ [] → ¬ BadEnd (P ++ q))
    (hder : ∀ u x rest, T0 (P ++ u) x rest ↔ x.a = s.addr.a ∧ x.b = s.addr.b ∧ x.c = s.addr.c ∧ T3 u x rest) :
    StepGood cw simd sse (P ++ q ++ l) (ctxAddr3 cw simd sse s l) := by
  have hvl := octetCfg_valid hst sse true
  unfold ctxAddr3
  by_cases hl : l = []
  · rw [if_pos hl]
    refine ⟨_, rfl, Or.inl ⟨rfl, ?_⟩⟩
    rw [hl, List.append_nil]
    exact .addr3 s P q hph hi hP hder
  rw [if_neg hl]
  obtain ⟨r, e1, e2⟩ := ctxStep_ok hvl hi l ⟨hc, by intro h; simp [octetCfg] at h⟩ (by
    intro h; simp [octetCfg] at h) (Or.inl hl) (fun h => hbad hl (badEnd_of (Or.inr hP) h))
  simp only [e1, Option.bind_some]
  have hno : r.code ≠ .ok → (∀ fut, Spec (octetCfg cw simd sse true) (q ++ l ++ fut) ⟨r.rest ++ fut, r.code, r.value⟩) →
      ∀ fut x rest, ¬ T0 (P ++ q ++ l ++ fut) x rest := by
    intro hok hspec fut x rest h
    rw [List.append_assoc, List.append_assoc, hder] at h
    obtain ⟨_, _, _, hd, he, hnd⟩ := h
    have s2 := octet_spec_complete (cw := cw) (simd := simd) (sse := sse) (ns := true) (ws := []) ⟨by simp, by simp⟩ hd hnd
    rw [List.nil_append, ← he] at s2
    have := scanSpec_functional (by simp [octetCfg]) (by simp [octetCfg]) s2 (by simpa using hspec fut)
    simp only [Outcome.mk.injEq] at this
    exact hok this.2.1.symm
  rcases e2 with ⟨hp, hinv⟩ | ⟨hp, hspec⟩
  · rw [if_pos (by simp [hp])]
    refine ⟨_, rfl, Or.inl ⟨hp, ?_⟩⟩
    rw [List.append_assoc]
    exact .addr3 _ P (q ++ l) hph hinv hP hder
  · by_cases hok : r.code = .ok
    · rw [if_neg (by simp [hok])]
      refine ⟨_, rfl, Or.inr (Or.inl ⟨rfl, ?_⟩)⟩
      intro fut
      obtain ⟨ws, v, hw, hv, ht, hnd, hval⟩ := octet_spec_sound (hspec fut) hok
      simp only at ht hnd hval
      rw [ws_nil hw, List.nil_append] at ht
      have hstored : stored r.value = v := by rw [hval]; simp [stored]
      rw [List.append_assoc, List.append_assoc, hder]
      refine ⟨rfl, rfl, rfl, ?_⟩
      unfold T3
      simp only [hstored]
      exact ⟨hv, by rw [← ht]; simp, hnd⟩
    · rw [if_pos hok]
      exact ⟨_, rfl, Or.inr (Or.inr ⟨hp, hok, hno hok hspec⟩)⟩

theorem fresh (s : V4State) (h : s.int = ⟨[], .zero⟩) : Inv (octetCfg cw simd sse true) s.int [] := by
  rw [h]; exact .zeroU rfl rfl

/-- A cut directly behind a dot is never bad. -/
theorem not_badEnd_dot {p : List Nat} : ¬ BadEnd (p ++ [46]) := by
  rintro (⟨p', h, _⟩ | ⟨p', cs, ds, h, hr, hl⟩)
  · have := (List.append_inj' h rfl).2
    simp at this
  · rcases List.eq_nil_or_concat cs with hn | ⟨cs', c, hn⟩
    · rw [hn] at hl; simp at hl
    · rw [hn, List.concat_eq_append, ← List.append_assoc] at h
      have := (List.append_inj' h rfl).2
      simp only [List.cons.injEq, and_true] at this
      have := digitRun10_range hr c (by rw [hn]; simp)
      omega

theorem addr2_good (hst : Setting cw simd) {P q l : List Nat} {s : V4State} (hph : s.phase = .addr2)
    (hi : Inv (octetCfg cw simd sse true) s.int q) (hc : CodeUnits cw l) (hP : ∃ p, P = p ++ [46])
    (hbad : l ≠ [] → ¬ BadEnd (P ++ q))
    (hder : ∀ u x rest, T0 (P ++ u) x rest ↔ x.a = s.addr.a ∧ x.b = s.addr.b ∧ T2 u x rest) :
    StepGood cw simd sse (P ++ q ++ l) (ctxAddr2 cw simd sse s l) := by
  unfold ctxAddr2
  refine octet_good hst true hi hc (by simp) (fun hl h => hbad hl (badEnd_of (Or.inr hP) h))
    (fun u x rest => x.a = s.addr.a ∧ x.b = s.addr.b ∧ T2 u x rest)
    (fun v u x rest => x.a = s.addr.a ∧ x.b = s.addr.b ∧ x.c = v ∧ T3 u x rest) hder ?_ ?_ _ .addr3 _ ?_ ?_
  · rintro u x rest ⟨h1, h2, h3, w, h4, h5⟩
    exact ⟨[], x.c, w, ⟨by simp, by simp⟩, h3, by rw [h4]; simp, h1, h2, rfl, h5⟩
  · rintro ws v w x rest hw hv ⟨h1, h2, h3, h4⟩
    rw [ws_nil hw]
    exact ⟨h1, h2, by omega, w, by rw [h3]; simp, h4⟩
  · intro st' h
    rw [List.append_assoc]
    exact .addr2 _ P (q ++ l) hph h hP hder
  · intro v t P' hv he hP' hct hd
    rw [← he]
    have := addr3_good (cw := cw) (simd := simd) (sse := sse) (P := P') (q := []) (l := t)
      (s := { s with addr := { s.addr with c := v }, phase := .addr3, int := ⟨[], .zero⟩ }) hst rfl (fresh _ rfl) hct hP'
      (fun _ => by obtain ⟨p, rfl⟩ := hP'; rw [List.append_nil]; exact not_badEnd_dot) hd
    rw [List.append_nil] at this
    exact this

theorem addr1_good (hst : Setting cw simd) {P q l : List Nat} {s : V4State} (hph : s.phase = .addr1)
    (hi : Inv (octetCfg cw simd sse true) s.int q) (hc : CodeUnits cw l) (hP : ∃ p, P = p ++ [46])
    (hbad : l ≠ [] → ¬ BadEnd (P ++ q))
    (hder : ∀ u x rest, T0 (P ++ u) x rest ↔ x.a = s.addr.a ∧ T1 u x rest) :
    StepGood cw simd sse (P ++ q ++ l) (ctxAddr1 cw simd sse s l) := by
  unfold ctxAddr1
  refine octet_good hst true hi hc (by simp) (fun hl h => hbad hl (badEnd_of (Or.inr hP) h))
    (fun u x rest => x.a = s.addr.a ∧ T1 u x rest)
    (fun v u x rest => x.a = s.addr.a ∧ x.b = v ∧ T2 u x rest) hder ?_ ?_ _ .addr2 _ ?_ ?_
  · rintro u x rest ⟨h1, h3, w, h4, h5⟩
    exact ⟨[], x.b, w, ⟨by simp, by simp⟩, h3, by rw [h4]; simp, h1, rfl, h5⟩
  · rintro ws v w x rest hw hv ⟨h1, h3, h4⟩
    rw [ws_nil hw]
    exact ⟨h1, by omega, w, by rw [h3]; simp, h4⟩
  · intro st' h
    rw [List.append_assoc]
    exact .addr1 _ P (q ++ l) hph h hP hder
  · intro v t P' hv he hP' hct hd
    rw [← he]
    have := addr2_good (cw := cw) (simd := simd) (sse := sse) (P := P') (q := []) (l := t)
      (s := { s with addr := { s.addr with b := v }, phase := .addr2, int := ⟨[], .zero⟩ }) hst rfl (fresh _ rfl) hct hP'
      (fun _ => by obtain ⟨p, rfl⟩ := hP'; rw [List.append_nil]; exact not_badEnd_dot) hd
    rw [List.append_nil] at this
    exact this

theorem addr0_good (hst : Setting cw simd) {q l : List Nat} {s : V4State} (hph : s.phase = .addr0)
    (hi : Inv (octetCfg cw simd sse false) s.int q) (hc : CodeUnits cw l)
    (hsp : SpaceSafe (octetCfg cw simd sse false) l) (hbad : l ≠ [] → ¬ BadEnd q) :
    StepGood cw simd sse (q ++ l) (ctxAddr0 cw simd sse s l) := by
  unfold ctxAddr0
  have := octet_good (P := []) (l := l) (s := s) hst false hi hc (fun _ => hsp) (fun hl h => hbad hl (badEnd_of (P := []) (Or.inl rfl) h))
    T0 (fun v u x rest => x.a = v ∧ T1 u x rest) (by simp) ?_ ?_
    (fun s v => { s with addr := { s.addr with a := v }, phase := .dot0 }) .addr1 (ctxAddr1 cw simd sse) ?_ ?_
  · exact this
  · rintro u x rest ⟨h3, ws, w, h1, h4, h5⟩
    exact ⟨ws, x.a, w, ⟨by simp [octetCfg], h1⟩, h3, h4, rfl, h5⟩
  · rintro ws v w x rest hw hv ⟨h3, h4⟩
    exact ⟨by omega, ws, w, hw.2, by rw [h3], h4⟩
  · intro st' h
    rw [List.nil_append]
    exact .addr0 _ (q ++ l) hph h
  · intro v t P' hv he hP' hct hd
    rw [← he]
    have := addr1_good (cw := cw) (simd := simd) (sse := sse) (P := P') (q := []) (l := t)
      (s := { s with addr := { s.addr with a := v }, phase := .addr1, int := ⟨[], .zero⟩ }) hst rfl (fresh _ rfl) hct hP'
      (fun _ => by obtain ⟨p, rfl⟩ := hP'; rw [List.append_nil]; exact not_badEnd_dot) hd
    rw [List.append_nil] at this
    exact this

/-- One call. -/
theorem ctxInaddr_good (hst : Setting cw simd) {pre l : List Nat} {s : V4State} (hi : IpInv cw simd sse s pre)
    (hc : CodeUnits cw l) (hsp : SpaceSafe (octetCfg cw simd sse false) l) (hbad : l ≠ [] → ¬ BadEnd pre) :
    StepGood cw simd sse (pre ++ l) (ctxInaddr cw simd sse s l) := by
  cases hi with
  | addr0 _ h1 h2 => simp only [ctxInaddr, h1]; exact addr0_good hst h1 h2 hc hsp hbad
  | addr1 P q h1 h2 h3 h4 => simp only [ctxInaddr, h1]; exact addr1_good hst h1 h2 hc h3 hbad h4
  | addr2 P q h1 h2 h3 h4 => simp only [ctxInaddr, h1]; exact addr2_good hst h1 h2 hc h3 hbad h4
  | addr3 P q h1 h2 h3 h4 => simp only [ctxInaddr, h1]; exact addr3_good hst h1 h2 hc h3 hbad h4

/-- The text ends in a run of six or more digits. -/
def EndsLong (t : List Nat) : Prop := ∃ p cs ds, t = p ++ cs ∧ DigitRun 10 cs ds ∧ 6 ≤ cs.length

theorem eofInaddr_good (hst : Setting cw simd) {pre : List Nat} {s : V4State} (hi : IpInv cw simd sse s pre)
    (hdot : ∀ p, pre ≠ p ++ [46]) (hlong : ¬ EndsLong pre) :
    ∃ c v, eofInaddr cw simd sse s = some (c, v) ∧ ∀ x rest, (c = .ok ∧ v = some x ∧ rest = []) ↔ T0 pre x rest := by
  have nodot : ∀ {ns : Bool} {q w : List Nat} {v : Nat}, Inv (octetCfg cw simd sse ns) s.int q → q ≠ decText v ++ 46 :: w := by
    intro ns q w v h he
    exact (inv_chars h 46 (by rw [he]; simp)).2 rfl
  cases hi with
  | addr0 _ h1 h2 =>
    refine ⟨.eof, none, by simp [eofInaddr, h1], ?_⟩
    intro x rest
    refine ⟨by simp, ?_⟩
    rintro ⟨_, ws, w, _, he, _⟩
    exact absurd rfl (inv_chars h2 46 (by rw [he]; simp)).2
  | addr1 P q h1 h2 h3 h4 =>
    refine ⟨.eof, none, by simp [eofInaddr, h1], ?_⟩
    intro x rest
    refine ⟨by simp, ?_⟩
    rw [h4]
    rintro ⟨_, _, w, he, _⟩
    exact absurd he (nodot h2)
  | addr2 P q h1 h2 h3 h4 =>
    refine ⟨.eof, none, by simp [eofInaddr, h1], ?_⟩
    intro x rest
    refine ⟨by simp, ?_⟩
    rw [h4]
    rintro ⟨_, _, _, w, he, _⟩
    exact absurd he (nodot h2)
  | addr3 P q h1 h2 h3 h4 =>
    have hvl := octetCfg_valid hst sse true
    have hqne : q ≠ [] := by
      intro h; obtain ⟨p, rfl⟩ := h3; rw [h, List.append_nil] at hdot; exact hdot p rfl
    obtain ⟨r, e1, e2⟩ := ctxEof_ok hvl h2
    have key : eofInaddr cw simd sse s = some (r.1, r.2.map fun v => { s.addr with d := v.toNat }) := by
      unfold eofInaddr
      rw [if_neg (by simp [h1])]
      generalize s.int = st at h2 e1
      cases h2 with
      | space _ hw => exact absurd (ws_nil hw) hqne
      | sign h => simp [octetCfg] at h
      | zeroU => exact absurd rfl hqne
      | zeroS ws h => simp [octetCfg] at h
      | zeroSkip ws sgn neg k h => simp [octetCfg] at h
      | zeroInvalid ws sgn neg h hw hs =>
        simp only [ctxEof, Option.some.injEq] at e1
        rw [← e1, sign_octet hs]
        rw [scanNoSpace_lone hvl (Or.inr ⟨rfl, rfl⟩)]
        rfl
      | digit ws sgn neg k cs ds hw hs hk hr =>
        simp only [ctxEof] at e1
        have : ({ octetCfg cw simd sse true with skipzero := false, noskipws := true } : Cfg) = octetCfg cw simd sse true := rfl
        rw [this] at e1
        obtain ⟨o, ho, rfl⟩ := Option.map_eq_some_iff.mp e1
        rw [ho]; rfl
      | overflow b ws sgn neg k cs ds hw hs hk hr h0 hz hcap =>
        exfalso
        rw [sign_octet hs] at *
        rw [ctxCap_octet] at hcap
        exact hlong ⟨P ++ ws ++ List.replicate k 48, cs, ds, by simp, hr, by simpa using hcap⟩
    refine ⟨_, _, key, ?_⟩
    intro x rest
    rw [h4]
    constructor
    · rintro ⟨hc, hv, rfl⟩
      obtain ⟨ws, v, hw, hv', ht, hnd, hval⟩ := octet_spec_sound e2 hc
      simp only at ht hnd hval
      rw [hval] at hv
      simp only [Option.map_some, Option.some.injEq] at hv
      rw [← hv]
      rw [ws_nil hw, List.nil_append] at ht
      exact ⟨rfl, rfl, rfl, by simpa using hv', by simpa using ht, hnd⟩
    · rintro ⟨ha, hb, hc, hd, he, hnd⟩
      have s2 := octet_spec_complete (cw := cw) (simd := simd) (sse := sse) (ns := true) (ws := []) ⟨by simp, by simp⟩ hd hnd
      rw [List.nil_append, ← he] at s2
      have := scanSpec_functional (by simp [octetCfg]) (by simp [octetCfg]) s2 e2
      simp only [Outcome.mk.injEq] at this
      obtain ⟨t1, t2, t3⟩ := this
      refine ⟨t2.symm, ?_, t1⟩
      rw [← t3]
      simp only [Option.map_some, Option.some.injEq, Int.toNat_natCast]
      rw [← ha, ← hb, ← hc]

theorem T_functional {l : List Nat} {x y : Addr4} {r s : List Nat} (h : T0 l x r) (h' : T0 l y s) : x = y ∧ r = s := by
  have oct : ∀ {ns : Bool} {ws ws' : List Nat} {v v' : Nat} {t t' : List Nat}, Ws (octetCfg 8 0 false ns) ws → Ws (octetCfg 8 0 false ns) ws' →
      v < 256 → v' < 256 → NoDigitFirst 10 t → NoDigitFirst 10 t' → ws ++ decText v ++ t = ws' ++ decText v' ++ t' → v = v' ∧ t = t' := by
    intro ns ws ws' v v' t t' hw hw' hv hv' ht ht' he
    have s1 := octet_spec_complete (cw := 8) (simd := 0) (sse := false) hw hv ht
    have s2 := octet_spec_complete (cw := 8) (simd := 0) (sse := false) hw' hv' ht'
    rw [he] at s1
    have := scanSpec_functional (by simp [octetCfg]) (by simp [octetCfg]) s1 s2
    simp only [Outcome.mk.injEq, true_and, Option.some.injEq] at this
    exact ⟨by exact_mod_cast this.2, this.1⟩
  have hd : ∀ t, NoDigitFirst 10 (46 :: t) := fun t => noDigit_char (Or.inl rfl) t
  have nil : Ws (octetCfg 8 0 false true) [] := ⟨by simp, by simp⟩
  obtain ⟨ha, ws, w, h1, h2, hb, w1, h3, hc, w2, h4, hd', h5, h6⟩ := h
  obtain ⟨ka, us, u, k1, k2, kb, u1, k3, kc, u2, k4, kd', k5, k6⟩ := h'
  obtain ⟨e1, f1⟩ := oct (ns := false) ⟨by simp [octetCfg], h1⟩ ⟨by simp [octetCfg], k1⟩ ha ka (hd _) (hd _) (h2.symm.trans k2)
  simp only [List.cons.injEq, true_and] at f1
  rw [h3, k3] at f1
  obtain ⟨e2, f2⟩ := oct (ns := true) nil nil hb kb (hd _) (hd _) (by simpa using f1)
  simp only [List.cons.injEq, true_and] at f2
  rw [h4, k4] at f2
  obtain ⟨e3, f3⟩ := oct (ns := true) nil nil hc kc (hd _) (hd _) (by simpa using f2)
  simp only [List.cons.injEq, true_and] at f3
  rw [h5, k5] at f3
  obtain ⟨e4, f4⟩ := oct (ns := true) nil nil hd' kd' h6 k6 (by simpa using f3)
  refine ⟨?_, f4⟩
  cases x; cases y; simp_all

theorem runInaddr_good (hst : Setting cw simd) (chunks : List (List Nat)) : ∀ {s : V4State} {pre : List Nat},
    IpInv cw simd sse s pre → (∀ l ∈ chunks, CodeUnits cw l ∧ SpaceSafe (octetCfg cw simd sse false) l) →
    (∀ a b, chunks = a ++ b → b ≠ [] → ¬ BadEnd (pre ++ a.flatten)) →
    (∀ p, pre ++ chunks.flatten ≠ p ++ [46]) → ¬ EndsLong (pre ++ chunks.flatten) →
    ∃ o, runInaddr cw simd sse s chunks = some o ∧
      ∀ x rest, o = ⟨rest, .ok, some x⟩ ↔ T0 (pre ++ chunks.flatten) x rest := by
  induction chunks with
  | nil =>
    intro s pre hi _ _ hdot hlong
    simp only [List.flatten_nil, List.append_nil] at *
    obtain ⟨c, v, e1, e2⟩ := eofInaddr_good hst hi hdot hlong
    refine ⟨⟨[], c, v⟩, by simp [runInaddr, e1], ?_⟩
    intro x rest
    rw [← e2]
    simp only [Out.mk.injEq]
    tauto
  | cons l ls ih =>
    intro s pre hi hcl hcut hdot hlong
    obtain ⟨r, e1, e2⟩ := ctxInaddr_good (l := l) hst hi (hcl l (by simp)).1 (hcl l (by simp)).2
      (fun _ => by simpa using hcut [] (l :: ls) rfl (by simp))
    simp only [runInaddr, e1, Option.bind_some]
    have hfl : pre ++ (l :: ls).flatten = pre ++ l ++ ls.flatten := by simp
    rw [hfl] at hdot hlong ⊢
    rcases e2 with ⟨hp, hinv⟩ | ⟨hp, hok⟩ | ⟨hp, hno, hbad⟩
    · rw [if_pos hp]
      refine ih hinv (fun x hx => hcl x (by simp [hx])) ?_ hdot hlong
      intro a b he hb
      have := hcut (l :: a) b (by simp [he]) hb
      simpa using this
    · rw [if_neg (by simp [hp]), if_pos hp, hp]
      refine ⟨_, rfl, ?_⟩
      intro x rest
      have := hok ls.flatten
      constructor
      · intro h
        simp only [Out.mk.injEq, true_and, Option.some.injEq] at h
        rw [← h.1, ← h.2]; exact this
      · intro h
        obtain ⟨f1, f2⟩ := T_functional h this
        rw [f1, f2]
    · rw [if_neg hp, if_neg hno]
      refine ⟨_, rfl, ?_⟩
      intro x rest
      refine ⟨by simp, fun h => absurd h (hbad _ _ _)⟩

end Verif.Ip
