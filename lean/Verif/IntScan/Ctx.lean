import Verif.IntScan.Contig
import Verif.IntScan.CtxModel
/-! The resumable scanner against the specification. -/
namespace Verif.IntScan
open Verif Verif.IntPrint

abbrev Spec (cfg : Cfg) := ScanSpec cfg.bits cfg.signed cfg.noskipws cfg.skipzero cfg.base

/-- Leading white space as it may be skipped. -/
def Ws (cfg : Cfg) (ws : List Nat) : Prop := (cfg.noskipws = true → ws = []) ∧ ∀ c ∈ ws, IsSpace c

/-- What the input consumed so far looks like in each phase. -/
inductive Inv (cfg : Cfg) : CtxState → List Nat → Prop
  | space (ws) : Ws cfg ws → Inv cfg ⟨[], .space⟩ ws
  | sign : cfg.signed = true → cfg.noskipws = true → Inv cfg ⟨[], .sign⟩ []
  | zeroU : cfg.signed = false → cfg.noskipws = true → Inv cfg ⟨[], .zero⟩ []
  | zeroS (ws) : cfg.signed = true → Ws cfg ws → Inv cfg ⟨[45], .zero⟩ (ws ++ [45])
  | zeroSkip (ws sgn neg k) : cfg.skipzero = true → Ws cfg ws → Sign cfg.signed sgn neg →
      Inv cfg ⟨sgn, .zeroSkip⟩ (ws ++ (sgn ++ List.replicate (k + 1) 48))
  | zeroInvalid (ws sgn neg) : cfg.skipzero = false → Ws cfg ws → Sign cfg.signed sgn neg →
      Inv cfg ⟨sgn, .zeroInvalid⟩ (ws ++ (sgn ++ [48]))
  | digit (ws sgn neg k cs ds) : Ws cfg ws → Sign cfg.signed sgn neg → (cfg.skipzero = false → k = 0) →
      DigitRun cfg.base cs ds → ds ≠ [] → ds.head? ≠ some 0 → sgn.length + cs.length < ctxCap cfg →
      Inv cfg ⟨sgn ++ cs, .digit⟩ (ws ++ (sgn ++ (List.replicate k 48 ++ cs)))
  | overflow (b ws sgn neg k cs ds) : Ws cfg ws → Sign cfg.signed sgn neg → (cfg.skipzero = false → k = 0) →
      DigitRun cfg.base cs ds → ds ≠ [] → ds.head? ≠ some 0 → ctxCap cfg ≤ sgn.length + cs.length →
      Inv cfg ⟨b, .overflow⟩ (ws ++ (sgn ++ (List.replicate k 48 ++ cs)))

/-- The outcome of a step given what was consumed before. -/
def StepOk (cfg : Cfg) (pre l : List Nat) (s : Step) : Prop :=
  (s.code = .part ∧ Inv cfg s.st (pre ++ l)) ∨
  (s.code ≠ .part ∧ ∀ fut, Spec cfg (pre ++ l ++ fut) ⟨s.rest ++ fut, s.code, s.value⟩)

theorem noDigit_append {b : Nat} {l : List Nat} (h : NoDigitFirst b l) (hl : l ≠ []) (fut : List Nat) :
    NoDigitFirst b (l ++ fut) := by
  cases l with
  | nil => exact absurd rfl hl
  | cons c t =>
    intro c' t' d he
    simp only [List.cons_append, List.cons.injEq] at he
    exact he.1 ▸ h c t d rfl

theorem not_space_of_digit {b c d : Nat} (hb2 : b ≤ 36) (h : IsDigit b c d) : ¬ IsSpace c := by
  have := isDigit_lt hb2 h
  unfold IsSpace; omega

theorem digitRun_zeros {b : Nat} (hb : 2 ≤ b) (k : Nat) : DigitRun b (List.replicate k 48) (List.replicate k 0) := by
  induction k with
  | zero => exact .nil
  | succ k ih => exact .cons (isDigit_zero hb) ih

/-- From digits to the whole scan. -/
theorem spec_of_expect {cfg : Cfg} (hv : Valid cfg) {neg : Bool} {ws sgn cs ds rest : List Nat} {k : Nat}
    (hw : Ws cfg ws) (hs : Sign cfg.signed sgn neg) (hk : cfg.skipzero = false → k = 0)
    (hr : DigitRun cfg.base cs ds) (h0 : ds ≠ []) (hz : ds.head? ≠ some 0) (hn : NoDigitFirst cfg.base rest) :
    Spec cfg (ws ++ (sgn ++ (List.replicate k 48 ++ cs)) ++ rest) (expect cfg neg ds rest) := by
  have hb := hv.base_lo
  have h1 := expect_spec (cfg := cfg) (rest := rest) (sgn := sgn) (neg := neg) (digitRun_append (digitRun_zeros hb k) hr) hn
    (by simp [h0]) (by
      intro hsk; rw [hk hsk]; intro hh; exact absurd (by simpa using hh) hz) hs
  rw [expect_congr (ds' := ds) (digitsValue_replicate_zero _ _ _)] at h1
  have h2 : Spec cfg (ws ++ (sgn ++ (List.replicate k 48 ++ cs) ++ rest)) (expect cfg neg ds rest) := by
    refine .num ws _ _ hw.1 hw.2 ?_ h1
    intro _
    have hcs : cs ≠ [] := by rintro rfl; cases hr; exact h0 rfl
    refine ⟨by simp [hcs], ?_⟩
    intro c t he
    rcases hs with ⟨hs, _⟩ | ⟨_, hs, _⟩
    · rw [hs] at he
      simp only [List.nil_append] at he
      have hall := digitRun_append (digitRun_zeros hb k) hr
      have hxs : List.replicate k 48 ++ cs ≠ [] := by simp [hcs]
      clear h1
      generalize List.replicate k 48 ++ cs = xs at *
      generalize List.replicate k 0 ++ ds = ys at *
      cases hall with
      | nil => exact absurd rfl hxs
      | cons hd _ =>
        simp only [List.cons_append, List.cons.injEq] at he
        exact he.1 ▸ not_space_of_digit hv.base_hi hd
    · rw [hs] at he
      simp only [List.cons_append, List.cons.injEq] at he
      rw [← he.1]; unfold IsSpace; omega
  rw [List.append_assoc]; exact h2

theorem ws_sign_first {cfg : Cfg} {ws sgn t : List Nat} {neg : Bool} (hs : Sign cfg.signed sgn neg)
    (hne : sgn ++ t ≠ []) (ht : sgn = [] → ∀ c t', t = c :: t' → ¬ IsSpace c) :
    cfg.noskipws = false → sgn ++ t ≠ [] ∧ ∀ c t', sgn ++ t = c :: t' → ¬ IsSpace c := by
  intro _
  refine ⟨hne, ?_⟩
  intro c t' he
  rcases hs with ⟨h, _⟩ | ⟨_, h, _⟩
  · rw [h] at he; exact ht h c t' (by simpa using he)
  · rw [h] at he
    simp only [List.cons_append, List.cons.injEq] at he
    rw [← he.1]; unfold IsSpace; omega

theorem ctxCap_lt32 {cfg : Cfg} (hv : Valid cfg) (h10 : cfg.base = 10) (h64 : cfg.bits ≤ 64) : ctxCap cfg < 32 := by
  unfold ctxCap
  rw [maxIntSize_eq hv.base_lo _ _ (intMax_ne _ _ hv.width), h10]
  have : (numeral 10 (intMax cfg.bits false)).length ≤ 20 := by
    rw [numeral_length_le (by omega) _ _ (by omega)]
    simp only [intMax, Bool.false_eq_true, if_false]
    have : 2 ^ cfg.bits ≤ 2 ^ 64 := Nat.pow_le_pow_right (by omega) h64
    norm_num at *; omega
  have := hv.slack
  split <;> omega

theorem sign_length {sg : Bool} {sgn : List Nat} {neg : Bool} (hs : Sign sg sgn neg) :
    sgn.length ≤ (if sg then 1 else 0) ∧ (sg = false → neg = false) := by
  rcases hs with ⟨h, h'⟩ | ⟨h, h', h''⟩
  · simp [h, h']
  · simp [h, h']

/-- Scanning the buffered characters. -/
theorem scanBuf_eq {cfg : Cfg} (hv : Valid cfg) {sgn cs ds : List Nat} {neg : Bool} (hs : Sign cfg.signed sgn neg)
    (hr : DigitRun cfg.base cs ds) (h0 : ds ≠ []) (hz : ds.head? ≠ some 0)
    (hcap : (sgn ++ cs).length < ctxCap cfg) :
    scanNoSpace { cfg with skipzero := false, noskipws := true } (sgn ++ cs) = some (expect cfg neg ds []) := by
  set cfg' : Cfg := { cfg with skipzero := false, noskipws := true } with hcfg'
  have hv' : Valid cfg' := ⟨hv.1, hv.2, hv.3, hv.4, hv.5, hv.6, fun _ => rfl⟩
  have hneg := (sign_length hs).2
  have hcl : Clean cfg' [] := ⟨by intro c h; simp at h, by intro _ h; simp at h⟩
  have hnd : NoDigitFirst cfg.base [] := by intro c t d h; simp at h
  have hacc : accumulate cfg' neg cs = some (expect cfg neg ds []) := by
    have hsc := scalarBranch_eq hv' (neg := neg) hr hnd hcl hz hneg
    rw [List.append_nil] at hsc
    unfold accumulate
    rw [if_neg]
    · rw [hsc]; rfl
    · simp only [useSse, Bool.and_eq_true, beq_iff_eq, decide_eq_true_eq, not_and, not_le]
      intro h1 
      have : ctxCap cfg < 32 := ctxCap_lt32 hv h1.1.1.2 h1.2
      simp at hcap; omega
  have haft : afterSign cfg' neg cs = some (expect cfg neg ds []) := by
    cases hr with
    | nil => exact absurd rfl h0
    | @cons c d cs ds hd hr =>
      have hcd : charDigit cfg'.cw cfg'.base c = some (some d) := charDigit_some hv.charWidth hv.base_hi hd
      simp only [afterSign, hcd, Option.bind_some]
      rw [if_neg]
      · exact hacc
      · rintro rfl; exact hz (by simp [digit48 hv.base_lo hv.base_hi hd])
  unfold scanNoSpace
  rcases hs with ⟨h, h'⟩ | ⟨h, h', h''⟩
  · subst h h'
    simp only [List.nil_append]
    by_cases hsg : cfg.signed = true
    · have : cfg'.signed = true := hsg
      rw [if_pos this]
      cases hr with
      | nil => exact absurd rfl h0
      | @cons c d cs ds hd hr =>
        simp only
        have := isDigit_lt hv.base_hi hd
        rw [if_neg (by omega)]; exact haft
    · have : ¬ cfg'.signed = true := hsg
      rw [if_neg this]; exact haft
  · subst h' h''
    have : cfg'.signed = true := h
    rw [if_pos this]
    simp only [List.cons_append, List.nil_append, if_true]
    exact haft

theorem long_run_overflow {cfg : Cfg} (hv : Valid cfg) {sgn ds : List Nat} {neg : Bool} (hs : Sign cfg.signed sgn neg)
    (h0 : ds ≠ []) (hz : ds.head? ≠ some 0) (hcap : ctxCap cfg ≤ sgn.length + ds.length) (rest : List Nat) :
    expect cfg neg ds rest = ⟨rest, .overflow, none⟩ := by
  have hsl := sign_length hs
  have hM := maxSize_general hv
  have hsk := hv.slack
  apply expect_overflow hv rest hsl.2
  unfold ctxCap at hcap
  cases ds with
  | nil => exact absurd rfl h0
  | cons d ds =>
    have hd : 0 < d := by rcases Nat.eq_zero_or_pos d with h | h
                          · simp [h] at hz
                          · exact h
    have h1 : digitsValue cfg.base (d :: ds) = horner cfg.base d ds := by simp [digitsValue_eq_horner, horner]
    rw [h1]
    have h2 : cfg.base ^ maxIntSize cfg.bits false cfg.base ≤ cfg.base ^ ds.length :=
      Nat.pow_le_pow_right (by have := hv.base_lo; omega) (by simp at hcap; omega)
    have h3 := horner_ge (b := cfg.base) ds d
    have h4 : cfg.base ^ ds.length ≤ d * cfg.base ^ ds.length := Nat.le_mul_of_pos_left _ hd
    omega

/-- The digit phase. `cs0` are the digits already buffered. -/
theorem ctxDigit_ok {cfg : Cfg} (hv : Valid cfg) {neg : Bool} {ws sgn cs0 ds0 : List Nat} {k : Nat} (ph : Phase)
    (l : List Nat) (hc : Clean cfg l)
    (hw : Ws cfg ws) (hs : Sign cfg.signed sgn neg) (hk : cfg.skipzero = false → k = 0)
    (hr0 : DigitRun cfg.base cs0 ds0) (hz0 : ds0.head? ≠ some 0) (hcap : sgn.length + cs0.length < ctxCap cfg)
    (hl : ds0 = [] → ∃ c t d, l = c :: t ∧ IsDigit cfg.base c d ∧ d ≠ 0) :
    ∃ s, ctxDigit cfg ⟨sgn ++ cs0, ph⟩ l = some s ∧
      StepOk cfg (ws ++ (sgn ++ (List.replicate k 48 ++ cs0))) l s := by
  obtain ⟨cs, ds, rest, rfl, hr, hn⟩ := exists_run cfg.base l
  have hcr := hc.tail
  have hRun := digitRun_append hr0 hr
  have hlen := digitRun_length hRun
  have hne : ds0 ++ ds ≠ [] := by
    intro he
    simp at he
    obtain ⟨c, t, d, h1, h2, _⟩ := hl he.1
    have hcs : cs = [] := by have := digitRun_length hr; rw [he.2] at this; simpa using this
    subst hcs
    exact hn c t d (by simpa using h1) h2
  have hz : (ds0 ++ ds).head? ≠ some 0 := by
    cases ds0 with
    | cons d _ => simpa using hz0
    | nil =>
      obtain ⟨c, t, d, h1, h2, h3⟩ := hl rfl
      cases hr with
      | nil => exact absurd rfl hne
      | @cons c' d' cs ds hd hr =>
        simp only [List.cons_append, List.cons.injEq] at h1
        have := isDigit_unique hv.base_hi (h1.1 ▸ hd) h2
        simp [this, h3]
  have happ : ∀ fut, ws ++ (sgn ++ (List.replicate k 48 ++ cs0)) ++ (cs ++ rest) ++ fut =
      ws ++ (sgn ++ (List.replicate k 48 ++ (cs0 ++ cs))) ++ (rest ++ fut) := by intro fut; simp
  unfold ctxDigit
  rw [skipDigits_eq hv hr hn hcr]
  simp only [Option.bind_some]
  have hn1 : (cs ++ rest).length - rest.length = cs.length := by simp
  rw [hn1, List.take_left]
  by_cases hfit : cs.length < ctxCap cfg - (sgn ++ cs0).length
  · rw [if_pos hfit]
    by_cases hre : rest = []
    · subst hre
      rw [if_pos rfl]
      refine ⟨_, rfl, Or.inl ⟨rfl, ?_⟩⟩
      have := Inv.digit (cfg := cfg) ws sgn neg k (cs0 ++ cs) (ds0 ++ ds) hw hs hk hRun hne hz (by simp at hfit ⊢; omega)
      simpa using this
    · rw [if_neg hre, if_neg (by
        intro he; simp at he
        have h1 := digitRun_length hr0; have h2 := digitRun_length hr
        rw [he.2.1] at h1; rw [he.2.2] at h2
        simp only [List.length_nil] at h1 h2
        exact hne (by simp [List.length_eq_zero_iff.mp h1.symm, List.length_eq_zero_iff.mp h2.symm]))]
      rw [List.append_assoc, scanBuf_eq hv hs hRun hne hz (by simp at hfit ⊢; omega)]
      simp only [Option.bind_some]
      have hrest : (expect cfg neg (ds0 ++ ds) []).rest = [] := by unfold expect; split <;> rfl
      have hpart : (expect cfg neg (ds0 ++ ds) []).code ≠ .part := by unfold expect; split <;> simp
      rw [hrest, if_neg (by simp)]
      refine ⟨_, rfl, Or.inr ⟨hpart, ?_⟩⟩
      intro fut
      have hsp := spec_of_expect hv hw hs hk hRun hne hz (noDigit_append hn hre fut)
      rw [happ]
      have hd : (cs ++ rest).drop ((sgn ++ (cs0 ++ cs)).length - ([] : List Nat).length - (sgn ++ cs0).length) = rest := by
        have : (sgn ++ (cs0 ++ cs)).length - ([] : List Nat).length - (sgn ++ cs0).length = cs.length := by simp; omega
        rw [this, List.drop_left]
      have he : (⟨rest ++ fut, (expect cfg neg (ds0 ++ ds) []).code, (expect cfg neg (ds0 ++ ds) []).value⟩ : Outcome) =
          expect cfg neg (ds0 ++ ds) (rest ++ fut) := by unfold expect; split <;> rfl
      simp only [hd, he]
      exact hsp
  · rw [if_neg hfit]
    have hlong : ctxCap cfg ≤ sgn.length + (cs0 ++ cs).length := by simp at hfit ⊢; omega
    by_cases hre : rest = []
    · subst hre
      rw [if_pos rfl]
      refine ⟨_, rfl, Or.inl ⟨rfl, ?_⟩⟩
      have := Inv.overflow (cfg := cfg) (sgn ++ cs0) ws sgn neg k (cs0 ++ cs) (ds0 ++ ds) hw hs hk hRun hne hz hlong
      simpa using this
    · rw [if_neg hre]
      refine ⟨_, rfl, Or.inr ⟨by simp, ?_⟩⟩
      intro fut
      have hsp := spec_of_expect hv hw hs hk hRun hne hz (noDigit_append hn hre fut)
      rw [long_run_overflow hv hs hne hz (by rw [← hlen]; exact hlong)] at hsp
      rw [happ]; exact hsp

theorem ctxCap_pos {cfg : Cfg} (hv : Valid cfg) {sgn : List Nat} {neg : Bool} (hs : Sign cfg.signed sgn neg) : sgn.length + 0 < ctxCap cfg := by
  have := (sign_length hs).1
  have := hv.slack
  unfold ctxCap; omega

/-- The zero phase when no zero has been seen yet (`k0 = 0`) or some have (`phase0 = zeroSkip`). -/
theorem ctxZero_ok {cfg : Cfg} (hv : Valid cfg) {neg : Bool} {ws sgn : List Nat} {k0 : Nat} (ph phase0 : Phase)
    (l : List Nat) (hc : Clean cfg l) (hl : l ≠ [])
    (hw : Ws cfg ws) (hs : Sign cfg.signed sgn neg) (hk : k0 = 0 ∨ (cfg.skipzero = true ∧ phase0 = .zeroSkip))
    (hk0 : k0 = 0 → phase0 ≠ .zeroSkip)
    (hminus : k0 = 0 → sgn = [] → cfg.signed = true → NotStartingWith 45 l)
    (hsp : k0 = 0 → sgn = [] → cfg.noskipws = false → ∀ c t, l = c :: t → ¬ IsSpace c) :
    ∃ s, ctxZero cfg ⟨sgn, ph⟩ phase0 l = some s ∧ StepOk cfg (ws ++ (sgn ++ List.replicate k0 48)) l s := by
  have hb := hv.base_lo
  have hb2 := hv.base_hi
  cases l with
  | nil => exact absurd rfl hl
  | cons c t =>
    by_cases hdig : ∃ d, IsDigit cfg.base c d
    · obtain ⟨d, hd⟩ := hdig
      have hcd := charDigit_some hv.charWidth hb2 hd
      simp only [ctxZero, hcd, Option.bind_some]
      by_cases h48 : c = 48
      · subst h48
        rw [if_pos rfl]
        by_cases hsk : cfg.skipzero = true
        · simp only [hsk, if_true]
          rw [findNoneZero_eq (hv.noTest hsk)]
          obtain ⟨zs, h1, h2, h3⟩ := dropWhile_split (fun c => c == 48) t
          generalize hdw : t.dropWhile (fun c => c == 48) = t' at *
          have hzs : zs = List.replicate zs.length 48 := by
            apply List.eq_replicate_of_mem
            intro x hx; simpa using h2 x hx
          have hct : Clean cfg t' := by have := hc.cons; rw [h1] at this; exact this.tail
          have hpre : ws ++ (sgn ++ List.replicate k0 48) ++ 48 :: t =
              ws ++ (sgn ++ List.replicate (k0 + zs.length + 1) 48) ++ t' := by
            conv_lhs => rw [h1, hzs]
            have : List.replicate (k0 + zs.length + 1) 48 = List.replicate k0 48 ++ (48 :: List.replicate zs.length 48) := by
              rw [← List.replicate_succ, ← List.replicate_add]; congr 1
            rw [this]; simp
          cases t' with
          | nil =>
            refine ⟨_, rfl, Or.inl ⟨rfl, ?_⟩⟩
            rw [hpre, List.append_nil]
            exact .zeroSkip ws sgn neg (k0 + zs.length) hsk hw hs
          | cons c' t'' =>
            by_cases hdig' : ∃ d, IsDigit cfg.base c' d
            · obtain ⟨d', hd'⟩ := hdig'
              simp only [charDigit_some hv.charWidth hb2 hd', Option.bind_some]
              have h48' : c' ≠ 48 := by have := h3 c' t'' rfl; simpa using this
              obtain ⟨s, e1, e2⟩ := ctxDigit_ok hv (ws := ws) (sgn := sgn) (cs0 := []) (ds0 := []) (k := k0 + zs.length + 1) ph
                (c' :: t'') hct hw hs (by simp [hsk]) .nil (by simp) (ctxCap_pos hv hs)
                (fun _ => ⟨c', t'', d', rfl, hd', by rintro rfl; exact h48' (digit0 hd')⟩)
              simp only [List.append_nil] at e1 e2
              refine ⟨s, e1, ?_⟩
              rcases e2 with ⟨e3, e4⟩ | ⟨e3, e4⟩
              · left; refine ⟨e3, ?_⟩; rw [hpre]; exact e4
              · right; refine ⟨e3, ?_⟩; intro fut; rw [hpre]; exact e4 fut
            · have hcd' := hct.head hv (fun d hd => hdig' ⟨d, hd⟩)
              simp only [hcd', Option.bind_some]
              refine ⟨_, rfl, Or.inr ⟨by simp, ?_⟩⟩
              intro fut
              rw [hpre]
              have hnd : NoDigitFirst cfg.base (c' :: t'' ++ fut) := by
                intro x y d he hx; simp only [List.cons_append, List.cons.injEq] at he; exact hdig' ⟨d, he.1 ▸ hx⟩
              have hrun := digitRun_zeros hb (k0 + zs.length + 1)
              have hval : digitsValue cfg.base (List.replicate (k0 + zs.length + 1) 0) = 0 := by
                have := digitsValue_replicate_zero cfg.base (k0 + zs.length + 1) []
                simpa using this
              have hex := expect_spec (cfg := cfg) (neg := neg) (sgn := sgn) hrun hnd (by simp) (by simp [hsk]) hs
              rw [expect_zero hv neg _ _ hval] at hex
              have : Spec cfg (ws ++ (sgn ++ List.replicate (k0 + zs.length + 1) 48 ++ (c' :: t'' ++ fut)))
                  ⟨c' :: t'' ++ fut, .ok, some 0⟩ := by
                refine .num ws _ _ hw.1 hw.2 ?_ hex
                have := ws_sign_first (ws := ws) (t := List.replicate (k0 + zs.length + 1) 48 ++ (c' :: t'' ++ fut)) hs
                  (by simp) (by
                    intro _ x y he
                    rw [List.replicate_succ] at he
                    simp only [List.cons_append, List.cons.injEq] at he
                    rw [← he.1]; unfold IsSpace; omega)
                simpa using this
              simpa using this
        · have hk00 : k0 = 0 := by rcases hk with h | h
                                   · exact h
                                   · exact absurd h.1 hsk
          subst hk00
          simp only [Bool.not_eq_true] at hsk
          simp only [hsk, Bool.false_eq_true, if_false, List.replicate_zero, List.append_nil]
          cases t with
          | nil =>
            refine ⟨_, rfl, Or.inl ⟨rfl, ?_⟩⟩
            rw [List.append_assoc]
            exact .zeroInvalid ws sgn neg hsk hw hs
          | cons c' t'' =>
            have hfirst := fun fut => ws_sign_first (ws := ws) (t := 48 :: c' :: t'' ++ fut) hs (by simp) (by
                intro _ x y he
                simp only [List.cons_append, List.cons.injEq] at he
                rw [← he.1]; unfold IsSpace; omega)
            by_cases hdig' : ∃ d, IsDigit cfg.base c' d
            · obtain ⟨d', hd'⟩ := hdig'
              simp only [charDigit_some hv.charWidth hb2 hd', Option.bind_some]
              refine ⟨_, rfl, Or.inr ⟨by simp, ?_⟩⟩
              intro fut
              have := NumSpec.leadingZero (bits := cfg.bits) (signed := cfg.signed) (skipzero := cfg.skipzero) sgn c' (t'' ++ fut) neg d' hsk hs hd'
              have h2 : Spec cfg _ _ := .num ws _ _ hw.1 hw.2 (by simpa using hfirst fut) this
              simpa using h2
            · have hcd' := hc.cons.head hv (fun d hd => hdig' ⟨d, hd⟩)
              simp only [hcd', Option.bind_some]
              refine ⟨_, rfl, Or.inr ⟨by simp, ?_⟩⟩
              intro fut
              have hnd : NoDigitFirst cfg.base (c' :: t'' ++ fut) := by
                intro x y d he hx; simp only [List.cons_append, List.cons.injEq] at he; exact hdig' ⟨d, he.1 ▸ hx⟩
              have hex := expect_spec (cfg := cfg) (neg := neg) (sgn := sgn) (.cons hd .nil) hnd (by simp)
                (by have := digit48 hb hb2 hd; simp [this]) hs
              rw [expect_zero hv neg _ _ (by have := digit48 hb hb2 hd; subst this; simp [digitsValue])] at hex
              have h2 : Spec cfg _ _ := .num ws _ _ hw.1 hw.2 (by simpa using hfirst fut) hex
              simpa using h2
      · rw [if_neg h48]
        have hd0 : d ≠ 0 := by rintro rfl; exact h48 (digit0 hd)
        obtain ⟨s, e1, e2⟩ := ctxDigit_ok hv (ws := ws) (sgn := sgn) (cs0 := []) (ds0 := []) (k := k0) ph
          (c :: t) hc hw hs (by
            intro h; rcases hk with hk | hk
            · exact hk
            · rw [h] at hk; exact absurd hk.1 (by simp)) .nil (by simp) (ctxCap_pos hv hs)
          (fun _ => ⟨c, t, d, rfl, hd, hd0⟩)
        simp only [List.append_nil] at e1 e2
        exact ⟨s, e1, e2⟩
    · have hcd := hc.head hv (fun d hd => hdig ⟨d, hd⟩)
      have hnd : ∀ fut, NoDigitFirst cfg.base (c :: t ++ fut) := by
        intro fut x y d he hx; simp only [List.cons_append, List.cons.injEq] at he; exact hdig ⟨d, he.1 ▸ hx⟩
      simp only [ctxZero, hcd, Option.bind_some]
      rcases Nat.eq_zero_or_pos k0 with h0 | h0
      · subst h0
        rw [if_neg (fun h => hk0 rfl h.2)]
        refine ⟨_, rfl, Or.inr ⟨by simp, ?_⟩⟩
        intro fut
        have := NumSpec.noDigits (bits := cfg.bits) (skipzero := cfg.skipzero) sgn (c :: t ++ fut) neg hs (by
          intro he hsg t' hh
          simp only [List.cons_append, List.cons.injEq] at hh
          exact hminus rfl he hsg t (by rw [hh.1])) (hnd fut)
        have h2 : Spec cfg (ws ++ (sgn ++ (c :: t ++ fut))) ⟨c :: t ++ fut, .invalid, none⟩ := by
          refine .num ws _ _ hw.1 hw.2 ?_ this
          intro hns
          refine ws_sign_first (ws := ws) (t := c :: t ++ fut) hs (by simp) ?_ hns
          intro he x y hh
          simp only [List.cons_append, List.cons.injEq] at hh
          rw [← hh.1]
          exact hsp rfl he hns c t rfl
        simpa using h2
      · have hk' : cfg.skipzero = true ∧ phase0 = .zeroSkip := by
          rcases hk with h | h
          · omega
          · exact h
        rw [if_pos hk']
        refine ⟨_, rfl, Or.inr ⟨by simp, ?_⟩⟩
        intro fut
        have hrun := digitRun_zeros hb k0
        have hval : digitsValue cfg.base (List.replicate k0 0) = 0 := by
          have := digitsValue_replicate_zero cfg.base k0 []
          simpa using this
        have hex := expect_spec (cfg := cfg) (neg := neg) (sgn := sgn) hrun (hnd fut) (by simp; omega) (by simp [hk'.1]) hs
        rw [expect_zero hv neg _ _ hval] at hex
        have h2 : Spec cfg (ws ++ (sgn ++ List.replicate k0 48 ++ (c :: t ++ fut))) ⟨c :: t ++ fut, .ok, some 0⟩ := by
          refine .num ws _ _ hw.1 hw.2 ?_ hex
          have := ws_sign_first (ws := ws) (t := List.replicate k0 48 ++ (c :: t ++ fut)) hs
            (by simp) (by
              intro _ x y he
              obtain ⟨j, rfl⟩ : ∃ j, k0 = j + 1 := ⟨k0 - 1, by omega⟩
              rw [List.replicate_succ] at he
              simp only [List.cons_append, List.cons.injEq] at he
              rw [← he.1]; unfold IsSpace; omega)
          simpa using this
        simpa using h2

theorem noDigit_nil (b : Nat) : NoDigitFirst b [] := by intro c t d h; simp at h

theorem stepOk_congr {cfg : Cfg} {pre l pre' l' : List Nat} {s : Step} (h : StepOk cfg pre l s) (e : pre ++ l = pre' ++ l') :
    StepOk cfg pre' l' s := by
  unfold StepOk at *; rw [← e]; exact h

/-- The sign phase, then the zero phase. -/
theorem ctxSign_ok {cfg : Cfg} (hv : Valid cfg) {ws : List Nat} (ph phase0 : Phase)
    (l : List Nat) (hc : Clean cfg l) (hl : l ≠ [] ∨ cfg.noskipws = true) (hw : Ws cfg ws) (hp : phase0 ≠ .zeroSkip)
    (hsp : cfg.noskipws = false → ∀ c t, l = c :: t → ¬ IsSpace c) :
    ∃ s, ctxSign cfg ⟨[], ph⟩ phase0 l = some s ∧ StepOk cfg ws l s := by
  have hwe : l = [] → ws = [] ∧ cfg.noskipws = true := by
    intro h
    rcases hl with h' | h'
    · exact absurd h h'
    · exact ⟨hw.1 h', h'⟩
  unfold ctxSign
  by_cases hsg : cfg.signed = true
  · rw [if_pos hsg]
    cases l with
    | nil =>
      obtain ⟨rfl, h⟩ := hwe rfl
      exact ⟨_, rfl, Or.inl ⟨rfl, .sign hsg h⟩⟩
    | cons c t =>
      simp only
      by_cases h45 : c = 45
      · subst h45
        rw [if_pos rfl]
        cases t with
        | nil => exact ⟨_, rfl, Or.inl ⟨rfl, .zeroS ws hsg hw⟩⟩
        | cons c' t' =>
          obtain ⟨s, h1, h2⟩ := ctxZero_ok hv (ws := ws) (sgn := [45]) (neg := true) (k0 := 0) ph phase0 (c' :: t') hc.cons
            (by simp) hw (Or.inr ⟨hsg, rfl, rfl⟩) (Or.inl rfl) (fun _ => hp) (by simp) (by simp)
          exact ⟨s, h1, stepOk_congr h2 (by simp)⟩
      · rw [if_neg h45]
        obtain ⟨s, h1, h2⟩ := ctxZero_ok hv (ws := ws) (sgn := []) (neg := false) (k0 := 0) ph phase0 (c :: t) hc
            (by simp) hw (Or.inl ⟨rfl, rfl⟩) (Or.inl rfl) (fun _ => hp) (by
              intro _ _ _ t' he; simp at he; exact h45 he.1) (fun _ _ h => hsp h)
        exact ⟨s, h1, stepOk_congr h2 (by simp)⟩
  · rw [if_neg hsg]
    cases l with
    | nil =>
      obtain ⟨rfl, h⟩ := hwe rfl
      exact ⟨_, rfl, Or.inl ⟨rfl, .zeroU (by simpa using hsg) h⟩⟩
    | cons c t =>
      obtain ⟨s, h1, h2⟩ := ctxZero_ok hv (ws := ws) (sgn := []) (neg := false) (k0 := 0) ph phase0 (c :: t) hc
            (by simp) hw (Or.inl ⟨rfl, rfl⟩) (Or.inl rfl) (fun _ => hp) (by
              intro _ _ h; exact absurd h hsg) (fun _ _ h => hsp h)
      exact ⟨s, h1, stepOk_congr h2 (by simp)⟩

/-- The input read so far is a lone leading zero (superfluous zeros being rejected). -/
def EndsAfterZero (cfg : Cfg) (t : List Nat) : Prop :=
  cfg.skipzero = false ∧ ∃ ws sgn neg, t = ws ++ (sgn ++ [48]) ∧ Ws cfg ws ∧ Sign cfg.signed sgn neg

/-- The input read so far ends in a number of at least `ctxCap` characters (hence certainly out of range). -/
def EndsInLongRun (cfg : Cfg) (t : List Nat) : Prop :=
  ∃ ws sgn neg k cs ds, t = ws ++ (sgn ++ (List.replicate k 48 ++ cs)) ∧ Ws cfg ws ∧ Sign cfg.signed sgn neg ∧
    DigitRun cfg.base cs ds ∧ ds ≠ [] ∧ ctxCap cfg ≤ sgn.length + cs.length

def BadCut (cfg : Cfg) (t : List Nat) : Prop := EndsAfterZero cfg t ∨ EndsInLongRun cfg t

theorem ctxStep_ok {cfg : Cfg} (hv : Valid cfg) {st : CtxState} {pre : List Nat} (hi : Inv cfg st pre) (l : List Nat)
    (hc : Clean cfg l) (hsp : cfg.noskipws = false → SpaceSafe cfg l) (hl : l ≠ [] ∨ pre = [])
    (hbad : ¬ BadCut cfg pre) : ∃ s, ctxStep cfg st l = some s ∧ StepOk cfg pre l s := by
  cases hi with
  | space ws hw =>
    simp only [ctxStep]
    by_cases hns : cfg.noskipws = true
    · rw [if_pos hns]
      exact ctxSign_ok hv .space .space l hc (Or.inr hns) hw (by simp) (by simp [hns])
    · rw [if_neg hns]
      simp only [Bool.not_eq_true] at hns
      rw [findSpace_eq hv l hc.1 (hsp hns)]
      obtain ⟨p, h1, h2, h3⟩ := dropWhile_split (isCSpace (spaceWidth cfg.cw)) l
      have hwd := spaceWidth_ok cfg.cw hv.charWidth
      have hspace : ∀ c ∈ l, isCSpace (spaceWidth cfg.cw) c = true ↔ IsSpace c := by
        intro c hcl; exact isCSpace_iff hwd.1 (lt_of_lt_of_le (hc.1 c hcl) hwd.2)
      generalize hd : l.dropWhile (isCSpace (spaceWidth cfg.cw)) = t at *
      have hpre : ∀ c ∈ p, IsSpace c := fun c hcp => (hspace c (by rw [h1]; simp [hcp])).mp (h2 c hcp)
      have hw' : Ws cfg (pre ++ p) := ⟨by simp [hns], by
        intro c hcm; rcases List.mem_append.mp hcm with h | h
        · exact hw.2 c h
        · exact hpre c h⟩
      by_cases ht : t = []
      · rw [if_pos ht]
        refine ⟨_, rfl, Or.inl ⟨rfl, ?_⟩⟩
        rw [h1, ht, List.append_nil]
        exact .space _ hw'
      · rw [if_neg ht]
        obtain ⟨s, e1, e2⟩ := ctxSign_ok hv .space .space t (by rw [h1] at hc; exact hc.tail) (Or.inl ht) hw' (by simp) (by
          intro _ c t' he hsp'
          have := h3 c t' he
          rw [(hspace c (by rw [h1, he]; simp)).mpr hsp'] at this
          cases this)
        exact ⟨s, e1, stepOk_congr e2 (by rw [List.append_assoc, ← h1])⟩
  | sign h1 h2 =>
    exact ctxSign_ok hv .sign .sign l hc (Or.inr h2) ⟨by simp, by simp⟩ (by simp) (by simp [h2])
  | zeroU h1 h2 =>
    simp only [ctxStep]
    cases l with
    | nil => exact ⟨_, rfl, Or.inl ⟨rfl, .zeroU h1 h2⟩⟩
    | cons c t =>
      obtain ⟨s, e1, e2⟩ := ctxZero_ok hv (ws := []) (sgn := []) (neg := false) (k0 := 0) .zero .zero (c :: t) hc
            (by simp) ⟨by simp, by simp⟩ (Or.inl ⟨rfl, rfl⟩) (Or.inl rfl) (by simp) (by simp [h1]) (by simp [h2])
      exact ⟨s, e1, stepOk_congr e2 (by simp)⟩
  | zeroS ws h1 hw =>
    simp only [ctxStep]
    have hl' : l ≠ [] := by simpa using hl
    obtain ⟨s, e1, e2⟩ := ctxZero_ok hv (ws := ws) (sgn := [45]) (neg := true) (k0 := 0) .zero .zero l hc
            hl' hw (Or.inr ⟨h1, rfl, rfl⟩) (Or.inl rfl) (by simp) (by simp) (by simp)
    exact ⟨s, e1, stepOk_congr e2 (by simp)⟩
  | zeroSkip ws sgn neg k h1 hw hs =>
    simp only [ctxStep]
    have hl' : l ≠ [] := by simpa using hl
    exact ctxZero_ok hv (ws := ws) (sgn := sgn) (neg := neg) (k0 := k + 1) .zeroSkip .zeroSkip l hc
            hl' hw hs (Or.inr ⟨h1, rfl⟩) (by simp) (by simp) (by simp)
  | zeroInvalid ws sgn neg h1 hw hs => exact absurd (Or.inl ⟨h1, ws, sgn, neg, rfl, hw, hs⟩) hbad
  | digit ws sgn neg k cs ds hw hs hk hr h0 hz hcap =>
    simp only [ctxStep]
    exact ctxDigit_ok hv .digit l hc hw hs hk hr hz hcap (fun h => absurd h h0)
  | overflow b ws sgn neg k cs ds hw hs hk hr h0 hz hcap =>
    exact absurd (Or.inr ⟨ws, sgn, neg, k, cs, ds, rfl, hw, hs, hr, h0, hcap⟩) hbad

theorem ctxEof_ok {cfg : Cfg} (hv : Valid cfg) {st : CtxState} {pre : List Nat} (hi : Inv cfg st pre) :
    ∃ r, ctxEof cfg st = some r ∧ Spec cfg pre ⟨[], r.1, r.2⟩ := by
  have hnd := noDigit_nil cfg.base
  have empty : cfg.noskipws = true → Spec cfg [] ⟨[], .invalid, none⟩ := by
    intro h
    exact .num [] [] _ (by simp) (by simp) (by simp [h])
      (.noDigits [] [] false (Or.inl ⟨rfl, rfl⟩) (by intro _ _ t; simp) hnd)
  have zero : ∀ ws sgn neg k, Ws cfg ws → Sign cfg.signed sgn neg → (cfg.skipzero = false → k = 0) →
      Spec cfg (ws ++ (sgn ++ List.replicate (k + 1) 48)) ⟨[], .ok, some 0⟩ := by
    intro ws sgn neg k hw hs hk
    have hrun := digitRun_zeros hv.base_lo (k + 1)
    have hval : digitsValue cfg.base (List.replicate (k + 1) 0) = 0 := by
      have := digitsValue_replicate_zero cfg.base (k + 1) []
      simpa using this
    have hex := expect_spec (cfg := cfg) (neg := neg) (sgn := sgn) hrun hnd (by simp) (by
      intro h; rw [hk h]; simp) hs
    rw [expect_zero hv neg _ _ hval, List.append_nil] at hex
    refine .num ws _ _ hw.1 hw.2 ?_ hex
    refine ws_sign_first (ws := ws) hs (by simp) ?_
    intro _ x y he
    rw [List.replicate_succ] at he
    simp only [List.cons.injEq] at he
    rw [← he.1]; unfold IsSpace; omega
  cases hi with
  | space ws hw =>
    simp only [ctxEof]
    refine ⟨_, rfl, ?_⟩
    by_cases hns : cfg.noskipws = true
    · rw [hw.1 hns, if_pos hns]; exact empty hns
    · rw [if_neg hns]; exact .eof _ (by simpa using hns) hw.2
  | sign h1 h2 => exact ⟨_, rfl, empty h2⟩
  | zeroU h1 h2 => exact ⟨_, rfl, empty h2⟩
  | zeroS ws h1 hw =>
    refine ⟨_, rfl, .num ws [45] _ hw.1 hw.2 ?_ (.noDigits [45] [] true (Or.inr ⟨h1, rfl, rfl⟩) (by simp) hnd)⟩
    intro _
    refine ⟨by simp, ?_⟩
    intro c t he; simp at he; rw [← he.1]; unfold IsSpace; omega
  | zeroSkip ws sgn neg k h1 hw hs => exact ⟨_, rfl, zero ws sgn neg k hw hs (by simp [h1])⟩
  | zeroInvalid ws sgn neg h1 hw hs => exact ⟨_, rfl, zero ws sgn neg 0 hw hs (by simp)⟩
  | digit ws sgn neg k cs ds hw hs hk hr h0 hz hcap =>
    simp only [ctxEof]
    rw [scanBuf_eq hv hs hr h0 hz (by simpa using hcap)]
    refine ⟨_, rfl, ?_⟩
    have := spec_of_expect hv hw hs hk hr h0 hz hnd
    rw [List.append_nil] at this
    have he : (⟨[], (expect cfg neg ds []).code, (expect cfg neg ds []).value⟩ : Outcome) = expect cfg neg ds [] := by
      unfold expect; split <;> rfl
    simp only [he]; exact this
  | overflow b ws sgn neg k cs ds hw hs hk hr h0 hz hcap =>
    simp only [ctxEof]
    refine ⟨_, rfl, ?_⟩
    have := spec_of_expect hv hw hs hk hr h0 hz hnd
    rw [List.append_nil, long_run_overflow hv hs h0 hz (by rw [← digitRun_length hr]; exact hcap)] at this
    exact this

theorem runCtx_ok {cfg : Cfg} (hv : Valid cfg) (chunks : List (List Nat)) : ∀ {st : CtxState} {pre : List Nat},
    Inv cfg st pre → (∀ l ∈ chunks, Clean cfg l ∧ (cfg.noskipws = false → SpaceSafe cfg l)) →
    (∀ l ∈ chunks, l ≠ [] ∨ pre = []) → (∀ l ∈ chunks.tail, l ≠ []) →
    (∀ a b, chunks = a ++ b → b ≠ [] → ¬ BadCut cfg (pre ++ a.flatten)) →
    ∃ o, runCtx cfg st chunks = some o ∧ Spec cfg (pre ++ chunks.flatten) o := by
  induction chunks with
  | nil =>
    intro st pre hi _ _ _ _
    obtain ⟨r, h1, h2⟩ := ctxEof_ok hv hi
    refine ⟨⟨[], r.1, r.2⟩, by simp [runCtx, h1], by simpa using h2⟩
  | cons l ls ih =>
    intro st pre hi hcl hne htl hcut
    obtain ⟨s, h1, h2⟩ := ctxStep_ok hv hi l (hcl l (by simp)).1 (hcl l (by simp)).2 (hne l (by simp))
      (by simpa using hcut [] (l :: ls) rfl (by simp))
    simp only [runCtx, h1, Option.bind_some]
    rcases h2 with ⟨hp, hinv⟩ | ⟨hp, hspec⟩
    · rw [if_pos hp]
      simp only [List.tail_cons] at htl
      obtain ⟨o, e1, e2⟩ := ih hinv (fun x hx => hcl x (by simp [hx])) (fun x hx => Or.inl (htl x hx))
        (fun x hx => htl x (List.mem_of_mem_tail hx)) (by
          intro a b he hb
          have := hcut (l :: a) b (by simp [he]) hb
          simpa using this)
      exact ⟨o, e1, by simpa using e2⟩
    · rw [if_neg hp]
      exact ⟨_, rfl, by simpa using hspec ls.flatten⟩

end Verif.IntScan
