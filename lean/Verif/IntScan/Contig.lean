import Verif.IntScan.Sse
/-! One whole contiguous scan against the specification. -/
namespace Verif.IntScan
open Verif Verif.IntPrint

/-- Where the SSE4.1 path is exact, `l` being what follows the sign: of a text of at least 32 characters that
remains after the leading zeros (only with `skipzero`), the run of digits is shorter than 16 (types below 64 bits)
or 32 digits, and if zeros were skipped it is not empty. -/
def RunSafe (cfg : Cfg) (l : List Nat) : Prop :=
  cfg.sse = true → cfg.base = 10 → cfg.cw = 8 → cfg.bits ≤ 64 →
    ∀ k cs ds rest, l = List.replicate k 48 ++ (cs ++ rest) → DigitRun cfg.base cs ds → ds.head? ≠ some 0 →
      NoDigitFirst cfg.base rest → (cfg.skipzero = false → k = 0) → 32 ≤ (cs ++ rest).length →
      cs.length < (if cfg.bits < 64 then 16 else 32) ∧ (0 < k → cs ≠ [])

/-- The same for a whole text: white space, sign, then a `RunSafe` remainder. -/
def SseSafe (cfg : Cfg) (l : List Nat) : Prop :=
  ∀ ws sgn neg t, l = ws ++ (sgn ++ t) → (∀ c ∈ ws, IsSpace c) → Sign cfg.signed sgn neg → RunSafe cfg t

theorem isDigit_zero {base : Nat} (hb : 2 ≤ base) : IsDigit base 48 0 := ⟨by omega, Or.inl (by simp [digitChar])⟩

theorem digit48 {base d : Nat} (hb : 2 ≤ base) (hb2 : base ≤ 36) (h : IsDigit base 48 d) : d = 0 :=
  isDigit_unique hb2 h (isDigit_zero hb)

theorem digit0 {base c : Nat} (h : IsDigit base c 0) : c = 48 := by
  obtain ⟨_, h | h⟩ := h <;> simpa [digitChar] using h

theorem accumulate_eq {cfg : Cfg} (hv : Valid cfg) {cs ds rest : List Nat} {neg : Bool}
    (h : DigitRun cfg.base cs ds) (hn : NoDigitFirst cfg.base rest) (hc : Clean cfg rest)
    (hz : ds.head? ≠ some 0) (hneg : cfg.signed = false → neg = false)
    (hs : cfg.sse = true → cfg.base = 10 → cfg.cw = 8 → cfg.bits ≤ 64 → 32 ≤ (cs ++ rest).length →
      cs.length < (if cfg.bits < 64 then 16 else 32) ∧ ds ≠ []) :
    accumulate cfg neg (cs ++ rest) = some (expect cfg neg ds rest) := by
  unfold accumulate
  split
  · rename_i hu
    simp only [useSse, Bool.and_eq_true, beq_iff_eq, decide_eq_true_eq] at hu
    obtain ⟨⟨⟨⟨h1, h2⟩, h3⟩, h4⟩, h5⟩ := hu
    have hlen := digitRun_length h
    obtain ⟨hs', h0⟩ := hs h1 h2 h3 h4 h5
    have hcu := hc.1
    rw [h2] at h hn
    rw [h3] at hcu
    refine sseBranch_eq hv h2 h4 h hn hcu h5 h0 hz hneg ?_ ?_
    · intro hlt; rw [if_pos hlt] at hs'; omega
    · split at hs' <;> omega
  · exact scalarBranch_eq hv h hn hc hz hneg

theorem expect_spec {cfg : Cfg} {neg : Bool} {cs ds rest sgn : List Nat}
    (h : DigitRun cfg.base cs ds) (hn : NoDigitFirst cfg.base rest) (h0 : ds ≠ [])
    (hz : cfg.skipzero = false → ds.head? = some 0 → ds = [0]) (hs : Sign cfg.signed sgn neg) :
    NumSpec cfg.bits cfg.signed cfg.skipzero cfg.base (sgn ++ cs ++ rest) (expect cfg neg ds rest) := by
  unfold expect
  split
  · rename_i hr; exact .ok sgn cs ds rest neg hs h h0 hn hz hr
  · rename_i hr; exact .overflow sgn cs ds rest neg hs h h0 hn hz hr

theorem inRange_zero {bits : Nat} (hw : Width bits) (signed neg : Bool) : InRange bits signed (signedValue neg 0) := by
  unfold InRange signedValue
  rcases hw with h | h | h | h | h <;> subst h <;> cases signed <;> cases neg <;> norm_num

theorem expect_zero {cfg : Cfg} (hv : Valid cfg) (neg : Bool) (ds rest : List Nat) (h : digitsValue cfg.base ds = 0) :
    expect cfg neg ds rest = ⟨rest, .ok, some 0⟩ := by
  unfold expect
  rw [h, if_pos (inRange_zero hv.width _ _)]
  cases neg <;> simp [signedValue]

theorem zeros_split {base : Nat} (hb : 2 ≤ base) (hb2 : base ≤ 36) {cs ds rest : List Nat} (h : DigitRun base cs ds)
    (hn : NoDigitFirst base rest) :
    ∃ k cs' ds', (cs ++ rest).dropWhile (fun c => c == 48) = cs' ++ rest ∧ DigitRun base cs' ds' ∧
      ds = List.replicate k 0 ++ ds' ∧ ds'.head? ≠ some 0 ∧ cs = List.replicate k 48 ++ cs' := by
  induction h with
  | nil =>
    refine ⟨0, [], [], ?_, .nil, rfl, by simp, rfl⟩
    cases rest with
    | nil => rfl
    | cons c t =>
      have : c ≠ 48 := by rintro rfl; exact hn 48 t 0 rfl (isDigit_zero hb)
      simp [this]
  | @cons c d cs ds hd hr ih =>
    by_cases hc : c = 48
    · subst hc
      have := digit48 hb hb2 hd
      subst this
      obtain ⟨k, cs', ds', h1, h2, h3, h4, h5⟩ := ih
      exact ⟨k + 1, cs', ds', by simpa using h1, h2, by simp [h3, List.replicate_succ], h4, by simp [h5, List.replicate_succ]⟩
    · refine ⟨0, c :: cs, d :: ds, by simp [hc], .cons hd hr, rfl, ?_, rfl⟩
      intro hh; simp at hh; subst hh; exact hc (digit0 hd)

theorem expect_congr {cfg : Cfg} {neg : Bool} {ds ds' rest : List Nat}
    (h : digitsValue cfg.base ds = digitsValue cfg.base ds') : expect cfg neg ds rest = expect cfg neg ds' rest := by
  unfold expect; rw [h]

theorem afterSign_spec {cfg : Cfg} (hv : Valid cfg) (neg : Bool) (l : List Nat) (hl : l ≠ []) (hc : Clean cfg l)
    (hs : RunSafe cfg l) (hneg : cfg.signed = false → neg = false) :
    ∃ o, afterSign cfg neg l = some o ∧ ∀ sgn, Sign cfg.signed sgn neg →
      (sgn = [] → cfg.signed = true → NotStartingWith 45 l) →
      NumSpec cfg.bits cfg.signed cfg.skipzero cfg.base (sgn ++ l) o := by
  obtain ⟨cs, ds, rest, rfl, hr, hn⟩ := exists_run cfg.base l
  have hb := hv.base_lo
  have hb2 := hv.base_hi
  have hcr : Clean cfg rest := hc.tail
  cases hr with
  | nil =>
    cases rest with
    | nil => simp at hl
    | cons c t =>
      have hcd := hcr.head hv (fun d hd => hn c t d rfl hd)
      refine ⟨⟨c :: t, .invalid, none⟩, by simp [afterSign, hcd], ?_⟩
      intro sgn h1 h2
      exact .noDigits sgn (c :: t) neg h1 (by simpa using h2) hn
  | @cons c d cs ds hd hr =>
    have hcd := charDigit_some hv.charWidth hb2 hd
    simp only [List.cons_append, afterSign, hcd, Option.bind_some]
    by_cases h48 : c = 48
    · subst h48
      have := digit48 hb hb2 hd
      subst this
      simp only [if_true, afterZero]
      by_cases hsk : cfg.skipzero = true
      · rw [if_pos hsk]
        obtain ⟨k, cs', ds', h1, h2, h3, h4, h5⟩ := zeros_split hb hb2 hr hn
        simp only [findNoneZero_eq (hv.noTest hsk), h1]
        have hval : digitsValue cfg.base (0 :: ds) = digitsValue cfg.base ds' := by
          rw [h3, ← List.cons_append, ← List.replicate_succ, digitsValue_replicate_zero]
        refine ⟨expect cfg neg (0 :: ds) rest, ?_, ?_⟩
        · by_cases hemp : cs' ++ rest = []
          · rw [if_pos hemp]
            have he : ds' = [] := by
              have := digitRun_length h2
              simp at hemp
              rw [hemp.1] at this; simpa using this.symm
            have hre : rest = [] := by simp at hemp; exact hemp.2
            rw [expect_zero hv neg _ _ (by rw [hval, he]; rfl), hre]
          · rw [if_neg hemp]
            rw [accumulate_eq hv h2 hn hcr h4 hneg (by
              intro e1 e2 e3 e4 e5
              obtain ⟨e6, e7⟩ := hs e1 e2 e3 e4 (k + 1) cs' ds' rest (by simp [h5, List.replicate_succ]) h2 h4 hn (by simp [hsk]) e5
              refine ⟨e6, ?_⟩
              rintro rfl
              have := digitRun_length h2
              exact e7 (by omega) (List.length_eq_zero_iff.mp (by simpa using this)))]
            rw [expect_congr hval]
        · intro sgn hsg _
          have := expect_spec (cfg := cfg) (.cons hd hr) hn (by simp) (by simp [hsk]) hsg
          simpa using this
      · rw [if_neg hsk]
        simp only [Bool.not_eq_true] at hsk
        cases hr with
        | nil =>
          have hz : expect cfg neg [0] rest = ⟨rest, .ok, some 0⟩ := expect_zero hv neg [0] rest (by simp [digitsValue])
          have hspec : ∀ sgn, Sign cfg.signed sgn neg →
              NumSpec cfg.bits cfg.signed cfg.skipzero cfg.base (sgn ++ 48 :: ([] ++ rest)) ⟨rest, .ok, some 0⟩ := by
            intro sgn hsg
            have := expect_spec (cfg := cfg) (.cons hd .nil) hn (by simp) (by simp) hsg
            rw [hz] at this
            simpa using this
          cases rest with
          | nil => exact ⟨_, rfl, fun sgn hsg _ => hspec sgn hsg⟩
          | cons c' t =>
            have hcd' := hcr.head hv (fun d hd => hn c' t d rfl hd)
            simp only [List.nil_append, hcd', Option.bind_some]
            exact ⟨_, rfl, fun sgn hsg _ => hspec sgn hsg⟩
        | @cons c' d' cs ds hd' hr =>
          simp only [List.cons_append, charDigit_some hv.charWidth hb2 hd', Option.bind_some]
          refine ⟨_, rfl, ?_⟩
          intro sgn hsg _
          exact .leadingZero sgn c' (cs ++ rest) neg d' hsk hsg hd'
    · rw [if_neg h48]
      have hz : (d :: ds).head? ≠ some 0 := by
        intro hh; simp at hh; subst hh; exact h48 (digit0 hd)
      refine ⟨expect cfg neg (d :: ds) rest, ?_, ?_⟩
      · have := accumulate_eq hv (neg := neg) (.cons hd hr) hn hcr hz hneg (by
          intro e1 e2 e3 e4 e5
          exact ⟨(hs e1 e2 e3 e4 0 _ _ rest (by simp) (.cons hd hr) hz hn (by simp) e5).1, by simp⟩)
        simpa using this
      · intro sgn hsg _
        have := expect_spec (cfg := cfg) (.cons hd hr) hn (by simp) (fun _ h => absurd h hz) hsg
        simpa using this

/-- The inputs on which the scanner accepts a number although there is none: a lone minus sign at the very end
of the input (signed types), and the empty input (unsigned types, white space not skipped). -/
def LoneSign (cfg : Cfg) (l : List Nat) : Prop :=
  (cfg.signed = true ∧ l = [45]) ∨ (cfg.signed = false ∧ l = [])

theorem scanNoSpace_spec {cfg : Cfg} (hv : Valid cfg) (l : List Nat) (hc : Clean cfg l)
    (hs : ∀ sgn neg t, l = sgn ++ t → Sign cfg.signed sgn neg → RunSafe cfg t) (hls : ¬ LoneSign cfg l) :
    ∃ o, scanNoSpace cfg l = some o ∧ NumSpec cfg.bits cfg.signed cfg.skipzero cfg.base l o := by
  unfold scanNoSpace
  by_cases hsg : cfg.signed = true
  · rw [if_pos hsg]
    cases l with
    | nil =>
      refine ⟨_, rfl, ?_⟩
      exact .noDigits [] [] false (Or.inl ⟨rfl, rfl⟩) (by intro _ _ t; simp) (by intro c t d h; simp at h)
    | cons c t =>
      simp only
      by_cases h45 : c = 45
      · subst h45
        rw [if_pos rfl]
        have ht : t ≠ [] := by rintro rfl; exact hls (Or.inl ⟨hsg, rfl⟩)
        obtain ⟨o, h1, h2⟩ := afterSign_spec hv true t ht hc.cons (hs [45] true t rfl (Or.inr ⟨hsg, rfl, rfl⟩)) (by simp [hsg])
        exact ⟨o, h1, h2 [45] (Or.inr ⟨hsg, rfl, rfl⟩) (by simp)⟩
      · rw [if_neg h45]
        obtain ⟨o, h1, h2⟩ := afterSign_spec hv false (c :: t) (by simp) hc (hs [] false _ rfl (Or.inl ⟨rfl, rfl⟩)) (by simp)
        refine ⟨o, h1, h2 [] (Or.inl ⟨rfl, rfl⟩) ?_⟩
        intro _ _ t' he
        simp at he; exact h45 he.1
  · rw [if_neg hsg]
    simp only [Bool.not_eq_true] at hsg
    have hl : l ≠ [] := by rintro rfl; exact hls (Or.inr ⟨hsg, rfl⟩)
    obtain ⟨o, h1, h2⟩ := afterSign_spec hv false l hl hc (hs [] false _ rfl (Or.inl ⟨rfl, rfl⟩)) (by simp)
    exact ⟨o, h1, h2 [] (Or.inl ⟨rfl, rfl⟩) (by simp [hsg])⟩

/-! ### The specification is functional -/

theorem noDigitFirst_nil_run {b : Nat} {cs ds rest : List Nat} (h : NoDigitFirst b (cs ++ rest)) (hr : DigitRun b cs ds) :
    ds = [] := by
  cases hr with
  | nil => rfl
  | cons hd _ => exact absurd hd (h _ _ _ rfl)

theorem numSpec_functional {bits base : Nat} {signed skipzero : Bool} (hb : 2 ≤ base) (hb2 : base ≤ 36)
    {l : List Nat} {o o' : Outcome} (h : NumSpec bits signed skipzero base l o)
    (h' : NumSpec bits signed skipzero base l o') : o = o' := by
  -- normal form: sign, run, remainder
  have norm : ∀ {l o}, NumSpec bits signed skipzero base l o → ∃ sgn neg cs ds rest,
      l = sgn ++ (cs ++ rest) ∧ Sign signed sgn neg ∧ (sgn = [] → signed = true → NotStartingWith 45 (cs ++ rest)) ∧
      DigitRun base cs ds ∧ NoDigitFirst base rest ∧
      o = (if ds = [] then ⟨rest, .invalid, none⟩
        else if skipzero = false ∧ ds.head? = some 0 ∧ ds ≠ [0] then ⟨(cs ++ rest).drop 1, .invalid, none⟩
        else open Classical in if InRange bits signed (signedValue neg (digitsValue base ds)) then
          ⟨rest, .ok, some (signedValue neg (digitsValue base ds))⟩ else ⟨rest, .overflow, none⟩) := by
    have nst : ∀ {cs ds : List Nat} (rest : List Nat), DigitRun base cs ds → ds ≠ [] → NotStartingWith 45 (cs ++ rest) := by
      intro cs ds rest hr h0 t he
      cases hr with
      | nil => exact h0 rfl
      | cons hd _ =>
        simp at he
        have := isDigit_lt hb2 hd
        omega
    intro l o h
    cases h with
    | noDigits sgn rest neg h1 h2 h3 =>
      exact ⟨sgn, neg, [], [], rest, rfl, h1, h2, .nil, h3, by simp⟩
    | leadingZero sgn c rest neg d h1 h2 h3 =>
      obtain ⟨cs, ds, r, he, hr, hn⟩ := exists_run base rest
      refine ⟨sgn, neg, 48 :: c :: cs, 0 :: d :: ds, r, by simp [he], h2,
        fun _ _ => nst r (.cons (isDigit_zero hb) (.cons h3 hr)) (by simp),
        .cons (isDigit_zero hb) (.cons h3 hr), hn, ?_⟩
      simp [h1, he]
    | ok sgn cs ds rest neg h1 h2 h3 h4 h5 h6 =>
      refine ⟨sgn, neg, cs, ds, rest, by simp, h1, fun _ _ => nst rest h2 h3, h2, h4, ?_⟩
      rw [if_neg h3, if_neg (fun hh => hh.2.2 (h5 hh.1 hh.2.1)), if_pos h6]
    | overflow sgn cs ds rest neg h1 h2 h3 h4 h5 h6 =>
      refine ⟨sgn, neg, cs, ds, rest, by simp, h1, fun _ _ => nst rest h2 h3, h2, h4, ?_⟩
      rw [if_neg h3, if_neg (fun hh => hh.2.2 (h5 hh.1 hh.2.1)), if_neg h6]
  obtain ⟨s, n, cs, ds, r, e1, a1, a2, a3, a4, a5⟩ := norm h
  obtain ⟨s', n', cs', ds', r', e1', b1, b2, b3, b4, b5⟩ := norm h'
  have hsg : s = s' ∧ n = n' := by
    rcases a1 with ⟨hs, hn⟩ | ⟨hsig, hs, hn⟩ <;> rcases b1 with ⟨hs', hn'⟩ | ⟨hsig', hs', hn'⟩
    · simp [hs, hn, hs', hn']
    · exfalso
      refine a2 hs hsig' (cs' ++ r') ?_
      rw [hs] at e1; rw [hs'] at e1'; rw [e1] at e1'; simpa using e1'
    · exfalso
      refine b2 hs' hsig (cs ++ r) ?_
      rw [hs] at e1; rw [hs'] at e1'; rw [e1'] at e1; simpa using e1
    · simp [hs, hn, hs', hn']
  obtain ⟨rfl, rfl⟩ := hsg
  rw [e1] at e1'
  have e2 := List.append_cancel_left e1'
  obtain ⟨rfl, rfl, rfl⟩ := run_unique hb2 e2 a3 a4 b3 b4
  rw [a5, b5]

theorem scanSpec_functional {bits base : Nat} {signed noskipws skipzero : Bool} (hb : 2 ≤ base) (hb2 : base ≤ 36)
    {l : List Nat} {o o' : Outcome} (h : ScanSpec bits signed noskipws skipzero base l o)
    (h' : ScanSpec bits signed noskipws skipzero base l o') : o = o' := by
  have sp : ∀ {ws ws' l l' : List Nat}, ws ++ l = ws' ++ l' → (∀ c ∈ ws, IsSpace c) → (∀ c ∈ ws', IsSpace c) →
      (∀ c t, l = c :: t → ¬ IsSpace c) → (∀ c t, l' = c :: t → ¬ IsSpace c) → l = l' := by
    intro ws
    induction ws with
    | nil =>
      intro ws' l l' he _ h2 h3 _
      cases ws' with
      | nil => simpa using he
      | cons c ws' => exact absurd (h2 c (by simp)) (h3 c _ (by simpa using he))
    | cons c ws ih =>
      intro ws' l l' he h1 h2 h3 h4
      cases ws' with
      | nil => exact absurd (h1 c (by simp)) (h4 c _ (by simpa using he.symm))
      | cons c' ws' =>
        simp only [List.cons_append, List.cons.injEq] at he
        exact ih he.2 (fun x hx => h1 x (by simp [hx])) (fun x hx => h2 x (by simp [hx])) h3 h4
  cases h with
  | eof _ hk h1 =>
    cases h' with
    | eof _ _ _ => rfl
    | num ws l o hk' h2 h3 h4 =>
      exfalso
      obtain ⟨hne, hns⟩ := h3 hk
      cases l with
      | nil => exact hne rfl
      | cons c t => exact hns c t rfl (h1 c (by simp))
  | num ws l o hk h2 h3 h4 =>
    generalize hL : ws ++ l = L at h'
    cases h' with
    | eof _ hk' h1 =>
      exfalso
      obtain ⟨hne, hns⟩ := h3 hk'
      cases l with
      | nil => exact hne rfl
      | cons c t => exact hns c t rfl (h1 c (by rw [← hL]; simp))
    | num ws' l' o' hk' h2' h3' h4' =>
      have : l = l' := by
        cases hns : noskipws
        · exact sp hL h2 h2' (h3 hns).2 (h3' hns).2
        · rw [hk hns, hk' hns] at hL; simpa using hL
      subst this
      exact numSpec_functional hb hb2 h4 h4'

/-- A contiguous scan meets the specification. -/
theorem scanContig_spec {cfg : Cfg} (hv : Valid cfg) (l : List Nat) (hc : Clean cfg l)
    (hsp : cfg.noskipws = false → SpaceSafe cfg l) (hs : SseSafe cfg l)
    (hls : ∀ ws t, l = ws ++ t → (∀ c ∈ ws, IsSpace c) → (cfg.noskipws = true → ws = []) →
      (cfg.noskipws = false → t ≠ []) → ¬ LoneSign cfg t) :
    ∃ o, scanContig cfg l = some o ∧ ScanSpec cfg.bits cfg.signed cfg.noskipws cfg.skipzero cfg.base l o := by
  unfold scanContig
  cases hns : cfg.noskipws
  · simp only [Bool.false_eq_true, if_false]
    rw [findSpace_eq hv l hc.1 (hsp hns)]
    obtain ⟨pre, h1, h2, h3⟩ := dropWhile_split (isCSpace (spaceWidth cfg.cw)) l
    have hw := spaceWidth_ok cfg.cw hv.charWidth
    have hspace : ∀ c ∈ l, isCSpace (spaceWidth cfg.cw) c = true ↔ IsSpace c := by
      intro c hcl; exact isCSpace_iff hw.1 (lt_of_lt_of_le (hc.1 c hcl) hw.2)
    generalize hd : l.dropWhile (isCSpace (spaceWidth cfg.cw)) = t at *
    have hpre : ∀ c ∈ pre, IsSpace c := fun c hcp => (hspace c (by rw [h1]; simp [hcp])).mp (h2 c hcp)
    by_cases ht : t = []
    · subst ht
      rw [if_pos rfl]
      refine ⟨_, rfl, ?_⟩
      rw [h1, List.append_nil]
      exact .eof pre rfl hpre
    · rw [if_neg ht]
      have hlone := hls pre t h1 hpre (by simp [hns]) (fun _ => ht)
      obtain ⟨o, ho, hspec⟩ := scanNoSpace_spec hv t (by rw [h1] at hc; exact hc.tail) (fun sgn neg t' he hsg => hs pre sgn neg t' (by rw [h1, he]) hpre hsg) hlone
      refine ⟨o, ho, ?_⟩
      rw [h1]
      refine .num pre t o (by simp) hpre ?_ hspec
      intro _
      refine ⟨ht, ?_⟩
      intro c t' he hsp'
      have := h3 c t' he
      rw [(hspace c (by rw [h1, he]; simp)).mpr hsp'] at this
      cases this
  · simp only [if_true]
    have hlone := hls [] l rfl (by simp) (by simp) (by simp [hns])
    obtain ⟨o, ho, hspec⟩ := scanNoSpace_spec hv l hc (fun sgn neg t' he hsg => hs [] sgn neg t' he (by simp) hsg) hlone
    exact ⟨o, ho, .num [] l o (by simp) (by simp) (by simp) hspec⟩

end Verif.IntScan
