import Verif.IntScan.Ctx
import Verif.IntPrint.Props
/-!
# Properties C06-C10, C51: integer scanning

`ScanSpec` (file `Spec.lean`) is the specification; it determines the outcome (`c06_spec_functional`).
-/
namespace Verif.IntScan
open Verif Verif.IntPrint

/-- A signed 32-bit decimal scan with default flags, used in the examples. -/
def i32 : Cfg := { bits := 32, signed := true, base := 10 }
def u64 : Cfg := { bits := 64, signed := false, base := 10 }

theorem i32_valid : Valid i32 := ⟨by decide, by decide, by simp [Width, i32], Or.inl rfl, Or.inl rfl, by decide, by decide⟩
theorem u64_valid : Valid u64 := ⟨by decide, by decide, by simp [Width, u64], Or.inl rfl, Or.inl rfl, by decide, by decide⟩

/-- No input ends in a lone sign: whatever follows the white space is not just `-` (signed types), and, if white
space is not skipped, the input of an unsigned scan is not empty. -/
def NoLoneSign (cfg : Cfg) (l : List Nat) : Prop :=
  ∀ ws t, l = ws ++ t → (∀ c ∈ ws, IsSpace c) → (cfg.noskipws = true → ws = []) →
    (cfg.noskipws = false → t ≠ []) → ¬ LoneSign cfg t

/-! ## C06: contiguous scanning -/

/-- C06, the specification is a function of the text. -/
theorem c06_spec_functional {bits base : Nat} {signed noskipws skipzero : Bool} (hb : 2 ≤ base) (hb2 : base ≤ 36)
    {l : List Nat} {o o' : Outcome} (h : ScanSpec bits signed noskipws skipzero base l o)
    (h' : ScanSpec bits signed noskipws skipzero base l o') : o = o' :=
  scanSpec_functional hb hb2 h h'

/-- C06 (partial: four classes of inputs are excluded, each because the code misbehaves on it, see the
`..._violated` theorems): a scan of any text meets the specification. `Clean`: the text consists of code units and
avoids the one for which the digit table is overrun; `SpaceSafe`, `SseSafe`: trivially true without vector code. -/
theorem c06_scan_partial (cfg : Cfg) (hv : Valid cfg) (l : List Nat) (hc : Clean cfg l)
    (hsp : cfg.noskipws = false → SpaceSafe cfg l) (hs : SseSafe cfg l) (hls : NoLoneSign cfg l) :
    ∃ o, scanContig cfg l = some o ∧ ScanSpec cfg.bits cfg.signed cfg.noskipws cfg.skipzero cfg.base l o :=
  scanContig_spec hv l hc hsp hs hls

theorem clean_i32 (l : List Nat) (h : ∀ c ∈ l, c < 256) : Clean i32 l :=
  ⟨fun c hc => by have := h c hc; simpa [i32] using this, by intro h; simp [i32] at h⟩

theorem sseSafe_of_off {cfg : Cfg} (h : cfg.sse = false) (l : List Nat) : SseSafe cfg l := by
  intro ws sgn neg t _ _ _ h'; rw [h] at h'; cases h'

theorem spaceSafe_of_off {cfg : Cfg} (h : cfg.simd = 0) (l : List Nat) : SpaceSafe cfg l := by
  intro h'; exact absurd h h'

/-- The last character being a digit rules out a lone sign. -/
theorem noLoneSign_of_last {cfg : Cfg} {l : List Nat} (a : List Nat) (c : Nat) (he : l = a ++ [c])
    (hc : ∃ d, IsDigit 10 c d) : NoLoneSign cfg l := by
  obtain ⟨d, hd⟩ := hc
  have hlt := isDigit_lt (by omega) hd
  intro ws t h hsp _ _ hlone
  rcases hlone with ⟨_, ht⟩ | ⟨_, ht⟩
  · rw [ht, he] at h
    have := congrArg List.getLast? h
    simp at this; omega
  · rw [ht, he, List.append_nil] at h
    have := hsp c (by rw [← h]; simp)
    unfold IsSpace at this; omega

/-- The hypotheses are met by the text `" -2147483648"`, which scans to the least 32-bit integer... -/
example : Clean i32 (ascii " -2147483648") ∧ SseSafe i32 (ascii " -2147483648") ∧ NoLoneSign i32 (ascii " -2147483648") ∧
    scanContig i32 (ascii " -2147483648") = some ⟨[], .ok, some (-2147483648)⟩ :=
  ⟨clean_i32 _ (by decide), sseSafe_of_off rfl _,
    noLoneSign_of_last (ascii " -214748364") 56 rfl ⟨8, by decide, Or.inl rfl⟩, by decide +kernel⟩

/-- ... and by one that does not fit. -/
example : Clean i32 (ascii "2147483648") ∧ NoLoneSign i32 (ascii "2147483648") ∧
    scanContig i32 (ascii "2147483648") = some ⟨[], .overflow, none⟩ :=
  ⟨clean_i32 _ (by decide), noLoneSign_of_last (ascii "214748364") 56 rfl ⟨8, by decide, Or.inl rfl⟩, by decide +kernel⟩

/-- C06 violated: the text `-` is accepted as the number 0 by a signed scan. -/
theorem c06_lone_minus_violated :
    Valid i32 ∧ scanContig i32 [45] = some ⟨[], .ok, some 0⟩ ∧
    ScanSpec 32 true false false 10 [45] ⟨[], .invalid, none⟩ := by
  refine ⟨i32_valid, by decide +kernel, ?_⟩
  refine .num [] [45] _ (by simp) (by simp) (fun _ => ⟨by simp, ?_⟩)
    (.noDigits [45] [] true (Or.inr ⟨rfl, rfl, rfl⟩) (by simp) (by intro c t d h; simp at h))
  intro c t h; simp at h; rw [← h.1]; unfold IsSpace; omega

/-- C06 violated: the empty text is accepted as the number 0 by an unsigned scan that does not skip white space. -/
theorem c06_empty_violated :
    scanContig { u64 with noskipws := true } [] = some ⟨[], .ok, some 0⟩ ∧
    ScanSpec 64 false true false 10 [] ⟨[], .invalid, none⟩ := by
  refine ⟨by decide +kernel, ?_⟩
  exact .num [] [] _ (by simp) (by simp) (by simp)
    (.noDigits [] [] false (Or.inl ⟨rfl, rfl⟩) (by simp) (by intro c t d h; simp at h))

/-! ## C51: white space skipping -/

/-- C51 (partial: `SpaceSafe`): the white space skipped before a number is exactly the leading white space. -/
theorem c51_skip_space_partial (cfg : Cfg) (hv : Valid cfg) (l : List Nat) (hl : CodeUnits cfg.cw l)
    (hs : SpaceSafe cfg l) :
    ∃ ws, l = ws ++ findSpace cfg l ∧ (∀ c ∈ ws, IsSpace c) ∧ ∀ c t, findSpace cfg l = c :: t → ¬ IsSpace c := by
  rw [findSpace_eq hv l hl hs]
  obtain ⟨pre, h1, h2, h3⟩ := dropWhile_split (isCSpace (spaceWidth cfg.cw)) l
  have hw := spaceWidth_ok cfg.cw hv.charWidth
  have hspace : ∀ c ∈ l, isCSpace (spaceWidth cfg.cw) c = true ↔ IsSpace c := by
    intro c hcl; exact isCSpace_iff hw.1 (lt_of_lt_of_le (hl c hcl) hw.2)
  refine ⟨pre, h1, fun c hc => (hspace c (by rw [h1]; simp [hc])).mp (h2 c hc), ?_⟩
  intro c t he hsp
  have := h3 c t he
  rw [(hspace c (by rw [h1, he]; simp)).mpr hsp] at this
  cases this

example : SpaceSafe { i32 with simd := 16 } (List.replicate 20 32 ++ ascii "42") ∧
    findSpace { i32 with simd := 16 } (List.replicate 20 32 ++ ascii "42") = ascii "42" := by
  refine ⟨?_, by decide +kernel⟩
  intro _ _
  refine ⟨fun c hc => ?_, by simp [i32]⟩
  have : c ∈ (List.replicate 20 32 ++ ascii "42") → 9 ≤ c ∧ c < 2 ^ 7 + 9 := by
    revert c; decide
  simpa [i32] using this hc

/-- With AVX512BW the theorem still covers texts with at most 64 leading white space characters. -/
example : SpaceSafe { i32 with simd := 64, ptestm := true } (List.replicate 50 32 ++ ascii "42") := by
  intro _ h
  have := h 52 (by decide)
  unfold IsSpace at this; omega

/-- The text ` `*64, `7`, ` `*63, `8`. -/
def avx512Text : List Nat := List.replicate 64 32 ++ (55 :: List.replicate 63 32 ++ [56])

/-- C51 violated with AVX512BW (compilers having `__builtin_ia32_ptestmb512`): `is_all_zeros` is inverted, so the vector loop skips exactly the
blocks with something in them. In a text of 64 spaces, `7`, 63 spaces, `8` the first number read is 8. -/
theorem c51_avx512_space_violated :
    Valid { i32 with simd := 64, ptestm := true } ∧
    scanContig { i32 with simd := 64, ptestm := true } avx512Text = some ⟨[], .ok, some 8⟩ ∧
    ScanSpec 32 true false false 10 avx512Text ⟨List.replicate 63 32 ++ [56], .ok, some 7⟩ := by
  refine ⟨⟨by decide, by decide, by simp [Width, i32], Or.inl rfl, Or.inr (Or.inr (Or.inr rfl)), by decide, by decide⟩,
    by decide +kernel, ?_⟩
  have hl : Clean i32 avx512Text := clean_i32 _ (by decide +kernel)
  obtain ⟨o, h1, h2⟩ := c06_scan_partial i32 i32_valid avx512Text hl (fun _ => spaceSafe_of_off rfl _) (sseSafe_of_off rfl _)
    (noLoneSign_of_last (List.replicate 64 32 ++ (55 :: List.replicate 63 32)) 56 rfl ⟨8, by decide, Or.inl rfl⟩)
  have h3 : scanContig i32 avx512Text = some ⟨List.replicate 63 32 ++ [56], .ok, some 7⟩ := by decide +kernel
  rw [h3] at h1
  cases h1
  exact h2

/-- The text `0`*65, `7`, ` `*63, `9`. -/
def avx512Zeros : List Nat := List.replicate 65 48 ++ (55 :: List.replicate 63 32 ++ [57])

/-- C06 violated with AVX512BW and leading zeros skipped: the number 0...07 (65 zeros), followed by 63 spaces and `9`, is read as 9. -/
theorem c06_avx512_zeros_violated :
    scanContig { i32 with simd := 64, ptestm := true, skipzero := true } avx512Zeros = some ⟨[], .ok, some 9⟩ ∧
    ScanSpec 32 true false true 10 avx512Zeros ⟨List.replicate 63 32 ++ [57], .ok, some 7⟩ := by
  refine ⟨by decide +kernel, ?_⟩
  have hv : Valid { i32 with skipzero := true } :=
    ⟨by decide, by decide, by simp [Width, i32], Or.inl rfl, Or.inl rfl, by decide, by decide⟩
  have hl : Clean { i32 with skipzero := true } avx512Zeros := clean_i32 _ (by decide +kernel)
  obtain ⟨o, h1, h2⟩ := c06_scan_partial { i32 with skipzero := true } hv avx512Zeros hl (fun _ => spaceSafe_of_off rfl _)
    (sseSafe_of_off rfl _)
    (noLoneSign_of_last (List.replicate 65 48 ++ (55 :: List.replicate 63 32)) 57 rfl ⟨9, by decide, Or.inl rfl⟩)
  have h3 : scanContig { i32 with skipzero := true } avx512Zeros = some ⟨List.replicate 63 32 ++ [57], .ok, some 7⟩ := by decide +kernel
  rw [h3] at h1
  cases h1
  exact h2

/-- C51 violated with vector instructions: sixteen bytes `0xC8`, which are no white space, are skipped like white
space, and the scan accepts `7` from behind them. -/
theorem c51_simd_space_violated :
    Valid { i32 with simd := 16 } ∧
    scanContig { i32 with simd := 16 } (List.replicate 16 32 ++ List.replicate 16 200 ++ [55]) = some ⟨[], .ok, some 7⟩ ∧
    ScanSpec 32 true false false 10 (List.replicate 16 32 ++ List.replicate 16 200 ++ [55])
      ⟨List.replicate 16 200 ++ [55], .invalid, none⟩ := by
  refine ⟨⟨by decide, by decide, by simp [Width, i32], Or.inl rfl, Or.inr (Or.inl rfl), by decide, by decide⟩, by decide +kernel, ?_⟩
  rw [List.append_assoc]
  refine .num (List.replicate 16 32) (List.replicate 16 200 ++ [55]) _ (by simp) ?_ (fun _ => ⟨by simp, ?_⟩)
    (.noDigits [] _ false (Or.inl ⟨rfl, rfl⟩) ?_ ?_)
  · intro c hc; rw [List.eq_of_mem_replicate hc]; left; rfl
  · intro c t h
    simp only [List.replicate_succ, List.cons_append, List.cons.injEq] at h
    rw [← h.1]; unfold IsSpace; omega
  · intro _ _ t h
    simp only [List.replicate_succ, List.cons_append, List.cons.injEq] at h
    omega
  · intro c t d h hd
    simp only [List.replicate_succ, List.cons_append, List.cons.injEq] at h
    have := isDigit_lt (by omega) hd
    omega

/-! ## C07: round trip -/

theorem findSpace_nonspace {cfg : Cfg} (hv : Valid cfg) (l : List Nat) (hl : CodeUnits cfg.cw l)
    (h : ∃ c t, l = c :: t ∧ ¬ IsSpace c) : findSpace cfg l = l := by
  obtain ⟨c, t, rfl, hns⟩ := h
  have hss : SpaceSafe cfg (c :: t) := by
    intro h0 hall
    have : 0 < cfg.simd := by omega
    obtain ⟨n, hn⟩ : ∃ n, cfg.simd = n + 1 := ⟨cfg.simd - 1, by omega⟩
    rw [hn] at hall
    exact absurd (hall c (by simp)) hns
  rw [findSpace_eq hv _ hl hss]
  have hw := spaceWidth_ok cfg.cw hv.charWidth
  have : isCSpace (spaceWidth cfg.cw) c = false := by
    rw [Bool.eq_false_iff]; intro hh
    exact hns ((isCSpace_iff hw.1 (lt_of_lt_of_le (hl c (by simp)) hw.2)).mp hh)
  simp [this]

theorem numeral_run (b : Nat) (hb : 2 ≤ b) (upper : Bool) (n : Nat) :
    DigitRun b ((numeral b n).map (digitChar upper)) (numeral b n) := by
  have h := (numeral_isNumeral hb n).digits_lt
  generalize numeral b n = ds at h
  induction ds with
  | nil => exact .nil
  | cons d ds ih =>
    refine .cons ⟨h d (by simp), ?_⟩ (ih (fun x hx => h x (by simp [hx])))
    cases upper <;> simp

/-- C07 (partial: the last hypothesis excludes zero followed by 32 or more characters when zeros are skipped on
SSE4.1, see `c07_zero_violated`): scanning what was printed returns the integer and stops right behind it, whatever
text follows that does not start with a digit.  Printing: no base prefix, no plus sign, no zero padding (which the scanner of the same base
does not accept); `Supported` excludes the bases in which 128-bit printing is wrong.  Scanning: any flags; `NoTrap`
keeps the following text free of the one code unit on which the digit table is overrun. -/
theorem c07_round_trip_partial (cfg : Cfg) (hv : Valid cfg) (f : Fmt) (hfb : f.base = cfg.base) (hfull : f.full = false)
    (hsb : f.showbase = false) (hpos : f.showpos = false) (hsup : Supported cfg.bits f.base f.upper) (t : Int)
    (ht : InRange cfg.bits cfg.signed t) (m : Mem) (p : Nat) (follow : List Nat)
    (hfu : CodeUnits cfg.cw follow) (hft : NoTrap cfg.cw cfg.base follow) (hfd : NoDigitFirst cfg.base follow)
    (hz0 : cfg.sse = true → cfg.skipzero = true → t = 0 → follow.length < 32) :
    ∃ txt, printInt cfg.bits cfg.signed f m p t = some (store m p txt, p + txt.length) ∧
      scanContig cfg (txt ++ follow) = some ⟨follow, .ok, some t⟩ := by
  have hb := hv.base_lo
  have hb2 := hv.base_hi
  refine ⟨_, printInt_eq cfg.bits hv.width cfg.signed f hfull (hfb ▸ hb) (hfb ▸ hb2) hsup t ht m p, ?_⟩
  simp only [hsb, hpos, Bool.false_eq_true, if_false, List.append_nil, hfb]
  set cs := (numeral cfg.base t.natAbs).map (digitChar f.upper) with hcs
  have hrun := numeral_run cfg.base hb f.upper t.natAbs
  rw [← hcs] at hrun
  have hnum := numeral_isNumeral hb t.natAbs
  have hsgn : ∃ neg, Sign cfg.signed (signText false t) neg ∧ signedValue neg t.natAbs = t := by
    unfold signText Sign signedValue
    by_cases hneg : t < 0
    · refine ⟨true, Or.inr ⟨?_, by rw [if_pos hneg]; rfl, rfl⟩, by simp only [if_true]; omega⟩
      by_contra hsg
      simp only [Bool.not_eq_true] at hsg
      rw [hsg] at ht
      simp only [InRange, Bool.false_eq_true, if_false] at ht
      omega
    · refine ⟨false, Or.inl ⟨by rw [if_neg hneg]; rfl, rfl⟩, by simp only [Bool.false_eq_true, if_false]; omega⟩
  obtain ⟨neg, hsgn, hval⟩ := hsgn
  have hspec : NumSpec cfg.bits cfg.signed cfg.skipzero cfg.base (signText false t ++ cs ++ follow) ⟨follow, .ok, some t⟩ := by
    have := NumSpec.ok (bits := cfg.bits) (signed := cfg.signed) (skipzero := cfg.skipzero) (base := cfg.base)
      (signText false t) cs (numeral cfg.base t.natAbs) follow neg hsgn hrun hnum.nonempty hfd
      (fun _ h => hnum.no_leading_zero h) (by rw [hnum.value, hval]; exact ht)
    rw [hnum.value, hval] at this
    exact this
  have hcsne : cs ≠ [] := by simp [hcs, hnum.nonempty]
  have hcslt : ∀ c ∈ cs, 48 ≤ c ∧ c < 123 ∧ ∃ d, IsDigit cfg.base c d := by
    intro c hc
    have : ∀ {cs ds : List Nat}, DigitRun cfg.base cs ds → c ∈ cs → ∃ d, IsDigit cfg.base c d := by
      intro cs ds h
      induction h with
      | nil => simp
      | cons hd _ ih =>
        intro hm
        rcases List.mem_cons.mp hm with rfl | hm
        · exact ⟨_, hd⟩
        · exact ih hm
    obtain ⟨d, hd⟩ := this hrun hc
    have := isDigit_lt hb2 hd
    exact ⟨this.2, this.1, d, hd⟩
  have hst : ∀ c ∈ signText false t, c = 45 := by
    rcases hsgn with ⟨h, _⟩ | ⟨_, h, _⟩ <;> rw [h] <;> simp
  have h256 : 256 ≤ 2 ^ cfg.cw := by rcases hv.charWidth with h | h | h <;> rw [h] <;> norm_num
  have hcu : CodeUnits cfg.cw (signText false t ++ cs ++ follow) := by
    intro c hc
    rcases List.mem_append.mp hc with hc | hc
    · rcases List.mem_append.mp hc with hc | hc
      · have := hst c hc; omega
      · have := (hcslt c hc).2.1; omega
    · exact hfu c hc
  have hnt : NoTrap cfg.cw cfg.base (signText false t ++ cs ++ follow) := by
    intro h10 hm
    rcases List.mem_append.mp hm with hm | hm
    · rcases List.mem_append.mp hm with hm | hm
      · have := hst _ hm; unfold trapChar at this; split at this <;> omega
      · obtain ⟨h1, h2, d, hd⟩ := hcslt _ hm
        unfold trapChar at *
        split at hd
        · rename_i h8; rw [if_pos h8] at h2; omega
        · obtain ⟨h3, h4 | h4⟩ := hd <;> unfold digitChar at h4 <;> split at h4 <;> (try simp only [Bool.false_eq_true, if_false, if_true] at h4) <;> omega
    · exact hft h10 hm
  have hns : ∃ c t', signText false t ++ cs ++ follow = c :: t' ∧ ¬ IsSpace c := by
    rcases hsgn with ⟨h, _⟩ | ⟨_, h, _⟩
    · rw [h]
      cases hcs' : cs with
      | nil => exact absurd hcs' hcsne
      | cons c t' =>
        have := (hcslt c (by rw [hcs']; simp)).1
        exact ⟨c, t' ++ follow, by simp, by unfold IsSpace; omega⟩
    · rw [h]; exact ⟨45, cs ++ follow, by simp, by unfold IsSpace; omega⟩
  have hlen : cfg.base = 10 → cfg.bits ≤ 64 → cs.length < (if cfg.bits < 64 then 16 else 32) := by
    intro h10 h64
    have hlt := (absBits_eq cfg.bits hv.width cfg.signed t ht).2
    rw [hcs, List.length_map, h10]
    rcases hv.width with h | h | h | h | h <;> rw [h] at hlt h64 ⊢
    · have := (numeral_length_le (b := 10) (by omega) 3 t.natAbs (by omega)).mpr (by norm_num at *; omega); norm_num; omega
    · have := (numeral_length_le (b := 10) (by omega) 5 t.natAbs (by omega)).mpr (by norm_num at *; omega); norm_num; omega
    · have := (numeral_length_le (b := 10) (by omega) 10 t.natAbs (by omega)).mpr (by norm_num at *; omega); norm_num; omega
    · have := (numeral_length_le (b := 10) (by omega) 20 t.natAbs (by omega)).mpr (by norm_num at *; omega); norm_num; omega
    · omega
  have hrs : ∀ sgn neg' t', signText false t ++ cs ++ follow = sgn ++ t' → Sign cfg.signed sgn neg' → RunSafe cfg t' := by
    intro sgn neg' t' he hsg
    intro hsse h10 _ h64 k cs' ds' rest' he' hr' hz' hn' hk' h32
    have hl := hlen h10 h64
    -- the sign taken is the one printed, or none was printed and none is taken, or the run is empty
    have key : t' = cs ++ follow ∨ (cs' = [] ∧ k = 0) := by
      rcases hsgn with ⟨h1, _⟩ | ⟨_, h1, _⟩ <;> rcases hsg with ⟨h2, _⟩ | ⟨_, h2, _⟩
      · left; rw [h1, h2] at he; simpa using he.symm
      · exfalso
        rw [h1, h2] at he
        cases hcs' : cs with
        | nil => exact hcsne hcs'
        | cons c t'' =>
          rw [hcs'] at he; simp at he
          have := (hcslt c (by rw [hcs']; simp)).1; omega
      · right
        rw [h1, h2] at he; simp only [List.nil_append, List.cons_append] at he
        rw [he'] at he
        constructor
        · cases hr' with
          | nil => rfl
          | cons hd _ =>
            rcases Nat.eq_zero_or_pos k with h0 | h0
            · subst h0; simp at he
              have := isDigit_lt hb2 hd; omega
            · obtain ⟨j, rfl⟩ : ∃ j, k = j + 1 := ⟨k - 1, by omega⟩
              simp [List.replicate_succ] at he
        · rcases Nat.eq_zero_or_pos k with h0 | h0
          · exact h0
          · obtain ⟨j, rfl⟩ : ∃ j, k = j + 1 := ⟨k - 1, by omega⟩
            simp [List.replicate_succ] at he
      · left; rw [h1, h2] at he; simpa using he.symm
    rcases key with key | ⟨rfl, rfl⟩
    · rw [key] at he'
      have hrun' : DigitRun cfg.base (List.replicate k 48 ++ cs') (List.replicate k 0 ++ ds') :=
        digitRun_append (digitRun_zeros hb k) hr'
      obtain ⟨e1, e2, e3⟩ := run_unique hb2 (by rw [he']; simp : cs ++ follow = (List.replicate k 48 ++ cs') ++ rest')
        hrun hfd hrun' hn'
      refine ⟨?_, ?_⟩
      · have : cs'.length ≤ cs.length := by rw [e1]; simp
        omega
      · intro hk0 hcs0
        subst hcs0
        exfalso
        -- the printed digits would be all zeros: the numeral is "0", `cs' = []`, and `k = 1`
        have hd0 : ds' = [] := by have := digitRun_length hr'; simpa using this.symm
        rw [hd0, List.append_nil] at e2
        have hv0 : t.natAbs = 0 := by
          rw [← hnum.value, e2]
          have := digitsValue_replicate_zero cfg.base k []
          simpa using this
        have hsk : cfg.skipzero = true := by
          by_contra hh; simp only [Bool.not_eq_true] at hh
          have := hk' hh; omega
        have hfl := hz0 hsse hsk (by omega)
        simp only [List.nil_append] at h32
        have : rest' = follow := e3.symm
        rw [this] at h32; omega
    · refine ⟨by split <;> simp, by simp⟩
  have hlone : ¬ LoneSign cfg (signText false t ++ cs ++ follow) := by
    rintro (⟨_, h⟩ | ⟨_, h⟩)
    · rcases hsgn with ⟨h1, _⟩ | ⟨_, h1, _⟩
      · rw [h1] at h
        cases hcs' : cs with
        | nil => exact hcsne hcs'
        | cons c t' =>
          rw [hcs'] at h; simp at h
          have := (hcslt c (by rw [hcs']; simp)).1; omega
      · rw [h1] at h
        simp only [List.cons_append, List.nil_append, List.cons.injEq, true_and, List.append_eq_nil_iff] at h
        exact hcsne h.1
    · simp only [List.append_eq_nil_iff] at h; exact hcsne h.1.2
  obtain ⟨o, ho, hos⟩ := scanNoSpace_spec hv _ ⟨hcu, hnt⟩ hrs hlone
  have := numSpec_functional hb hb2 hos hspec
  subst this
  unfold scanContig
  split
  · exact ho
  · rw [findSpace_nonspace hv _ hcu hns]
    simp only
    rw [if_neg, ho]
    simp [hcsne]

/-- C07 in the default configuration of scanning (superfluous zeros are not skipped), with or without vector code. -/
theorem c07_round_trip (cfg : Cfg) (hv : Valid cfg) (hsk : cfg.skipzero = false) (f : Fmt) (hfb : f.base = cfg.base)
    (hfull : f.full = false) (hsb : f.showbase = false) (hpos : f.showpos = false)
    (hsup : Supported cfg.bits f.base f.upper) (t : Int)
    (ht : InRange cfg.bits cfg.signed t) (m : Mem) (p : Nat) (follow : List Nat)
    (hfu : CodeUnits cfg.cw follow) (hft : NoTrap cfg.cw cfg.base follow) (hfd : NoDigitFirst cfg.base follow) :
    ∃ txt, printInt cfg.bits cfg.signed f m p t = some (store m p txt, p + txt.length) ∧
      scanContig cfg (txt ++ follow) = some ⟨follow, .ok, some t⟩ :=
  c07_round_trip_partial cfg hv f hfb hfull hsb hpos hsup t ht m p follow hfu hft hfd (by simp [hsk])

/-- The hypotheses are met: the least `int`, followed by a comma and more text, with SSE4.1 and vectors. -/
example : Valid { i32 with simd := 16, sse := true } ∧ InRange 32 true (-2147483648) ∧
    CodeUnits 8 (44 :: List.replicate 40 120) ∧ NoTrap 8 10 (44 :: List.replicate 40 120) ∧
    NoDigitFirst 10 (44 :: List.replicate 40 120) := by
  refine ⟨⟨by decide, by decide, by simp [Width, i32], Or.inl rfl, Or.inr (Or.inl rfl), by decide, by decide⟩, by norm_num [InRange], ?_, ?_, ?_⟩
  · intro c hc
    simp at hc; omega
  · intro h; omega
  · intro c t d h hd
    simp only [List.cons.injEq] at h
    have := isDigit_lt (by omega) hd
    omega

/-- C07 violated (SSE4.1, skipping zeros): `0` followed by 33 letters is printed text that does not scan back. -/
theorem c07_zero_violated :
    printInt 32 true { base := 10 } (fun _ => 0) 0 0 = some (store (fun _ => 0) 0 [48], 1) ∧
    scanContig { i32 with sse := true, skipzero := true } ([48] ++ List.replicate 33 120) =
      some ⟨List.replicate 33 120, .invalid, none⟩ := by
  refine ⟨?_, by decide +kernel⟩
  have := printInt_eq 32 (by simp [Width]) true { base := 10 } rfl (by simp) (by simp) (by intro h; simp at h) 0
    (by norm_num [InRange]) (fun _ => 0) 0
  rw [this]
  have h0 : numeral 10 0 = [0] := by unfold numeral; simp
  simp [signText, ascii, h0, digitChar]

/-! ## C08: chunked scanning -/

/-- C08 (partial: cuts right after a lone leading `0`, and cuts inside a number too long for the scanner's buffer,
are excluded, see `c08_..._violated`): scanning a stream that arrives in any number of chunks gives the outcome that
the specification prescribes for their concatenation. Only the first chunk (the unread part of the current buffer)
may be empty. -/
theorem c08_chunks_spec_partial (cfg : Cfg) (hv : Valid cfg) (chunks : List (List Nat))
    (hc : ∀ l ∈ chunks, Clean cfg l ∧ (cfg.noskipws = false → SpaceSafe cfg l))
    (hne : ∀ l ∈ chunks.tail, l ≠ [])
    (hcut : ∀ a b, chunks = a ++ b → b ≠ [] → ¬ EndsAfterZero cfg a.flatten ∧ ¬ EndsInLongRun cfg a.flatten) :
    ∃ o, runCtx cfg {} chunks = some o ∧
      ScanSpec cfg.bits cfg.signed cfg.noskipws cfg.skipzero cfg.base chunks.flatten o := by
  have := runCtx_ok hv chunks (st := {}) (pre := []) (.space [] ⟨by simp, by simp⟩) hc
    (by simp) hne (by
      intro a b he hb hbad
      rcases hbad with h | h
      · exact (hcut a b he hb).1 (by simpa using h)
      · exact (hcut a b he hb).2 (by simpa using h))
  simpa using this

/-- C08 (partial, same exclusions plus those of C06): the outcome is that of scanning the concatenation at once. -/
theorem c08_chunks_partial (cfg : Cfg) (hv : Valid cfg) (chunks : List (List Nat))
    (hc : ∀ l ∈ chunks, Clean cfg l ∧ (cfg.noskipws = false → SpaceSafe cfg l))
    (hne : ∀ l ∈ chunks.tail, l ≠ [])
    (hcut : ∀ a b, chunks = a ++ b → b ≠ [] → ¬ EndsAfterZero cfg a.flatten ∧ ¬ EndsInLongRun cfg a.flatten)
    (hcf : cfg.noskipws = false → SpaceSafe cfg chunks.flatten) (hs : SseSafe cfg chunks.flatten)
    (hls : NoLoneSign cfg chunks.flatten) :
    runCtx cfg {} chunks = scanContig cfg chunks.flatten := by
  obtain ⟨o, h1, h2⟩ := c08_chunks_spec_partial cfg hv chunks hc hne hcut
  have hcl : Clean cfg chunks.flatten := by
    refine ⟨?_, ?_⟩
    · intro c hm
      obtain ⟨l, hl, hcl⟩ := List.mem_flatten.mp hm
      exact (hc l hl).1.1 c hcl
    · intro h10 hm
      obtain ⟨l, hl, hcl⟩ := List.mem_flatten.mp hm
      exact (hc l hl).1.2 h10 hcl
  obtain ⟨o', h3, h4⟩ := c06_scan_partial cfg hv _ hcl hcf hs hls
  rw [h1, h3, scanSpec_functional hv.base_lo hv.base_hi h2 h4]

/-- `" -12" | "34" | "5 x"`: the hypotheses hold (no cut follows a lone zero or a long run) and the value is -12345. -/
example : (∀ l ∈ [ascii " -12", ascii "34", ascii "5 x"], Clean i32 l ∧ (i32.noskipws = false → SpaceSafe i32 l)) ∧
    (∀ l ∈ [ascii " -12", ascii "34", ascii "5 x"].tail, l ≠ []) ∧
    (∀ a b, [ascii " -12", ascii "34", ascii "5 x"] = a ++ b → b ≠ [] →
      ¬ EndsAfterZero i32 a.flatten ∧ ¬ EndsInLongRun i32 a.flatten) ∧
    runCtx i32 {} [ascii " -12", ascii "34", ascii "5 x"] = some ⟨ascii " x", .ok, some (-12345)⟩ := by
  refine ⟨?_, by simp [ascii], ?_, by decide +kernel⟩
  · intro l hl
    refine ⟨clean_i32 _ ?_, fun _ => spaceSafe_of_off rfl _⟩
    revert l; decide
  · intro a b he hb
    have hlen : a.flatten.length < 7 := by
      have h1 : a = [] ∨ a = [ascii " -12"] ∨ a = [ascii " -12", ascii "34"] := by
        rcases a with _ | ⟨x, _ | ⟨y, _ | ⟨z, w⟩⟩⟩
        · simp
        · simp at he; simp [he.1]
        · simp at he; simp [he.1, he.2.1]
        · simp at he; exact absurd he.2.2.2.2 hb
      rcases h1 with rfl | rfl | rfl <;> decide
    have hlast : a.flatten.getLast? ≠ some 48 := by
      have h1 : a = [] ∨ a = [ascii " -12"] ∨ a = [ascii " -12", ascii "34"] := by
        rcases a with _ | ⟨x, _ | ⟨y, _ | ⟨z, w⟩⟩⟩
        · simp
        · simp at he; simp [he.1]
        · simp at he; simp [he.1, he.2.1]
        · simp at he; exact absurd he.2.2.2.2 hb
      rcases h1 with rfl | rfl | rfl <;> decide
    constructor
    · rintro ⟨_, ws, sgn, neg, h, _⟩
      rw [h] at hlast; simp at hlast
    · rintro ⟨ws, sgn, neg, k, cs, ds, h, _, _, _, _, hcap⟩
      have hl : (ws ++ (sgn ++ (List.replicate k 48 ++ cs))).length < 7 := by rw [← h]; exact hlen
      have hcapv : ctxCap i32 = 13 := by decide +kernel
      simp only [List.length_append] at hl
      omega

/-- C08 violated: `"0 x"` cut after the zero loses the space: one character too many is consumed. -/
theorem c08_cut_after_zero_violated :
    runCtx i32 {} [ascii "0", ascii " x"] = some ⟨ascii "x", .ok, some 0⟩ ∧
    scanContig i32 (ascii "0 x") = some ⟨ascii " x", .ok, some 0⟩ := by
  constructor <;> decide +kernel

/-- C08 violated: a 22-digit number cut after 20 digits is reported as invalid instead of out of range. -/
theorem c08_overflow_violated :
    runCtx i32 {} [List.replicate 20 49, [49, 49, 32]] = some ⟨[32], .invalid, none⟩ ∧
    scanContig i32 (List.replicate 20 49 ++ [49, 49, 32]) = some ⟨[32], .overflow, none⟩ := by
  constructor <;> decide +kernel

/-- C08 violated: a lone minus sign at the end of the stream is invalid when scanned from a stream, but accepted as 0
when scanned from memory. -/
theorem c08_lone_minus_violated :
    runCtx i32 {} [[45]] = some ⟨[], .invalid, none⟩ ∧ scanContig i32 [45] = some ⟨[], .ok, some 0⟩ := by
  constructor <;> decide +kernel

/-! ## C09: SSE4.1 -/

theorem scanNoSpace_lone {cfg : Cfg} (hv : Valid cfg) {t : List Nat} (hl : LoneSign cfg t) :
    scanNoSpace cfg t = some ⟨[], .ok, some 0⟩ := by
  have hacc : ∀ neg, (cfg.signed = false → neg = false) → accumulate cfg neg [] = some (expect cfg neg [] []) := by
    intro neg hneg
    exact accumulate_eq hv (cs := []) (ds := []) (rest := []) .nil (noDigit_nil _)
      ⟨by intro c h; simp at h, by intro _ h; simp at h⟩ (by simp) hneg (by intro _ _ _ _ h; simp at h)
  have hz : ∀ neg, expect cfg neg [] [] = ⟨[], .ok, some 0⟩ := fun neg => expect_zero hv neg [] [] rfl
  rcases hl with ⟨h1, h2⟩ | ⟨h1, h2⟩
  · simp [scanNoSpace, h1, h2, afterSign, hacc true (by simp [h1]), hz]
  · simp [scanNoSpace, h1, h2, afterSign, hacc false (by simp), hz]

/-- C09 (partial: `SseSafe` excludes runs of digits so long that `sse_skip_long_overflow_digits` is used, and skipped
zeros without a digit behind them): compiling the SSE4.1 code in does not change the outcome. -/
theorem c09_sse_partial (cfg : Cfg) (hv : Valid cfg) (l : List Nat) (hc : Clean cfg l)
    (hsp : cfg.noskipws = false → SpaceSafe cfg l) (hs : SseSafe { cfg with sse := true } l) :
    scanContig { cfg with sse := true } l = scanContig { cfg with sse := false } l := by
  by_cases hls : NoLoneSign cfg l
  · obtain ⟨o1, h1, h2⟩ := c06_scan_partial { cfg with sse := true } ⟨hv.1, hv.2, hv.3, hv.4, hv.5, hv.6, hv.7⟩ l hc hsp hs hls
    obtain ⟨o2, h3, h4⟩ := c06_scan_partial { cfg with sse := false } ⟨hv.1, hv.2, hv.3, hv.4, hv.5, hv.6, hv.7⟩ l hc hsp
      (sseSafe_of_off rfl l) hls
    rw [h1, h3, scanSpec_functional hv.base_lo hv.base_hi h2 h4]
  · unfold NoLoneSign at hls
    push_neg at hls
    obtain ⟨ws, t, h1, h2, h3, h4, h5⟩ := hls
    have hns : scanNoSpace { cfg with sse := true } t = scanNoSpace { cfg with sse := false } t := by
      rw [scanNoSpace_lone (cfg := { cfg with sse := true }) ⟨hv.1, hv.2, hv.3, hv.4, hv.5, hv.6, hv.7⟩ h5,
        scanNoSpace_lone (cfg := { cfg with sse := false }) ⟨hv.1, hv.2, hv.3, hv.4, hv.5, hv.6, hv.7⟩ h5]
    unfold scanContig
    by_cases hn : cfg.noskipws = true
    · rw [if_pos hn, if_pos hn]
      rw [h3 hn] at h1; simp only [List.nil_append] at h1
      rw [h1]; exact hns
    · rw [if_neg hn, if_neg hn]
      have hf : ∀ b, findSpace { cfg with sse := b } l = t := by
        intro b
        obtain ⟨ws', e1, e2, e3⟩ := c51_skip_space_partial { cfg with sse := b } ⟨hv.1, hv.2, hv.3, hv.4, hv.5, hv.6, hv.7⟩ l hc.1
          (hsp (by simpa using hn))
        rcases h5 with ⟨h5, h6⟩ | ⟨h5, h6⟩
        · have key : ∀ (ws ws' r : List Nat), ws ++ [45] = ws' ++ r → (∀ c ∈ ws, IsSpace c) → (∀ c ∈ ws', IsSpace c) →
              (∀ c t, r = c :: t → ¬ IsSpace c) → r = [45] := by
            intro ws
            induction ws with
            | nil =>
              intro ws' r he _ g2 _
              cases ws' with
              | nil => simpa using he.symm
              | cons c ws' =>
                simp at he
                have := g2 c (by simp)
                unfold IsSpace at this; omega
            | cons c ws ih =>
              intro ws' r he g1 g2 g3
              cases ws' with
              | nil => exact absurd (g1 c (by simp)) (g3 c (ws ++ [45]) (by simpa using he.symm))
              | cons c' ws' =>
                simp only [List.cons_append, List.cons.injEq] at he
                exact ih ws' r he.2 (fun x hx => g1 x (by simp [hx])) (fun x hx => g2 x (by simp [hx])) g3
          rw [h6]
          exact key ws ws' _ (by rw [← h6, ← h1]; exact e1) h2 e2 e3
        · exact absurd h6 (h4 (by simpa using hn))
      simp only [hf true, hf false, hns]

/-- The hypotheses are met by a 16-digit number in a 64-bit type followed by text. -/
theorem c09_example :
    SseSafe { u64 with sse := true } (List.replicate 16 49 ++ List.replicate 20 120) ∧
    scanContig { u64 with sse := true } (List.replicate 16 49 ++ List.replicate 20 120) =
      some ⟨List.replicate 20 120, .ok, some 1111111111111111⟩ := by
  refine ⟨?_, by decide +kernel⟩
  intro ws sgn neg t he hws hsg _ _ _ _ k cs ds rest he' hr hz hn hk h32
  have hk0 : k = 0 := hk rfl
  subst hk0
  have hsgn : sgn = [] := by
    rcases hsg with ⟨h, _⟩ | ⟨h, _⟩
    · exact h
    · simp [u64] at h
  have hw0 : ws = [] := by
    cases ws with
    | nil => rfl
    | cons c ws =>
      simp only [List.replicate_succ, List.cons_append, List.cons.injEq] at he
      have := hws c (by simp)
      rw [← he.1] at this; unfold IsSpace at this; omega
  subst hsgn hw0
  simp only [List.replicate_zero, List.nil_append] at he he'
  refine ⟨?_, by omega⟩
  have hrun : DigitRun 10 (List.replicate 16 49) (List.replicate 16 1) := by
    have : IsDigit 10 49 1 := ⟨by omega, Or.inl rfl⟩
    have g : ∀ n, DigitRun 10 (List.replicate n 49) (List.replicate n 1) := by
      intro n
      induction n with
      | zero => exact .nil
      | succ n ih => exact .cons this ih
    exact g 16
  have hnx : NoDigitFirst 10 (List.replicate 20 120) := by
    intro c t d h hd
    simp only [List.replicate_succ, List.cons.injEq] at h
    obtain ⟨h1, h2 | h2⟩ := hd <;> unfold digitChar at h2 <;> split at h2 <;> omega
  obtain ⟨e1, _, _⟩ := run_unique (by omega) (he.trans he') hrun hnx hr hn
  rw [← e1]; simp [u64]

/-- C09 violated: exactly sixteen digits in a 32-bit type, followed by letters: both paths report overflow, but the
SSE4.1 path also swallows sixteen of the letters. -/
theorem c09_position_violated :
    scanContig { i32 with sse := true } (List.replicate 16 49 ++ List.replicate 40 120) =
      some ⟨List.replicate 24 120, .overflow, none⟩ ∧
    scanContig { i32 with sse := false } (List.replicate 16 49 ++ List.replicate 40 120) =
      some ⟨List.replicate 40 120, .overflow, none⟩ := by
  constructor <;> decide +kernel

/-- C09 violated: a 33-digit number at the end of the buffer (64-bit type): the returned position lies 16 characters
behind the end of the buffer (undefined), where the portable path reports overflow at the end of the buffer. -/
theorem c09_end_violated :
    scanContig { u64 with sse := true } (List.replicate 33 49) = none ∧
    scanContig { u64 with sse := false } (List.replicate 33 49) = some ⟨[], .overflow, none⟩ := by
  constructor <;> decide +kernel

/-- C09 violated: skipped zeros followed by something else. -/
theorem c09_skipzero_violated :
    scanContig { i32 with sse := true, skipzero := true } (48 :: List.replicate 33 120) =
      some ⟨List.replicate 33 120, .invalid, none⟩ ∧
    scanContig { i32 with sse := false, skipzero := true } (48 :: List.replicate 33 120) =
      some ⟨List.replicate 33 120, .ok, some 0⟩ := by
  constructor <;> decide +kernel

/-! ## C10: staying inside the input -/

theorem skipWhile_suffix (p : Nat → Bool) (l : List Nat) : skipWhile p l <:+ l := by
  rw [skipWhile_eq]; exact List.dropWhile_suffix p

theorem simdLoop_suffix (n : Nat) (stop : List Nat → Bool) (l : List Nat) : simdLoop n stop l <:+ l := by
  induction hn : l.length using Nat.strong_induction_on generalizing l with
  | _ k ih =>
    unfold simdLoop
    split
    · split
      · exact List.suffix_refl _
      · exact (ih (l.drop n).length (by simp; omega) (l.drop n) rfl).trans (List.drop_suffix n l)
    · exact List.suffix_refl _

theorem findSpace_suffix (cfg : Cfg) (l : List Nat) : findSpace cfg l <:+ l := by
  have hcold : ∀ l, spaceCold cfg l <:+ l := by
    intro l; unfold spaceCold; simp only
    split
    · exact (skipWhile_suffix _ _).trans (simdLoop_suffix _ _ _)
    · exact skipWhile_suffix _ _
  unfold findSpace smallOpt
  split
  · simp only
    generalize (if cfg.simd < l.length then cfg.simd else l.length) = k
    obtain ⟨⟨pre, h1, _⟩, _⟩ := smallLoop_skip (isCSpace (spaceWidth cfg.cw)) k l
    have hsuf : (smallLoop (isCSpace (spaceWidth cfg.cw)) k l).2 <:+ l := ⟨pre, h1.symm⟩
    split
    · exact hsuf
    · exact (hcold _).trans hsuf
  · exact hcold l

theorem numSpec_suffix {bits base : Nat} {signed skipzero : Bool} {l : List Nat} {o : Outcome}
    (h : NumSpec bits signed skipzero base l o) : o.rest <:+ l := by
  cases h with
  | noDigits sgn rest neg _ _ _ => exact List.suffix_append sgn rest
  | leadingZero sgn c rest neg d _ _ _ => exact ⟨sgn ++ [48], by simp⟩
  | ok sgn cs ds rest neg _ _ _ _ _ _ => exact List.suffix_append (sgn ++ cs) rest
  | overflow sgn cs ds rest neg _ _ _ _ _ _ => exact List.suffix_append (sgn ++ cs) rest

theorem scanSpec_suffix {bits base : Nat} {signed noskipws skipzero : Bool} {l : List Nat} {o : Outcome}
    (h : ScanSpec bits signed noskipws skipzero base l o) : o.rest <:+ l := by
  cases h with
  | eof ws _ _ => exact List.nil_suffix
  | num ws l o _ _ _ h => exact (numSpec_suffix h).trans (List.suffix_append ws l)

/-- C10 (partial: the text avoids the code unit that overruns the digit table in bases above 10, and the texts on
which the SSE4.1 path leaves the range): a contiguous scan reads only inside the range (the model's outcome is
defined) and returns a position in it. No assumption on white space. -/
theorem c10_contiguous_partial (cfg : Cfg) (hv : Valid cfg) (l : List Nat) (hc : Clean cfg l)
    (hs : ∀ pre t, l = pre ++ t → RunSafe cfg t) : ∃ o, scanContig cfg l = some o ∧ o.rest <:+ l := by
  have main : ∀ t, t <:+ l → ∃ o, scanNoSpace cfg t = some o ∧ o.rest <:+ t := by
    rintro t ⟨pre, hp⟩
    have hct : Clean cfg t := by rw [← hp] at hc; exact hc.tail
    by_cases hl : LoneSign cfg t
    · exact ⟨_, scanNoSpace_lone hv hl, List.nil_suffix⟩
    · obtain ⟨o, h1, h2⟩ := scanNoSpace_spec hv t hct (fun sgn neg t' he _ => hs (pre ++ sgn) t' (by rw [← hp, he]; simp)) hl
      exact ⟨o, h1, numSpec_suffix h2⟩
  unfold scanContig
  split
  · exact main l (List.suffix_refl _)
  · simp only
    split
    · exact ⟨_, rfl, List.nil_suffix⟩
    · obtain ⟨o, h1, h2⟩ := main _ (findSpace_suffix cfg l)
      exact ⟨o, h1, h2.trans (findSpace_suffix cfg l)⟩

/-- C10 in full for bases up to 10 without SSE4.1: every text. -/
theorem c10_decimal (cfg : Cfg) (hv : Valid cfg) (h10 : cfg.base ≤ 10) (hs : cfg.sse = false) (l : List Nat)
    (hl : CodeUnits cfg.cw l) : ∃ o, scanContig cfg l = some o ∧ o.rest <:+ l :=
  c10_contiguous_partial cfg hv l ⟨hl, by intro h; omega⟩ (by intro _ _ _ h; rw [hs] at h; cases h)

/-- C10 for streams (partial, exclusions as in C08): no chunk is overrun, whatever the chunks, and the unconsumed
input is a suffix of the input. -/
theorem c10_chunks_partial (cfg : Cfg) (hv : Valid cfg) (chunks : List (List Nat))
    (hc : ∀ l ∈ chunks, Clean cfg l ∧ (cfg.noskipws = false → SpaceSafe cfg l))
    (hne : ∀ l ∈ chunks.tail, l ≠ [])
    (hcut : ∀ a b, chunks = a ++ b → b ≠ [] → ¬ EndsAfterZero cfg a.flatten ∧ ¬ EndsInLongRun cfg a.flatten) :
    ∃ o, runCtx cfg {} chunks = some o ∧ o.rest <:+ chunks.flatten := by
  obtain ⟨o, h1, h2⟩ := c08_chunks_spec_partial cfg hv chunks hc hne hcut
  exact ⟨o, h1, scanSpec_suffix h2⟩

example : Clean { i32 with base := 16 } (ascii "7fffffff") ∧
    scanContig { i32 with base := 16 } (ascii "7fffffff") = some ⟨[], .ok, some 2147483647⟩ := by
  refine ⟨⟨?_, ?_⟩, by decide +kernel⟩
  · intro c hc
    have : c < 256 := by revert c; decide
    simpa [i32] using this
  · intro _ h; revert h; decide

/-- C10 violated: a hexadecimal scan of the byte `0xFF` reads entry 255 of a table of 255 entries. -/
theorem c10_table_violated : scanContig { i32 with base := 16 } [255] = none := by decide +kernel

/-- C10 violated: a hexadecimal scan of the wide character `g` (103) reads entry 103 of a table of 103 entries. -/
theorem c10_wide_table_violated : scanContig { i32 with base := 16, cw := 16 } [103] = none := by decide +kernel

/-- C10 violated: `0` at the end of one buffer and a one-character refill: the scanner reads behind the refill. -/
theorem c10_refill_violated : runCtx i32 {} [ascii "0", ascii " "] = none := by decide +kernel

/-- C10 violated: the position returned by the SSE4.1 path lies behind the end of the range. -/
theorem c10_sse_violated : scanContig { u64 with sse := true } (List.replicate 33 49) = none := by decide +kernel

end Verif.IntScan
