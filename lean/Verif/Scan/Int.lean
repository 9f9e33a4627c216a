import Verif.Scan.Lemmas
/-! Helper lemmas: the integer scanners, block by block. -/
namespace Verif.Scan
open Verif Verif.IntScan Verif.IoBuf Verif.Line

/-! ### Codes and positions of the resumable scanner -/

theorem finish_code {cfg : Cfg} {neg : Bool} {r : List Nat} {x : Nat} : (finish cfg neg r x).code ≠ .part := by
  unfold finish
  split
  · simp only; split <;> split <;> simp
  · simp

theorem sseParse_code {small : Bool} {l : List Nat} {r : Nat × Code × Nat} (h : sseParse small l = some r) : r.2.1 ≠ .part := by
  unfold sseParse at h
  obtain ⟨c, _, h⟩ := Option.bind_eq_some_iff.mp h
  have sel : ∀ {p : Prop} [Decidable p] {a b : Option (Nat × Code × Nat)}, (if p then a else b) = some r → a = some r ∨ b = some r := by
    intro p _ a b h
    by_cases hp : p
    · rw [if_pos hp] at h; exact .inl h
    · rw [if_neg hp] at h; exact .inr h
  have ans : ∀ {n : Nat} {k : Code} {x : Nat}, k ≠ .part → some (n, k, x) = some r → r.2.1 ≠ .part := by
    intro n k x hk h
    rw [← Option.some.inj h]; exact hk
  have ansb : ∀ {y : Option Nat} {x : Nat}, (y.bind fun n => some (n + 16, Code.overflow, x)) = some r → r.2.1 ≠ .part := by
    intro y x h
    obtain ⟨n, _, h⟩ := Option.bind_eq_some_iff.mp h
    exact ans (by simp) h
  rcases sel h with h | h
  · exact ans (by simp) h
  rcases sel h with h | h
  · rcases sel h with h | h
    · exact ansb h
    obtain ⟨d, _, h⟩ := Option.bind_eq_some_iff.mp h
    rcases sel h with h | h
    · exact ans (by simp) h
    rcases sel h with h | h
    · exact ans (by simp) h
    rcases sel h with h | h
    · exact ans (by simp) h
    rcases sel h with h | h
    · exact ans (by simp) h
    rcases sel h with h | h
    · rcases sel h with h | h
      · exact ans (by simp) h
      rcases sel h with h | h
      · exact ans (by simp) h
      · exact ans (by simp) h
    rcases sel h with h | h
    · exact ansb h
    · exact ans (by simp) h
  · exact ans (by simp) h

theorem accumulate_code {cfg : Cfg} {neg : Bool} {l : List Nat} {o : Outcome} (h : accumulate cfg neg l = some o) : o.code ≠ .part := by
  unfold accumulate at h
  split at h
  · unfold sseBranch at h
    obtain ⟨r, hr, h⟩ := Option.bind_eq_some_iff.mp h
    have := sseParse_code hr
    repeat' split at h
    · cases h
    · simp at h; subst h; exact this
    · simp at h; subst h; simp
    · simp at h; subst h; exact finish_code
  · unfold scalarBranch at h
    obtain ⟨r, _, h⟩ := Option.bind_eq_some_iff.mp h
    split at h
    · simp at h; subst h; simp
    · simp at h; subst h; exact finish_code

theorem scanNoSpace_code {cfg : Cfg} {l : List Nat} {o : Outcome} (h : scanNoSpace cfg l = some o) : o.code ≠ .part := by
  have hz : ∀ neg l o, afterZero cfg neg l = some o → o.code ≠ .part := by
    intro neg l o h
    unfold afterZero at h
    split at h
    · simp only at h
      split at h
      · simp at h; subst h; simp
      · exact accumulate_code h
    · split at h
      · simp at h; subst h; simp
      · obtain ⟨r, _, h⟩ := Option.bind_eq_some_iff.mp h
        split at h <;> (simp at h; subst h; simp)
  have hs : ∀ neg l o, afterSign cfg neg l = some o → o.code ≠ .part := by
    intro neg l o h
    unfold afterSign at h
    split at h
    · exact accumulate_code h
    · obtain ⟨r, _, h⟩ := Option.bind_eq_some_iff.mp h
      split at h
      · simp at h; subst h; simp
      · split at h
        · exact hz _ _ _ h
        · exact accumulate_code h
  unfold scanNoSpace at h
  split at h
  · split at h
    · simp at h; subst h; simp
    · split at h <;> exact hs _ _ _ h
  · exact hs _ _ _ h

theorem skipDigits_suffix {cfg : Cfg} : ∀ {l r : List Nat}, skipDigits cfg l = some r → r <:+ l
  | [], r, h => by simp [skipDigits] at h; subst h; exact List.suffix_refl _
  | c :: l, r, h => by
    unfold skipDigits at h
    obtain ⟨d, _, h⟩ := Option.bind_eq_some_iff.mp h
    split at h
    · simp at h; subst h; exact List.suffix_refl _
    · exact (skipDigits_suffix h).trans (List.suffix_cons c l)

/-- The block is consumed entirely if more is asked for, and the position stays in the block. -/
def Placed (l : List Nat) (s : IntScan.Step) : Prop := s.rest <:+ l ∧ (s.code = .part → s.rest = [])

theorem placed_mono {l l' : List Nat} {s : IntScan.Step} (h : Placed l s) (hl : l <:+ l') : Placed l' s := ⟨h.1.trans hl, h.2⟩

theorem ctxDigit_placed {cfg : Cfg} {st : CtxState} {l : List Nat} {s : IntScan.Step} (h : ctxDigit cfg st l = some s) : Placed l s := by
  unfold ctxDigit at h
  obtain ⟨it, hi, h⟩ := Option.bind_eq_some_iff.mp h
  have hsuf := skipDigits_suffix hi
  simp only at h
  split at h
  · split at h
    · simp at h; subst h; exact ⟨List.nil_suffix, fun _ => rfl⟩
    · split at h
      · simp at h; subst h; exact ⟨hsuf, by simp⟩
      · obtain ⟨o, ho, h⟩ := Option.bind_eq_some_iff.mp h
        split at h
        · cases h
        · simp at h; subst h
          exact ⟨List.drop_suffix _ _, fun hc => absurd hc (scanNoSpace_code ho)⟩
  · split at h
    · simp at h; subst h; exact ⟨List.nil_suffix, fun _ => rfl⟩
    · simp at h; subst h; exact ⟨hsuf, by simp⟩

theorem findNoneZero_suffix (cfg : Cfg) (l : List Nat) : findNoneZero cfg l <:+ l := by
  have hcold : ∀ l, (skipWhile (fun c => c == 48)
      (if cfg.simd ≠ 0 then simdLoop (cfg.simd / (cfg.cw / 8)) (fun v => stopTest cfg.ptestm (v.any (fun c => c != 48))) l else l)) <:+ l := by
    intro l
    split
    · exact (skipWhile_suffix _ _).trans (simdLoop_suffix _ _ _)
    · exact skipWhile_suffix _ _
  unfold findNoneZero smallOpt
  split
  · simp only
    generalize (if cfg.simd < l.length then cfg.simd else l.length) = k
    obtain ⟨⟨pre, h1, _⟩, _⟩ := smallLoop_skip (fun c => c == 48) k l
    have hsuf : (smallLoop (fun c => c == 48) k l).2 <:+ l := ⟨pre, h1.symm⟩
    split
    · exact hsuf
    · exact (hcold _).trans hsuf
  · exact hcold l

theorem ctxZero_placed {cfg : Cfg} {st : CtxState} {ph : Phase} {l : List Nat} {s : IntScan.Step} (h : ctxZero cfg st ph l = some s) :
    Placed l s := by
  unfold ctxZero at h
  split at h
  · simp at h; subst h; exact ⟨List.nil_suffix, fun _ => rfl⟩
  · rename_i c t
    obtain ⟨d, _, h⟩ := Option.bind_eq_some_iff.mp h
    split at h
    · split at h <;> (simp at h; subst h; exact ⟨List.suffix_refl _, by simp⟩)
    · split at h
      · simp only at h
        have ht : (if cfg.skipzero = true then findNoneZero cfg t else t) <:+ c :: t := by
          split
          · exact (findNoneZero_suffix cfg t).trans (List.suffix_cons c t)
          · exact List.suffix_cons c t
        split at h
        · simp at h; subst h; exact ⟨List.nil_suffix, fun _ => rfl⟩
        · rename_i c' t'' he
          rw [he] at ht
          obtain ⟨d, _, h⟩ := Option.bind_eq_some_iff.mp h
          split at h
          · simp at h; subst h; exact ⟨ht, by simp⟩
          · split at h
            · exact placed_mono (ctxDigit_placed h) ht
            · simp at h; subst h; exact ⟨ht, by simp⟩
      · exact ctxDigit_placed h

theorem ctxSign_placed {cfg : Cfg} {st : CtxState} {ph : Phase} {l : List Nat} {s : IntScan.Step} (h : ctxSign cfg st ph l = some s) :
    Placed l s := by
  unfold ctxSign at h
  split at h
  · split at h
    · simp at h; subst h; exact ⟨List.nil_suffix, fun _ => rfl⟩
    · split at h
      · exact placed_mono (ctxZero_placed h) (List.suffix_cons _ _)
      · exact ctxZero_placed h
  · exact ctxZero_placed h

theorem ctxStep_placed {cfg : Cfg} {st : CtxState} {l : List Nat} {s : IntScan.Step} (h : ctxStep cfg st l = some s) : Placed l s := by
  unfold ctxStep at h
  split at h
  · split at h
    · exact ctxSign_placed h
    · simp only at h
      split at h
      · simp at h; subst h; exact ⟨List.nil_suffix, fun _ => rfl⟩
      · exact placed_mono (ctxSign_placed h) (findSpace_suffix cfg l)
  · exact ctxSign_placed h
  · exact ctxZero_placed h
  · exact ctxZero_placed h
  · exact ctxDigit_placed h
  · split at h
    · simp at h; subst h; exact ⟨List.suffix_refl _, by simp⟩
    · unfold ctxZeroInvalid at h
      split at h
      · simp at h; subst h; exact ⟨List.nil_suffix, fun _ => rfl⟩
      · cases h
      · rename_i c c' t
        obtain ⟨d, _, h⟩ := Option.bind_eq_some_iff.mp h
        have : c' :: t <:+ c :: c' :: t := List.suffix_cons _ _
        split at h <;> (simp at h; subst h; exact ⟨this, by simp⟩)
  · unfold ctxSkip at h
    obtain ⟨r, hr, h⟩ := Option.bind_eq_some_iff.mp h
    simp at h; subst h
    refine ⟨skipDigits_suffix hr, ?_⟩
    simp only
    split
    · intro _; assumption
    · intro h; cases h

theorem ctxEof_code {cfg : Cfg} {st : CtxState} {r : Code × Option Int} (h : ctxEof cfg st = some r) : r.1 ≠ .part := by
  unfold ctxEof at h
  split at h
  · simp at h; subst h; simp; split <;> simp
  · simp at h; obtain ⟨o, ho, h⟩ := h; subst h; exact scanNoSpace_code ho
  all_goals (simp at h; subst h; simp)

/-! ### Specification facts -/

theorem spec_not_eof {cfg : Cfg} {T : List Nat} {o : Outcome} (h : Spec cfg T o) (hr : o.rest ≠ []) : o.code ≠ .eof := by
  cases h with
  | eof ws _ _ => exact absurd rfl hr
  | num ws l o _ _ _ h => cases h <;> simp

theorem spec_ok_value {cfg : Cfg} {T : List Nat} {o : Outcome} (h : Spec cfg T o) : o.code = .ok → ∃ i, o.value = some i := by
  cases h with
  | eof ws _ _ => simp
  | num ws l o _ _ _ h => cases h <;> simp

/-- A number that ends before the end of the block is not affected by what follows the block. -/
theorem spec_extend {cfg : Cfg} {b : List Nat} {o : Outcome} (h : Spec cfg b o) (hr : o.rest ≠ []) (q : List Nat) :
    Spec cfg (b ++ q) ⟨o.rest ++ q, o.code, o.value⟩ := by
  cases h with
  | eof ws _ _ => exact absurd rfl hr
  | num ws l o h1 h2 h3 h =>
    rw [List.append_assoc]
    refine .num ws (l ++ q) _ h1 h2 ?_ ?_
    · intro hn
      obtain ⟨hl, hf⟩ := h3 hn
      refine ⟨by simp [hl], ?_⟩
      intro c t he
      cases l with
      | nil => exact absurd rfl hl
      | cons c' t' =>
        simp only [List.cons_append, List.cons.injEq] at he
        rw [← he.1]; exact hf c' t' rfl
    · cases h with
      | noDigits sgn rest neg hs hm hn =>
        rw [List.append_assoc]
        refine .noDigits sgn (rest ++ q) neg hs ?_ (noDigit_append hn hr q)
        intro he hsg t ht
        cases rest with
        | nil => exact hr rfl
        | cons c t' =>
          simp only [List.cons_append, List.cons.injEq] at ht
          exact hm he hsg t' (by rw [ht.1])
      | leadingZero sgn c rest neg d h0 hs hd =>
        have := NumSpec.leadingZero (bits := cfg.bits) (skipzero := cfg.skipzero) sgn c (rest ++ q) neg d h0 hs hd
        simpa using this
      | ok sgn cs ds rest neg hs hr' h0 hn hz hi =>
        have := NumSpec.ok (skipzero := cfg.skipzero) sgn cs ds (rest ++ q) neg hs hr' h0 (noDigit_append hn hr q) hz hi
        simpa using this
      | overflow sgn cs ds rest neg hs hr' h0 hn hz hi =>
        have := NumSpec.overflow (skipzero := cfg.skipzero) sgn cs ds (rest ++ q) neg hs hr' h0 (noDigit_append hn hr q) hz hi
        simpa using this

/-! ### The blocks -/

/-- Where integer scanning is exact, whatever the blocks (each exclusion is a known defect, see C06, C08-C10, C51): code units that the
digit table covers, plain white space, digit runs the SSE4.1 path can take, and no block boundary that the resumable scanner cannot
survive: after a leading zero with something behind it, or inside an over-long run of digits. -/
structure IntSafe (cfg : Cfg) (T : List Nat) : Prop where
  clean : Clean cfg T
  space : cfg.noskipws = false → cfg.simd ≠ 0 → ∀ c ∈ T, 9 ≤ c ∧ c < 2 ^ (cfg.cw - 1) + 9
  sse : ∀ p q, T = p ++ q → SseSafe cfg p
  cut : ∀ p q, T = p ++ q → q ≠ [] → ¬ BadCut cfg p

theorem IntSafe.cleanBlock {cfg : Cfg} {T pre b q : List Nat} (h : IntSafe cfg T) (hE : T = pre ++ b ++ q) : Clean cfg b := by
  have := h.clean
  rw [hE] at this
  refine ⟨fun c hc => this.1 c (by simp [hc]), fun h10 hm => this.2 h10 (by simp [hm])⟩

theorem IntSafe.spaceBlock {cfg : Cfg} (hp : cfg.ptestm = false) {T pre b q : List Nat} (h : IntSafe cfg T) (hE : T = pre ++ b ++ q) :
    cfg.noskipws = false → SpaceSafe cfg b := by
  intro hn hsm _
  exact ⟨fun c hc => h.space hn hsm c (by rw [hE]; simp [hc]), fun h' => by rw [hp] at h'; cases h'⟩

theorem not_badCut_nil (cfg : Cfg) : ¬ BadCut cfg [] := by
  rintro (⟨_, ws, sgn, neg, h, _⟩ | ⟨ws, sgn, neg, k, cs, ds, h, _, _, hr, h0, _⟩)
  · simp at h
  · have h1 := congrArg List.length h
    simp only [List.length_nil, List.length_append] at h1
    have h2 := digitRun_length hr
    exact h0 (List.eq_nil_of_length_eq_zero (by omega))

/-- A state of the integer scanner together with what it has consumed. -/
def IntInv (cfg : Cfg) (st : St) (_ : Val) (pre : List Nat) : Prop := Inv cfg st.ctx pre

theorem int_right {P : Plat} (hp : P.ptestm = false) {bits base : Nat} {signed noskipws skipzero : Bool}
    (hv : Valid (P.cfg bits signed noskipws skipzero base)) {T : List Nat} (hs : IntSafe (P.cfg bits signed noskipws skipzero base) T) :
    CtxRight P (.int bits signed noskipws skipzero base) T (IntInv (P.cfg bits signed noskipws skipzero base))
      (IntInv (P.cfg bits signed noskipws skipzero base)) := by
  set cfg := P.cfg bits signed noskipws skipzero base with hcfg
  have hp' : cfg.ptestm = false := hp
  refine ⟨fun _ _ _ h => h, fun v => .space [] ⟨fun _ => rfl, by simp⟩, ?_, ?_⟩
  · intro st v pre b q hE hI hbp
    have hbad : ¬ BadCut cfg pre := by
      by_cases hpre : pre = []
      · rw [hpre]; exact not_badCut_nil cfg
      · have hb : b ≠ [] := by rcases hbp with h | h; exacts [h, absurd h hpre]
        exact hs.cut pre (b ++ q) (by rw [hE, List.append_assoc]) (by simp [hb])
    obtain ⟨s, h1, h2⟩ := ctxStep_ok hv hI b (hs.cleanBlock hE) (hs.spaceBlock hp' hE) hbp hbad
    have hpl := ctxStep_placed h1
    refine ⟨_, by simp only [define, ← hcfg, h1, Option.map_some]; rfl, ?_⟩
    rcases h2 with ⟨hc, hi⟩ | ⟨hc, hspec⟩
    · exact .inl ⟨hc, hpl.2 hc, hi⟩
    · right
      have hsp := hspec q
      rw [← hE] at hsp
      refine ⟨hc, hpl.1, s.value.map .num, ⟨_, hsp, rfl⟩, ?_, ?_⟩
      · intro hok
        obtain ⟨i, hi⟩ := spec_ok_value hsp hok
        simp only at hi
        simp [hi]
      · have := spec_not_eof (hspec [0]) (by simp)
        exact this
  · intro st v hI
    obtain ⟨r, h1, h2⟩ := ctxEof_ok hv hI
    refine ⟨_, by simp only [eofDefine, ← hcfg, h1, Option.map_some]; rfl, ctxEof_code h1, r.2.map .num, ⟨_, h2, rfl⟩, ?_⟩
    intro hok
    obtain ⟨i, hi⟩ := spec_ok_value h2 hok
    simp only at hi
    simp [hi]

/-- One block in one go: if it does not consume all of it, the result is that of the whole text. -/
theorem scanContig_block {cfg : Cfg} (hv : Valid cfg) (hp : cfg.ptestm = false) {T b q : List Nat} (hs : IntSafe cfg T) (hE : T = b ++ q) :
    ∃ o, scanContig cfg b = some o ∧ o.rest <:+ b ∧ (o.rest ≠ [] → Spec cfg T ⟨o.rest ++ q, o.code, o.value⟩) := by
  have hc := hs.cleanBlock (pre := []) (b := b) (q := q) (by simpa using hE)
  have hsp := hs.spaceBlock hp (pre := []) (b := b) (q := q) (by simpa using hE)
  have hsse := hs.sse b q hE
  by_cases hls : NoLoneSign cfg b
  · obtain ⟨o, h1, h2⟩ := c06_scan_partial cfg hv b hc hsp hsse hls
    exact ⟨o, h1, scanSpec_suffix h2, fun hr => by rw [hE]; exact spec_extend h2 hr q⟩
  · have hlone : ∀ t, t <:+ b → LoneSign cfg t → ∃ o, scanNoSpace cfg t = some o ∧ o.rest = [] :=
      fun t _ h => ⟨_, scanNoSpace_lone hv h, rfl⟩
    unfold NoLoneSign at hls
    push Not at hls
    obtain ⟨ws, t, hb, hws, hn1, hn2, hl⟩ := hls
    obtain ⟨o, ho, hr⟩ := hlone t ⟨ws, hb.symm⟩ hl
    have key : scanContig cfg b = some o := by
      unfold scanContig
      by_cases hn : cfg.noskipws = true
      · rw [if_pos hn]
        have := hn1 hn
        subst this
        simp only [List.nil_append] at hb
        rw [hb]; exact ho
      · rw [if_neg hn]
        have hn' : cfg.noskipws = false := by simpa using hn
        have ht := hn2 hn'
        rcases hl with ⟨hsg, rfl⟩ | ⟨_, ht'⟩
        · have hf : findSpace cfg b = [45] := by
            rw [findSpace_eq hv b hc.1 (hsp hn')]
            have hwd := spaceWidth_ok cfg.cw hv.charWidth
            rw [hb, dropWhile_append_all]
            · have : isCSpace (spaceWidth cfg.cw) 45 = false := by
                rw [Bool.eq_false_iff]; intro h
                have h45 : (45 : Nat) < 2 ^ spaceWidth cfg.cw := lt_of_lt_of_le (hc.1 45 (by rw [hb]; simp)) hwd.2
                have := (isCSpace_iff hwd.1 h45).mp h
                unfold IsSpace at this; omega
              simp [this]
            · intro c hcm
              exact (isCSpace_iff hwd.1 (lt_of_lt_of_le (hc.1 c (by rw [hb]; simp [hcm])) hwd.2)).mpr (hws c hcm)
          simp only [hf]
          simpa using ho
        · exact absurd ht' ht
    exact ⟨o, key, by rw [hr]; exact List.nil_suffix, fun h => absurd hr h⟩

end Verif.Scan
