import Verif.Scan.Model
import Verif.IntScan.Ctx
import Verif.IntScan.Props
import Verif.IoBuf.InProps
import Verif.Line.Find
/-! Helper lemmas: the string scanners, block by block. -/
namespace Verif.Scan
open Verif Verif.IntScan Verif.IoBuf Verif.Line

/-- Platforms that can occur; the inverted vector test is excluded (it breaks every search, see C66). -/
structure PlatOk (P : Plat) : Prop where
  charWidth : CharWidth P.cw
  simd : P.simd = 0 ∨ P.simd = 16 ∨ P.simd = 32 ∨ P.simd = 64
  ptestm : P.ptestm = false

/-- Where the vectorised white space test is exact: no control characters below tab and no code units at or above `2^(cw-1)+9`. -/
def SpacePlain (P : Plat) (T : List Nat) : Prop := P.simd ≠ 0 → ∀ c ∈ T, 9 ≤ c ∧ c < 2 ^ (P.cw - 1) + 9

/-- What a resumable scanner must guarantee to be driven over blocks: `Inv` holds before a block, `Inv'` after one. -/
structure CtxRight (P : Plat) (w : What) (T : List Nat) (Inv Inv' : St → Val → List Nat → Prop) : Prop where
  weak : ∀ st v pre, Inv' st v pre → Inv st v pre
  init : ∀ v, Inv {} v []
  step : ∀ st v pre b q, T = pre ++ b ++ q → Inv st v pre → (b ≠ [] ∨ pre = []) → ∃ r, define P w st v b = some r ∧
    ((r.code = .part ∧ r.rest = [] ∧ Inv' r.st r.var (pre ++ b)) ∨
     (r.code ≠ .part ∧ r.rest <:+ b ∧ ∃ x, Reads w T ⟨r.rest ++ q, r.code, x⟩ ∧ (r.code = .ok → x = some r.var) ∧ r.code ≠ .eof))
  fin : ∀ st v, Inv' st v T → ∃ e, eofDefine P w st v = some e ∧ e.1 ≠ .part ∧ ∃ x, Reads w T ⟨[], e.1, x⟩ ∧ (e.1 = .ok → x = some e.2)

theorem isSpace_iff {P : Plat} (hP : PlatOk P) {c : Nat} (hc : c < 2 ^ P.cw) : isCSpace (spaceWidth P.cw) c = true ↔ IsSpace c := by
  have hw := spaceWidth_ok P.cw hP.charWidth
  exact isCSpace_iff hw.1 (lt_of_lt_of_le hc hw.2)

theorem not_isSpace_iff {P : Plat} (hP : PlatOk P) {c : Nat} (hc : c < 2 ^ P.cw) : (!isCSpace (spaceWidth P.cw) c) = true ↔ ¬ IsSpace c := by
  rw [← isSpace_iff hP hc]; simp

theorem valid_space {P : Plat} (hP : PlatOk P) : Valid (P.cfg 32 true false false 10) :=
  ⟨by simp [Plat.cfg], by simp [Plat.cfg], by simp [Plat.cfg, Verif.IntPrint.Width], hP.charWidth, hP.simd, by simp [Plat.cfg], by simp [Plat.cfg]⟩

theorem findNoneCSpace_eq {P : Plat} (hP : PlatOk P) {l : List Nat} (hl : CodeUnits P.cw l) (hs : SpacePlain P l) :
    findNoneCSpace P l = l.dropWhile (isCSpace (spaceWidth P.cw)) :=
  findSpace_eq (cfg := P.cfg 32 true false false 10) (valid_space hP) l hl
    (fun h _ => ⟨hs h, fun h' => by simp [Plat.cfg, hP.ptestm] at h'⟩)

/-- Every white space character sets its lane. -/
theorem laneSpace_of_space {cw c : Nat} (hw : CharWidth cw) (h : IsSpace c) : laneSpace cw c = true := by
  have h1 : 9 ≤ c := by unfold IsSpace at h; omega
  have h2 : c < 2 ^ (cw - 1) + 9 := by
    unfold IsSpace at h
    rcases hw with h' | h' | h' <;> subst h' <;> norm_num <;> omega
  exact (laneSpace_iff hw h1 h2).mpr h

theorem findCSpace_eq {P : Plat} (hP : PlatOk P) {l : List Nat} (hl : CodeUnits P.cw l) :
    findCSpace P l = l.dropWhile (fun c => !isCSpace (spaceWidth P.cw) c) := by
  unfold findCSpace
  apply smallOpt_skip
  intro pre l' h _
  have hsub : ∀ c ∈ l', c ∈ l := by intro c hc; rw [h]; simp [hc]
  rw [skipWhile_eq]
  split
  · refine simdLoop_skip (fun c => c < 2 ^ P.cw) ?_ _ (fun c hc => hl c (hsub c hc))
    intro v hv hst c hc
    simp only [stopTest, hP.ptestm, Bool.false_eq_true, if_false, List.any_eq_false] at hst
    rw [not_isSpace_iff hP (hv c hc)]
    intro hsp
    exact hst c hc (laneSpace_of_space hP.charWidth hsp)
  · rfl

theorem findLf_eq {P : Plat} (hP : PlatOk P) {l : List Nat} (hl : CodeUnits P.cw l) :
    findLf P l = l.dropWhile (fun c => c != 10) := by
  unfold findLf
  rw [hP.ptestm]
  have := findCh_eq (cfg := ⟨P.cw, P.simd, P.libc⟩) (ch := 10) (findnot := false) (l := l) (by omega) (fun h8 c hc => by
    have := hl c hc; simp only at h8; rw [h8] at this; simpa using this)
  simpa [findCh] using this

theorem upto_append (a r : List Nat) : upto (a ++ r) r = a := by simp [upto]

theorem upto_eq (p : Nat → Bool) (l : List Nat) : upto l (l.dropWhile p) = l.takeWhile p := by
  conv_lhs => rw [show l = l.takeWhile p ++ l.dropWhile p from (List.takeWhile_append_dropWhile).symm]
  rw [show (l.takeWhile p ++ l.dropWhile p).dropWhile p = l.dropWhile p by rw [List.takeWhile_append_dropWhile]]
  exact upto_append _ _

/-- A list splits at the first element that fails the test. -/
theorem split_first (p : Nat → Bool) (l : List Nat) : ∃ a r, l.takeWhile p = a ∧ l.dropWhile p = r ∧ l = a ++ r ∧ (∀ c ∈ a, p c = true) ∧
    ∀ c t, r = c :: t → p c = false := by
  obtain ⟨pre, h1, h2, h3⟩ := dropWhile_split p l
  refine ⟨_, _, rfl, rfl, (List.takeWhile_append_dropWhile).symm, fun c hc => ?_, h3⟩
  exact (List.all_eq_true.mp List.all_takeWhile) c hc

theorem mem_cu {P : Plat} {T pre b q : List Nat} (h : CodeUnits P.cw T) (hT : T = pre ++ b ++ q) : CodeUnits P.cw b := by
  intro c hc; exact h c (by rw [hT]; simp [hc])

/-! ### Words -/

def WordInv (st : St) (v : Val) (pre : List Nat) : Prop :=
  (st.copying = false ∧ ∀ c ∈ pre, IsSpace c) ∨
  (st.copying = true ∧ ∃ ws w, pre = ws ++ w ∧ (∀ c ∈ ws, IsSpace c) ∧ w ≠ [] ∧ (∀ c ∈ w, ¬ IsSpace c) ∧ v = .str w)

theorem word_right {P : Plat} (hP : PlatOk P) {T : List Nat} (hT : CodeUnits P.cw T) (hs : SpacePlain P T) :
    CtxRight P .word T WordInv WordInv := by
  refine ⟨fun _ _ _ h => h, fun v => .inl ⟨rfl, by simp⟩, ?_, ?_⟩
  · intro st v pre b q hE hI _
    have hb := mem_cu hT hE
    have hsb : SpacePlain P b := fun h c hc => hs h c (by rw [hE]; simp [hc])
    refine ⟨_, rfl, ?_⟩
    rcases hI with ⟨hc, hpre⟩ | ⟨hc, ws, w, rfl, hws, hw0, hw, rfl⟩
    · obtain ⟨a, r, ea, er, eb, ha, hr⟩ := split_first (isCSpace (spaceWidth P.cw)) b
      have hfa : ∀ c ∈ a, IsSpace c := fun c hm => (isSpace_iff hP (hb c (by rw [eb]; simp [hm]))).mp (ha c hm)
      have hfr : ∀ c t, r = c :: t → ¬ IsSpace c := by
        intro c t he hsp
        have := hr c t he
        rw [(isSpace_iff hP (hb c (by rw [eb, he]; simp))).mpr hsp] at this
        cases this
      simp only [strDefine, hc, Bool.not_false, Bool.and_self, if_true, Bool.true_and, findNoneCSpace_eq hP hb hsb, er]
      by_cases hr0 : r = []
      · subst hr0
        left
        simp only [List.append_nil] at eb
        subst eb
        simp only [packStr, beq_self_eq_true, if_true, true_and]
        refine .inl ⟨rfl, ?_⟩
        intro c hm
        rcases List.mem_append.mp hm with h | h
        · exact hpre c h
        · exact hfa c h
      · have hrb : CodeUnits P.cw r := fun c hm => hb c (by rw [eb]; simp [hm])
        rw [if_neg (by simpa using hr0)]
        simp only [Bool.false_eq_true, if_false, Bool.or_self, List.nil_append, findCSpace_eq hP hrb, upto_eq]
        obtain ⟨a', r', ea', er', eb', ha', hr'⟩ := split_first (fun c => !isCSpace (spaceWidth P.cw) c) r
        rw [ea', er']
        have ha'' : ∀ c ∈ a', ¬ IsSpace c := fun c hm => (not_isSpace_iff hP (hrb c (by rw [eb']; simp [hm]))).mp (ha' c hm)
        have hr'' : ∀ c t, r' = c :: t → IsSpace c := by
          intro c t he
          have := hr' c t he
          exact (isSpace_iff hP (hrb c (by rw [eb', he]; simp))).mp (by simpa using this)
        have ha0 : a' ≠ [] := by
          rintro rfl
          simp only [List.nil_append] at eb'
          cases r with
          | nil => exact hr0 rfl
          | cons c t => exact hfr c t rfl (hr'' c t eb'.symm)
        have hsp : ∀ c ∈ pre ++ a, IsSpace c := by
          intro c hm
          rcases List.mem_append.mp hm with h | h
          · exact hpre c h
          · exact hfa c h
        cases r' with
        | nil =>
          left
          refine ⟨rfl, rfl, .inr ⟨rfl, pre ++ a, a', by rw [eb, eb']; simp, hsp, ha0, ha'', rfl⟩⟩
        | cons c t =>
          right
          refine ⟨by simp [packStr], ⟨a ++ a', by simp [packStr, eb, eb']⟩, some (.str a'), .inr ⟨pre ++ a, a', c :: t ++ q, ?_, hsp, ha0, ha'', ?_, rfl⟩,
            fun _ => rfl, by simp [packStr]⟩
          · rw [hE, eb, eb']; simp
          · intro c' t' he
            simp only [List.cons_append, List.cons.injEq] at he
            rw [← he.1]; exact hr'' c t rfl
    · simp only [strDefine, hc, strOf, Bool.not_false, Bool.not_true, Bool.and_false, Bool.and_self, Bool.false_and, Bool.false_eq_true, if_false, if_true, Bool.or_self,
        findCSpace_eq hP hb, upto_eq]
      obtain ⟨a', r', ea', er', eb', ha', hr'⟩ := split_first (fun c => !isCSpace (spaceWidth P.cw) c) b
      rw [ea', er']
      have ha'' : ∀ c ∈ w ++ a', ¬ IsSpace c := by
        intro c hm
        rcases List.mem_append.mp hm with h | h
        · exact hw c h
        · exact (not_isSpace_iff hP (hb c (by rw [eb']; simp [h]))).mp (ha' c h)
      have hr'' : ∀ c t, r' = c :: t → IsSpace c := by
        intro c t he
        have := hr' c t he
        exact (isSpace_iff hP (hb c (by rw [eb', he]; simp))).mp (by simpa using this)
      cases r' with
      | nil =>
        left
        refine ⟨rfl, rfl, .inr ⟨rfl, ws, w ++ a', by rw [eb']; simp, hws, by simp [hw0], ha'', rfl⟩⟩
      | cons c t =>
        right
        refine ⟨by simp [packStr], ⟨a', by simp [packStr, eb']⟩, some (.str (w ++ a')), .inr ⟨ws, w ++ a', c :: t ++ q, ?_, hws, by simp [hw0], ha'', ?_, rfl⟩,
          fun _ => rfl, by simp [packStr]⟩
        · rw [hE, eb']; simp
        · intro c' t' he
          simp only [List.cons_append, List.cons.injEq] at he
          rw [← he.1]; exact hr'' c t rfl
  · intro st v hI
    refine ⟨_, rfl, ?_⟩
    rcases hI with ⟨hc, hpre⟩ | ⟨hc, ws, w, hE, hws, hw0, hw, rfl⟩
    · simp only [hc, Bool.false_eq_true, if_false]
      exact ⟨by simp, none, .inl ⟨hpre, rfl⟩, by simp⟩
    · simp only [hc, if_true]
      exact ⟨by simp, some (.str w), .inr ⟨ws, w, [], by simp [hE], hws, hw0, hw, by simp, rfl⟩, fun _ => rfl⟩

/-! ### Tokens and lines -/

/-- After a block: everything so far was copied. -/
def RunInv' (Q : Nat → Prop) (st : St) (v : Val) (pre : List Nat) : Prop := st.copying = true ∧ v = .str pre ∧ ∀ c ∈ pre, Q c

def RunInv (Q : Nat → Prop) (st : St) (v : Val) (pre : List Nat) : Prop := (st.copying = false ∧ pre = []) ∨ RunInv' Q st v pre

theorem token_right {P : Plat} (hP : PlatOk P) {T : List Nat} (hT : CodeUnits P.cw T) :
    CtxRight P .token T (RunInv fun c => ¬ IsSpace c) (RunInv' fun c => ¬ IsSpace c) := by
  refine ⟨fun _ _ _ h => .inr h, fun v => .inl ⟨rfl, rfl⟩, ?_, ?_⟩
  · intro st v pre b q hE hI hbp
    have hb := mem_cu hT hE
    obtain ⟨a', r', ea', er', eb', ha', hr'⟩ := split_first (fun c => !isCSpace (spaceWidth P.cw) c) b
    have ha'' : ∀ c ∈ a', ¬ IsSpace c := fun c hm => (not_isSpace_iff hP (hb c (by rw [eb']; simp [hm]))).mp (ha' c hm)
    have hr'' : ∀ c t, r' = c :: t → IsSpace c := by
      intro c t he
      have := hr' c t he
      exact (isSpace_iff hP (hb c (by rw [eb', he]; simp))).mp (by simpa using this)
    have hpre : ∀ c ∈ pre, ¬ IsSpace c := by
      rcases hI with ⟨_, rfl⟩ | ⟨_, _, h⟩
      · simp
      · exact h
    have hf : findCSpace P b = r' := by rw [findCSpace_eq hP hb, er']
    have hu : upto b r' = a' := by rw [eb']; exact upto_append _ _
    have hd : define P .token st v b = some (packStr st (true, pre ++ a', r', if r' = [] then .part else .ok)) := by
      rcases hI with ⟨hc, rfl⟩ | ⟨hc, rfl, _⟩
      · simp only [define, strDefine, hc]
        cases r' <;> simp [hf, hu]
      · simp only [define, strDefine, hc, strOf]
        cases r' <;> simp [hf, hu]
    refine ⟨_, hd, ?_⟩
    have hall : ∀ c ∈ pre ++ a', ¬ IsSpace c := by
      intro c hm
      rcases List.mem_append.mp hm with h | h
      · exact hpre c h
      · exact ha'' c h
    cases r' with
    | nil =>
      left
      simp only [List.append_nil] at eb'
      subst eb'
      exact ⟨rfl, rfl, rfl, rfl, hall⟩
    | cons c t =>
      right
      refine ⟨by simp [packStr], ⟨a', by simp [packStr, eb']⟩, some (.str (pre ++ a')), .inr ⟨?_, pre ++ a', c :: t ++ q, ?_, hall, ?_, ?_⟩, fun _ => rfl, by simp [packStr]⟩
      · rw [hE, eb']; simp
      · rw [hE, eb']; simp
      · intro c' t' he
        simp only [List.cons_append, List.cons.injEq] at he
        rw [← he.1]; exact hr'' c t rfl
      · simp [packStr]
  · intro st v hI
    refine ⟨_, rfl, ?_⟩
    obtain ⟨hc, rfl, hpre⟩ := hI
    by_cases h : T = []
    · subst h
      simp only [strOf, if_true]
      exact ⟨by simp, none, .inl ⟨rfl, rfl⟩, by simp⟩
    · simp only [strOf, h, if_false]
      exact ⟨by simp, some (.str T), .inr ⟨h, T, [], by simp, hpre, by simp, rfl⟩, fun _ => rfl⟩

theorem line_right {P : Plat} (hP : PlatOk P) {T : List Nat} (hT : CodeUnits P.cw T) :
    CtxRight P .line T (RunInv fun c => c ≠ 10) (RunInv' fun c => c ≠ 10) := by
  refine ⟨fun _ _ _ h => .inr h, fun v => .inl ⟨rfl, rfl⟩, ?_, ?_⟩
  · intro st v pre b q hE hI hbp
    have hb := mem_cu hT hE
    obtain ⟨a', r', ea', er', eb', ha', hr'⟩ := split_first (fun c => c != 10) b
    have ha'' : ∀ c ∈ a', c ≠ 10 := fun c hm => by simpa using ha' c hm
    have hr'' : ∀ c t, r' = c :: t → c = 10 := by
      intro c t he
      simpa using hr' c t he
    have hpre : ∀ c ∈ pre, c ≠ 10 := by
      rcases hI with ⟨_, rfl⟩ | ⟨_, _, h⟩
      · simp
      · exact h
    have hf : findLf P b = r' := by rw [findLf_eq hP hb, er']
    have hu : upto b r' = a' := by rw [eb']; exact upto_append _ _
    have hd : define P .line st v b = some (packStr st (true, pre ++ a', r'.tail, if r' = [] then .part else .ok)) := by
      rcases hI with ⟨hc, rfl⟩ | ⟨hc, rfl, _⟩
      · simp only [define, strDefine, hc]
        cases r' <;> simp [hf, hu]
      · simp only [define, strDefine, hc, strOf]
        cases r' <;> simp [hf, hu]
    refine ⟨_, hd, ?_⟩
    have hall : ∀ c ∈ pre ++ a', c ≠ 10 := by
      intro c hm
      rcases List.mem_append.mp hm with h | h
      · exact hpre c h
      · exact ha'' c h
    cases r' with
    | nil =>
      left
      simp only [List.append_nil] at eb'
      subst eb'
      exact ⟨rfl, rfl, rfl, rfl, hall⟩
    | cons c t =>
      right
      have hc := hr'' c t rfl
      subst hc
      refine ⟨by simp [packStr], ⟨a' ++ [10], by simp [packStr, eb']⟩, some (.str (pre ++ a')), .inr (.inr ⟨pre ++ a', t ++ q, ?_, fun h => hall 10 h rfl, ?_⟩), fun _ => rfl, by simp [packStr]⟩
      · rw [hE, eb']; simp
      · simp [packStr]
  · intro st v hI
    refine ⟨_, rfl, ?_⟩
    obtain ⟨hc, rfl, hpre⟩ := hI
    by_cases h : T = []
    · subst h
      simp only [strOf, if_true]
      exact ⟨by simp, none, .inl ⟨rfl, rfl⟩, by simp⟩
    · simp only [strOf, h, if_false]
      exact ⟨by simp, some (.str T), .inr (.inl ⟨h, fun hm => hpre 10 hm rfl, rfl⟩), fun _ => rfl⟩

/-! ### Everything, and a number of characters -/

theorem whole_right (P : Plat) (T : List Nat) : CtxRight P .whole T (RunInv fun _ => True) (RunInv' fun _ => True) := by
  refine ⟨fun _ _ _ h => .inr h, fun v => .inl ⟨rfl, rfl⟩, ?_, ?_⟩
  · intro st v pre b q hE hI hbp
    refine ⟨_, rfl, .inl ?_⟩
    rcases hI with ⟨hc, rfl⟩ | ⟨hc, rfl, _⟩
    · simp [wholeDefine, packStr, hc, RunInv']
    · simp [wholeDefine, packStr, hc, RunInv', strOf]
  · intro st v hI
    obtain ⟨hc, rfl, _⟩ := hI
    exact ⟨_, rfl, by simp, some (.str T), rfl, by simp [hc]⟩

/-- Between blocks: fewer characters than asked for so far. -/
def CharsInv' (n : Nat) (st : St) (v : Val) (pre : List Nat) : Prop := st.copying = true ∧ v = .str pre ∧ pre.length < n

def CharsInv (n : Nat) (st : St) (v : Val) (pre : List Nat) : Prop := (st.copying = false ∧ pre = []) ∨ CharsInv' n st v pre

theorem chars_right (P : Plat) (n : Nat) (T : List Nat) : CtxRight P (.chars n) T (CharsInv n) (CharsInv' n) := by
  refine ⟨fun _ _ _ h => .inr h, fun v => .inl ⟨rfl, rfl⟩, ?_, ?_⟩
  · intro st v pre b q hE hI hbp
    have hpre : pre.length ≤ n := by
      rcases hI with ⟨_, rfl⟩ | ⟨_, _, h⟩
      · simp
      · omega
    have hd : define P (.chars n) st v b = some (packStr st (if b.length < n - pre.length then (true, pre ++ b, [], .part)
        else (true, pre ++ b.take (n - pre.length), b.drop (n - pre.length), .ok))) := by
      rcases hI with ⟨hc, rfl⟩ | ⟨hc, rfl, _⟩
      · simp [define, charsDefine, hc]
      · simp [define, charsDefine, hc, strOf]
    refine ⟨_, hd, ?_⟩
    by_cases h : b.length < n - pre.length
    · left
      rw [if_pos h]
      exact ⟨rfl, rfl, rfl, rfl, by simp; omega⟩
    · right
      rw [if_neg h]
      refine ⟨by simp [packStr], List.drop_suffix _ _, some (.str (pre ++ b.take (n - pre.length))),
        .inr ⟨pre ++ b.take (n - pre.length), b.drop (n - pre.length) ++ q, ?_, ?_, rfl⟩, fun _ => rfl, by simp [packStr]⟩
      · rw [hE]
        conv_lhs => rw [← List.take_append_drop (n - pre.length) b]
        simp only [List.append_assoc]
      · simp; omega
  · intro st v hI
    obtain ⟨hc, rfl, hl⟩ := hI
    exact ⟨_, rfl, by simp, none, .inl ⟨hl, rfl⟩, by simp⟩

end Verif.Scan
