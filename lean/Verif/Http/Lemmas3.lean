import Verif.Http.Lemmas2
/-! # Lemmas: the field iterator -/
namespace Verif.Http
open Verif.Line (FindCfg findCh findCh_eq)

theorem slice_mid {b : HB} {A M B : List Nat} (h : Holds b (A ++ M ++ B)) : b.slice A.length (A.length + M.length) = some M := by
  rw [slice_text h _ _ (Nat.le_add_right _ _) (by simp)]
  simp

theorem findAt_mid {cfg : FindCfg} {b : HB} {A M B : List Nat} (h : Holds b (A ++ M ++ B)) (ch : Nat) (nt : Bool) :
    findAt cfg b ch nt A.length (A.length + M.length) = some (A.length + M.length - (findCh cfg ch nt M).length) := by
  rw [findAt, slice_mid h]; rfl

/-- The field lines from a CR on. -/
def tailText (fs : List Field) : List Nat := fs.flatMap (fun f => CRLF ++ f.text) ++ CRLF ++ CRLF

theorem tailText_cons (f : Field) (fs : List Field) : tailText (f :: fs) = 13 :: 10 :: (f.text ++ tailText fs) := by
  simp [tailText, CRLF]

theorem tailText_head (fs : List Field) : ∃ r, tailText fs = 13 :: r := by
  cases fs with
  | nil => exact ⟨[10, 13, 10], rfl⟩
  | cons f fs => exact ⟨_, tailText_cons f fs⟩

theorem tailText_len (fs : List Field) : 4 ≤ (tailText fs).length := by simp [tailText, CRLF]

theorem no_cr {f : Field} (hv : f.Valid) : 13 ∉ f.text := by
  unfold Field.text
  have := hv.key.1; have := hv.value.1
  cases f.colon <;> simp [List.mem_replicate] <;> tauto

theorem advance_field {cfg : FindCfg} {b : HB} {X : List Nat} {f : Field} {fs : List Field} {g : Gen}
    (hb : Holds b (X ++ tailText (f :: fs))) (hf : Fits cfg (X ++ tailText (f :: fs))) (hv : f.Valid)
    (hlast : g.last = b.len) (hcur : g.valEnd = X.length) :
    ∃ g', advance cfg b g = some g' ∧ g'.deref b = some (f.key, f.value) ∧ g'.cur ≠ g'.last ∧ g'.last = b.len ∧
      g'.valEnd = (X ++ 13 :: 10 :: f.text).length := by
  obtain ⟨r, hr⟩ := tailText_head fs
  have hl := tailText_len fs
  have hft : f.text.length ≠ 0 := by simpa using hv.nonempty
  have hlen : b.len = X.length + (2 + f.text.length + (tailText fs).length) := by
    rw [hb.1, tailText_cons]; simp; omega
  have fits : ∀ A M B : List Nat, X ++ tailText (f :: fs) = A ++ M ++ B → Fits cfg M :=
    fun A M B e h8 c hc => hf h8 c (by rw [e]; simp [hc])
  unfold advance
  simp only
  rw [hlast, hcur, if_neg (by omega)]
  -- to the LF
  have s1 : X ++ tailText (f :: fs) = X ++ tailText (f :: fs) ++ [] := by simp
  have l1 : X.length + (tailText (f :: fs)).length = b.len := by rw [tailText_cons]; simp; omega
  have f1 : findCh cfg 10 false (tailText (f :: fs)) = 10 :: (f.text ++ tailText fs) := by
    have := findCh_first (cfg := cfg) (ch := 10) (a := [13]) (r := f.text ++ tailText fs) (by norm_num)
      (fun h8 c hc => fits _ _ _ s1 h8 c (by rw [tailText_cons]; exact hc)) (by simp)
    rw [tailText_cons]; exact this
  have a1 := findAt_mid (cfg := cfg) (s1 ▸ hb) 10 false
  rw [l1, f1] at a1
  have c1 : b.len - (10 :: (f.text ++ tailText fs)).length = X.length + 1 := by simp; omega
  rw [a1, c1]
  simp only [Option.bind_some]
  rw [if_neg (by omega)]
  -- to the CR
  have s2 : X ++ tailText (f :: fs) = (X ++ [13]) ++ (10 :: f.text ++ tailText fs) ++ [] := by rw [tailText_cons]; simp
  have f2 : findCh cfg 13 false (10 :: f.text ++ tailText fs) = tailText fs := by
    rw [hr]
    refine findCh_first (by norm_num) ?_ ?_
    · rw [← hr]; exact fits _ _ _ s2
    · simp; exact no_cr hv
  have a2 := findAt_mid (cfg := cfg) (s2 ▸ hb) 13 false
  rw [f2] at a2
  have c2 : (X ++ [13]).length + (10 :: f.text ++ tailText fs).length = b.len := by simp; omega
  have c2' : (X ++ [13]).length = X.length + 1 := by simp
  have c2'' : b.len - (tailText fs).length = X.length + 2 + f.text.length := by omega
  rw [c2, c2', c2''] at a2
  rw [a2]
  simp only [Option.bind_some]
  -- the spaces before the key
  have s3 : X ++ tailText (f :: fs) = (X ++ [13, 10]) ++ f.text ++ tailText fs := by rw [tailText_cons]; simp
  let rest := if f.colon then 58 :: (List.replicate f.gap 32 ++ f.value) else []
  have ht : f.text = List.replicate f.indent 32 ++ (f.key ++ rest) := by simp [Field.text, rest]
  have hrest : rest.head? ≠ some 32 := by simp only [rest]; cases f.colon <;> simp
  have hkr : (f.key ++ rest).head? ≠ some 32 := by
    rcases hk : f.key with _ | ⟨x, k⟩
    · simpa using hrest
    · have := hv.key.2.2; rw [hk] at this; simpa using this
  have f3 : findCh cfg 32 true f.text = f.key ++ rest := by
    have h := fits _ _ _ s3
    rw [ht] at h ⊢
    exact findCh_not (by norm_num) h hkr
  have a3 := findAt_mid (cfg := cfg) (s3 ▸ hb) 32 true
  rw [f3] at a3
  have c3 : (X ++ [13, 10]).length = X.length + 2 := by simp
  have htl := congrArg List.length ht
  simp only [List.length_append, List.length_replicate] at htl
  have c3' : X.length + 2 + f.text.length - (f.key ++ rest).length = X.length + 2 + f.indent := by simp; omega
  rw [c3, c3'] at a3
  rw [show X.length + 1 + 1 = X.length + 2 from rfl, a3]
  simp only [Option.bind_some]
  -- the key
  have s4 : X ++ tailText (f :: fs) = (X ++ [13, 10] ++ List.replicate f.indent 32) ++ (f.key ++ rest) ++ tailText fs := by
    rw [s3, ht]; simp
  have f4 : findCh cfg 58 false (f.key ++ rest) = rest := by
    have h := fits _ _ _ s4
    by_cases hc : f.colon = true
    · have e : rest = 58 :: (List.replicate f.gap 32 ++ f.value) := by simp [rest, hc]
      rw [e] at h ⊢
      exact findCh_first (by norm_num) h hv.key.2.1
    · have e : rest = [] := by simp [rest, hc]
      rw [e] at h ⊢
      rw [findCh_eq (by norm_num) h]
      have := Verif.IntScan.dropWhile_append_all (p := fun c => if false = true then c == 58 else c != 58) f.key []
        (by
          intro c hm
          have : c ≠ 58 := by rintro rfl; exact hv.key.2.1 hm
          simpa using this)
      rw [this]; rfl
  have a4 := findAt_mid (cfg := cfg) (s4 ▸ hb) 58 false
  rw [f4] at a4
  have c4 : (X ++ [13, 10] ++ List.replicate f.indent 32).length = X.length + 2 + f.indent := by simp; omega
  have c4' : (X ++ [13, 10] ++ List.replicate f.indent 32).length + (f.key ++ rest).length = X.length + 2 + f.text.length := by
    rw [c4]; simp; omega
  have c4'' : X.length + 2 + f.text.length - rest.length = X.length + 2 + f.indent + f.key.length := by omega
  rw [c4', c4'', c4] at a4
  rw [a4]
  simp only [Option.bind_some]
  -- the key seen
  have hkey : b.slice (X.length + 2 + f.indent) (X.length + 2 + f.indent + f.key.length) = some f.key := by
    have s : X ++ tailText (f :: fs) = (X ++ [13, 10] ++ List.replicate f.indent 32) ++ f.key ++ (rest ++ tailText fs) := by
      rw [s4]; simp
    have := slice_mid (s ▸ hb)
    rwa [c4] at this
  by_cases hc : f.colon = true
  · have e : rest = 58 :: (List.replicate f.gap 32 ++ f.value) := by simp [rest, hc]
    have el := congrArg List.length e
    simp at el
    rw [if_pos (by omega)]
    have s5 : X ++ tailText (f :: fs) = (X ++ [13, 10] ++ List.replicate f.indent 32 ++ f.key ++ [58]) ++
        (List.replicate f.gap 32 ++ f.value) ++ tailText fs := by
      rw [s4, e]; simp
    have a5 := findAt_mid (cfg := cfg) (s5 ▸ hb) 32 true
    rw [findCh_not (by norm_num) (fits _ _ _ s5) hv.value.2] at a5
    have c5 : (X ++ [13, 10] ++ List.replicate f.indent 32 ++ f.key ++ [58]).length = X.length + 2 + f.indent + f.key.length + 1 := by
      simp; omega
    have c5' : (X ++ [13, 10] ++ List.replicate f.indent 32 ++ f.key ++ [58]).length + (List.replicate f.gap 32 ++ f.value).length =
        X.length + 2 + f.text.length := by
      rw [c5]; simp; omega
    rw [c5', c5] at a5
    rw [a5]
    refine ⟨_, rfl, ?_, ?_, rfl, ?_⟩
    · simp only [Gen.deref]
      rw [hkey]
      simp only [Option.bind_some]
      have s6 : X ++ tailText (f :: fs) = (X ++ [13, 10] ++ List.replicate f.indent 32 ++ f.key ++ [58] ++ List.replicate f.gap 32) ++
          f.value ++ tailText fs := by
        rw [s5]; simp
      have := slice_mid (s6 ▸ hb)
      have c6 : (X ++ [13, 10] ++ List.replicate f.indent 32 ++ f.key ++ [58] ++ List.replicate f.gap 32).length =
          X.length + 2 + f.text.length - f.value.length := by simp; omega
      have c6' : (X ++ [13, 10] ++ List.replicate f.indent 32 ++ f.key ++ [58] ++ List.replicate f.gap 32).length + f.value.length =
          X.length + 2 + f.text.length := by simp; omega
      rw [c6', c6] at this
      rw [this]; rfl
    · show X.length + 2 + f.indent ≠ b.len
      omega
    · show X.length + 2 + f.text.length = _
      simp; omega
  · have e : rest = [] := by simp [rest, hc]
    have el : rest.length = 0 := by rw [e]; rfl
    rw [if_neg (by omega)]
    have s5 : X ++ tailText (f :: fs) = (X ++ [13, 10] ++ List.replicate f.indent 32 ++ f.key) ++ [] ++ tailText fs := by
      rw [s4, e]; simp
    have a5 := findAt_mid (cfg := cfg) (s5 ▸ hb) 32 true
    have hnil : findCh cfg 32 true [] = [] := by rw [findCh_eq (by norm_num) (by simp)]; rfl
    rw [hnil] at a5
    have c5 : (X ++ [13, 10] ++ List.replicate f.indent 32 ++ f.key).length = X.length + 2 + f.indent + f.key.length := by
      simp; omega
    have c5' : X.length + 2 + f.indent + f.key.length = X.length + 2 + f.text.length := by omega
    simp only [List.length_nil, Nat.add_zero, Nat.sub_zero] at a5
    rw [c5] at a5
    rw [← c5', a5]
    refine ⟨_, rfl, ?_, ?_, rfl, ?_⟩
    · simp only [Gen.deref]
      rw [hkey]
      simp only [Option.bind_some]
      have := slice_mid (s5 ▸ hb)
      simp only [List.length_nil, Nat.add_zero] at this
      rw [c5] at this
      rw [this, hv.bare (by simpa using hc)]; rfl
    · show X.length + 2 + f.indent ≠ b.len
      omega
    · show X.length + 2 + f.indent + f.key.length = _
      simp; omega

theorem advance_last {cfg : FindCfg} {b : HB} {X : List Nat} {g : Gen}
    (hb : Holds b (X ++ tailText [])) (hlast : g.last = b.len) (hcur : g.valEnd = X.length) :
    advance cfg b g = some ⟨b.len, b.len, b.len, b.len, b.len⟩ := by
  have : b.len = X.length + 4 := by rw [hb.1]; simp [tailText, CRLF]
  unfold advance
  simp only
  rw [hlast, hcur, if_pos (by omega)]

theorem fields_ok {cfg : FindCfg} {b : HB} (fs : List Field) : ∀ (X : List Nat) (g : Gen) (n : Nat),
    Holds b (X ++ tailText fs) → Fits cfg (X ++ tailText fs) → (∀ f ∈ fs, f.Valid) → g.last = b.len → g.valEnd = X.length →
    fs.length ≤ n → (advance cfg b g).bind (collect cfg b n) = some (fs.map (fun f => (f.key, f.value)), true) := by
  induction fs with
  | nil =>
    intro X g n hb hf _ hl hc _
    rw [advance_last hb hl hc, Option.bind_some]
    cases n <;> simp [collect]
  | cons f fs ih =>
    intro X g n hb hf hv hl hc hn
    obtain ⟨n, rfl⟩ : ∃ m, n = m + 1 := ⟨n - 1, by simp at hn; omega⟩
    obtain ⟨g', e, h1, h2, h3, h4⟩ := advance_field hb hf (hv f (by simp)) hl hc
    rw [e, Option.bind_some, collect, if_neg h2, h1, Option.bind_some]
    have ht : X ++ tailText (f :: fs) = (X ++ 13 :: 10 :: f.text) ++ tailText fs := by rw [tailText_cons]; simp
    have := ih _ g' n (ht ▸ hb) (ht ▸ hf) (fun x hx => hv x (by simp [hx])) h3 h4 (by simpa using hn)
    cases hadv : advance cfg b g' with
    | none => rw [hadv] at this; simp at this
    | some g'' =>
      rw [hadv] at this
      simp only [Option.bind_some] at this ⊢
      rw [this]; rfl

/-! ## Well-formed headers end at their first empty line -/

theorem header_text (h : Header) : h.text = h.status ++ tailText h.fields := by
  unfold Header.text tailText
  have : ∀ fs : List Field, CRLF ++ fs.flatMap (fun f => f.text ++ CRLF) = fs.flatMap (fun f => CRLF ++ f.text) ++ CRLF := by
    intro fs
    induction fs with
    | nil => simp
    | cons f fs ih =>
      simp only [List.flatMap_cons, List.append_assoc] at ih ⊢
      rw [ih]
  rw [List.append_assoc, List.append_assoc h.status, ← List.append_assoc CRLF, this]

/-- The strict automaton runs over a line without CR. -/
theorem walk_plain {q : Nat} {l r : List Nat} (hq : q = 0 ∨ q = 2) (h : 13 ∉ l) (hne : q = 2 → l ≠ []) : walk q (l ++ r) = walk 0 r := by
  induction l generalizing q with
  | nil =>
    rcases hq with rfl | rfl
    · rfl
    · exact absurd rfl (hne rfl)
  | cons c l ih =>
    have hc : c ≠ 13 := by rintro rfl; exact h (by simp)
    have hl : 13 ∉ l := fun hm => h (by simp [hm])
    rcases hq with rfl | rfl
    · rw [List.cons_append]; simp only [walk, if_neg hc]
      exact ih (Or.inl rfl) hl (by omega)
    · rw [List.cons_append]; simp only [walk, if_neg hc]
      exact ih (Or.inl rfl) hl (by omega)

theorem walk_tail (fs : List Field) (hv : ∀ f ∈ fs, f.Valid) : walk 0 (tailText fs) = ([], .done) := by
  induction fs with
  | nil => rfl
  | cons f fs ih =>
    rw [tailText_cons]
    show walk 2 (f.text ++ tailText fs) = _
    rw [walk_plain (Or.inr rfl) (no_cr (hv f (by simp))) (fun _ => (hv f (by simp)).nonempty)]
    exact ih (fun x hx => hv x (by simp [hx]))

theorem status_no_cr {h : Header} (hv : h.Valid) : 13 ∉ h.status := by
  have := hv.request.2.2; have := hv.code.2.2; have := hv.reason.1
  unfold Header.status
  simp [List.mem_replicate]
  tauto

theorem header_endsFirst {h : Header} (hv : h.Valid) : EndsFirst h.text := by
  have hw : walk 0 h.text = ([], .done) := by
    rw [header_text, walk_plain (Or.inl rfl) (status_no_cr hv) (by omega)]
    exact walk_tail _ hv.fields
  have := walk_good h.text 0 [] inv_nil
  rw [hw] at this
  obtain ⟨a, e, g⟩ := this
  simp only [List.append_nil] at e
  rw [e]; simpa using g

theorem noLone_plain {l r : List Nat} (h : 13 ∉ l) (hr : NoLoneCR r) : NoLoneCR (l ++ r) := by
  induction l with
  | nil => exact hr
  | cons c l ih =>
    intro p x s e
    rcases p with _ | ⟨y, p⟩
    · simp at e; exact absurd (by simp [e.1]) h
    · simp at e
      exact ih (fun hm => h (by simp [hm])) p x s (by simpa using e.2)

theorem noLone_crlf {r : List Nat} (hr : NoLoneCR r) : NoLoneCR (13 :: 10 :: r) := by
  intro p x s e
  rcases p with _ | ⟨y, _ | ⟨z, p⟩⟩
  · simp at e; exact e.1.symm
  · simp at e
  · simp at e
    exact hr p x s e.2.2

theorem noLone_tail (fs : List Field) (hv : ∀ f ∈ fs, f.Valid) : NoLoneCR (tailText fs) := by
  induction fs with
  | nil =>
    have h0 : NoLoneCR ([] : List Nat) := by intro p x s e; simp at e
    exact noLone_crlf (noLone_crlf h0)
  | cons f fs ih =>
    rw [tailText_cons]
    exact noLone_crlf (noLone_plain (no_cr (hv f (by simp))) (ih (fun x hx => hv x (by simp [hx]))))

theorem header_noLone {h : Header} (hv : h.Valid) : NoLoneCR h.text := by
  rw [header_text]; exact noLone_plain (status_no_cr hv) (noLone_tail _ hv.fields)

end Verif.Http
