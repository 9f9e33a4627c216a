import Verif.Scan.Drive
/-! Helper lemmas: the specification is functional, and texts of numbers. -/
namespace Verif.Scan
open Verif Verif.IntPrint Verif.IntScan Verif.IoBuf Verif.Line

/-- A text splits in only one way into characters with `p` and a rest that does not begin with one. -/
theorem span_unique {p : Nat → Prop} : ∀ {a r a' r' : List Nat}, a ++ r = a' ++ r' → (∀ c ∈ a, p c) → (∀ c t, r = c :: t → ¬ p c) →
    (∀ c ∈ a', p c) → (∀ c t, r' = c :: t → ¬ p c) → a = a' ∧ r = r'
  | [], r, [], r', h, _, _, _, _ => ⟨rfl, by simpa using h⟩
  | [], r, c :: a', r', h, _, hr, ha', _ => absurd (ha' c (by simp)) (hr c (a' ++ r') (by simpa using h))
  | c :: a, r, [], r', h, ha, _, _, hr' => absurd (ha c (by simp)) (hr' c (a ++ r) (by simpa using h.symm))
  | c :: a, r, c' :: a', r', h, ha, hr, ha', hr' => by
    simp only [List.cons_append, List.cons.injEq] at h
    obtain ⟨h1, h2⟩ := span_unique h.2 (fun x hx => ha x (by simp [hx])) hr (fun x hx => ha' x (by simp [hx])) hr'
    exact ⟨by rw [h.1, h1], h2⟩

theorem append_unique {a r a' r' : List Nat} (h : a ++ r = a' ++ r') (hl : a.length = a'.length) : a = a' ∧ r = r' :=
  List.append_inj h hl

/-- The specification of one argument determines the outcome. -/
theorem reads_functional {w : What} (hw : ∀ bits signed noskipws skipzero base, w = .int bits signed noskipws skipzero base → 2 ≤ base ∧ base ≤ 36)
    {T : List Nat} {o o' : Out} (h : Reads w T o) (h' : Reads w T o') : o = o' := by
  cases w with
  | word =>
    rcases h with ⟨h1, rfl⟩ | ⟨ws, w, r, e, a1, a2, a3, a4, rfl⟩ <;> rcases h' with ⟨h1', rfl⟩ | ⟨ws', w', r', e', b1, b2, b3, b4, rfl⟩
    · rfl
    · cases w' with
      | nil => exact absurd rfl b2
      | cons c t => exact absurd (h1 c (by rw [e']; simp)) (b3 c (by simp))
    · cases w with
      | nil => exact absurd rfl a2
      | cons c t => exact absurd (h1' c (by rw [e]; simp)) (a3 c (by simp))
    · have hh : ∀ {w r : List Nat}, w ≠ [] → (∀ c ∈ w, ¬ IsSpace c) → ∀ c t, w ++ r = c :: t → ¬ IsSpace c := by
        intro w r h0 hw c t he
        cases w with
        | nil => exact absurd rfl h0
        | cons x y =>
          simp only [List.cons_append, List.cons.injEq] at he
          rw [← he.1]; exact hw x (by simp)
      have e2 : ws ++ (w ++ r) = ws' ++ (w' ++ r') := by rw [← List.append_assoc, ← List.append_assoc, ← e, ← e']
      obtain ⟨_, e3⟩ := span_unique e2 a1 (hh a2 a3) b1 (hh b2 b3)
      obtain ⟨rfl, rfl⟩ := span_unique (p := fun c => ¬ IsSpace c) e3 a3 (fun c t h => not_not.mpr (a4 c t h)) b3 (fun c t h => not_not.mpr (b4 c t h))
      rfl
  | token =>
    rcases h with ⟨h1, rfl⟩ | ⟨h1, w, r, e, a3, a4, rfl⟩ <;> rcases h' with ⟨h1', rfl⟩ | ⟨h1', w', r', e', b3, b4, rfl⟩
    · rfl
    · exact absurd h1 h1'
    · exact absurd h1' h1
    · obtain ⟨rfl, rfl⟩ := span_unique (p := fun c => ¬ IsSpace c) (e ▸ e') a3 (fun c t h => not_not.mpr (a4 c t h)) b3 (fun c t h => not_not.mpr (b4 c t h))
      rfl
  | line =>
    have key : ∀ {w r w' r' : List Nat}, w ++ 10 :: r = w' ++ 10 :: r' → 10 ∉ w → 10 ∉ w' → w = w' ∧ r = r' := by
      intro w r w' r' h h1 h2
      obtain ⟨e1, e2⟩ := span_unique (p := fun c => c ≠ 10) h (fun c hc he => h1 (he ▸ hc)) (by intro c t h; simp at h; simp [h.1])
        (fun c hc he => h2 (he ▸ hc)) (by intro c t h; simp at h; simp [h.1])
      exact ⟨e1, by simpa using e2⟩
    rcases h with ⟨h1, rfl⟩ | ⟨h1, h2, rfl⟩ | ⟨w, r, e, h1, rfl⟩ <;> rcases h' with ⟨h1', rfl⟩ | ⟨h1', h2', rfl⟩ | ⟨w', r', e', h1', rfl⟩
    · rfl
    · exact absurd h1 h1'
    · rw [e'] at h1; simp at h1
    · exact absurd h1' h1
    · rfl
    · rw [e'] at h2; simp at h2
    · rw [e] at h1'; simp at h1'
    · rw [e] at h2'; simp at h2'
    · obtain ⟨rfl, rfl⟩ := key (e ▸ e') h1 h1'
      rfl
  | whole => exact h.trans h'.symm
  | chars n =>
    rcases h with ⟨h1, rfl⟩ | ⟨w, r, e, h1, rfl⟩ <;> rcases h' with ⟨h1', rfl⟩ | ⟨w', r', e', h1', rfl⟩
    · rfl
    · rw [e'] at h1; simp at h1; omega
    · rw [e] at h1'; simp at h1'; omega
    · obtain ⟨rfl, rfl⟩ := append_unique (e ▸ e') (h1.trans h1'.symm)
      rfl
  | int bits signed noskipws skipzero base =>
    obtain ⟨p, h, rfl⟩ := h
    obtain ⟨p', h', rfl⟩ := h'
    obtain ⟨hb, hb2⟩ := hw _ _ _ _ _ rfl
    rw [scanSpec_functional hb hb2 h h']
  | fixed n f =>
    rcases h with ⟨h1, rfl⟩ | ⟨w, r, e, h1, rfl⟩ <;> rcases h' with ⟨h1', rfl⟩ | ⟨w', r', e', h1', rfl⟩
    · rfl
    · rw [e'] at h1; simp at h1; omega
    · rw [e] at h1'; simp at h1'; omega
    · obtain ⟨rfl, rfl⟩ := append_unique (e ▸ e') (h1.trans h1'.symm)
      rfl

/-- The bases of the integer arguments are those that exist. -/
def BasesOk (ws : List What) : Prop := ∀ bits signed noskipws skipzero base, What.int bits signed noskipws skipzero base ∈ ws → 2 ≤ base ∧ base ≤ 36

theorem readAll_functional {ws : List What} (hb : BasesOk ws) {T : List Nat} {vs vs' : List Val} {e e' : Option Code} {r r' : List Nat}
    (h : ReadAll ws T vs e r) (h' : ReadAll ws T vs' e' r') : vs = vs' ∧ e = e' ∧ r = r' := by
  induction h generalizing vs' e' r' with
  | done T => cases h'; exact ⟨rfl, rfl, rfl⟩
  | @more w ws T r v vs e rr hr hh ih =>
    have hw : ∀ bits signed noskipws skipzero base, w = .int bits signed noskipws skipzero base → 2 ≤ base ∧ base ≤ 36 :=
      fun b s n z ba he => hb b s n z ba (by rw [← he]; simp)
    cases h' with
    | more hr' hh' =>
      have := reads_functional hw hr hr'
      simp only [Out.mk.injEq, Option.some.injEq, true_and] at this
      obtain ⟨rfl, rfl⟩ := this
      obtain ⟨rfl, rfl, rfl⟩ := ih (fun b s n z ba hm => hb b s n z ba (by simp [hm])) hh'
      exact ⟨rfl, rfl, rfl⟩
    | stop hr' hc =>
      have := reads_functional hw hr hr'
      simp only [Out.mk.injEq] at this
      exact absurd this.2.1.symm hc
  | @stop w ws T r c v hr hc =>
    have hw : ∀ bits signed noskipws skipzero base, w = .int bits signed noskipws skipzero base → 2 ≤ base ∧ base ≤ 36 :=
      fun b s n z ba he => hb b s n z ba (by rw [← he]; simp)
    cases h' with
    | more hr' hh' =>
      have := reads_functional hw hr hr'
      simp only [Out.mk.injEq] at this
      exact absurd this.2.1 hc
    | stop hr' hc' =>
      have := reads_functional hw hr hr'
      simp only [Out.mk.injEq] at this
      exact ⟨rfl, by rw [this.2.1], this.1⟩

/-! ### Texts of numbers -/

theorem sign_decimal {bits : Nat} {signed : Bool} {i : Int} (h : InRange bits signed i) :
    ∃ neg, Sign signed (signText false i) neg ∧ signedValue neg i.natAbs = i := by
  unfold signText Sign signedValue
  by_cases hneg : i < 0
  · refine ⟨true, Or.inr ⟨?_, by rw [if_pos hneg]; rfl, rfl⟩, by simp only [if_true]; omega⟩
    by_contra hsg
    simp only [Bool.not_eq_true] at hsg
    rw [hsg] at h
    simp only [InRange, Bool.false_eq_true, if_false] at h
    omega
  · refine ⟨false, Or.inl ⟨by rw [if_neg hneg]; rfl, rfl⟩, by simp only [Bool.false_eq_true, if_false]; omega⟩

theorem run_mem {b : Nat} {cs ds : List Nat} (h : DigitRun b cs ds) : ∀ c ∈ cs, ∃ d, IsDigit b c d := by
  induction h with
  | nil => simp
  | cons hd _ ih =>
    intro c hm
    rcases List.mem_cons.mp hm with rfl | hm
    · exact ⟨_, hd⟩
    · exact ih c hm

/-- Any other way to find a sign and a non-empty run of digits behind white space finds the same number. -/
theorem run_le {signed : Bool} {ws sgn cs ds rest ws' sgn' d x : List Nat} {neg neg' : Bool} (hws : ∀ c ∈ ws, IsSpace c)
    (hs : Sign signed sgn neg) (hr : DigitRun 10 cs ds) (h0 : cs ≠ []) (hn : NoDigitFirst 10 rest)
    (hE : ws ++ (sgn ++ (cs ++ rest)) = ws' ++ (sgn' ++ (d ++ x))) (hws' : ∀ c ∈ ws', IsSpace c) (hs' : Sign signed sgn' neg')
    (hd0 : d ≠ []) (hd : ∀ c ∈ d, ∃ k, IsDigit 10 c k) : sgn' = sgn ∧ d ++ x = cs ++ rest ∧ d.length ≤ cs.length := by
  have hdig : ∀ {c k : Nat}, IsDigit 10 c k → 48 ≤ c ∧ c < 58 := by
    intro c k h
    obtain ⟨h1, h2 | h2⟩ := h <;> (unfold digitChar at h2; rw [if_pos h1] at h2; omega)
  have hfirst : ∀ {sgn d x : List Nat} {neg : Bool}, Sign signed sgn neg → d ≠ [] → (∀ c ∈ d, ∃ k, IsDigit 10 c k) →
      ∀ c t, sgn ++ (d ++ x) = c :: t → ¬ IsSpace c := by
    intro sgn d x neg hs hd0 hd c t he
    rcases hs with ⟨rfl, _⟩ | ⟨_, rfl, _⟩
    · cases d with
      | nil => exact absurd rfl hd0
      | cons a b =>
        simp only [List.nil_append, List.cons_append, List.cons.injEq] at he
        obtain ⟨k, hk⟩ := hd a (by simp)
        have := hdig hk
        unfold IsSpace; omega
    · simp only [List.cons_append, List.cons.injEq] at he
      unfold IsSpace; omega
  obtain ⟨_, e⟩ := span_unique hE hws (hfirst hs h0 (run_mem hr)) hws' (hfirst hs' hd0 hd)
  have h45 : ∀ {c : Nat} {t : List Nat} {d : List Nat}, d ≠ [] → (∀ c ∈ d, ∃ k, IsDigit 10 c k) → ∀ x, d ++ x = c :: t → c ≠ 45 := by
    intro c t d hd0 hd x he
    cases d with
    | nil => exact absurd rfl hd0
    | cons a b =>
      simp only [List.cons_append, List.cons.injEq] at he
      obtain ⟨k, hk⟩ := hd a (by simp)
      have := hdig hk
      omega
  have key : sgn' = sgn ∧ d ++ x = cs ++ rest := by
    rcases hs with ⟨rfl, _⟩ | ⟨_, rfl, _⟩ <;> rcases hs' with ⟨rfl, _⟩ | ⟨_, rfl, _⟩
    · exact ⟨rfl, by simpa using e.symm⟩
    · exact absurd rfl (h45 h0 (run_mem hr) rest (by simpa using e))
    · exact absurd rfl (h45 hd0 hd x (by simpa using e.symm))
    · exact ⟨rfl, by simpa using e.symm⟩
  refine ⟨key.1, key.2, ?_⟩
  by_contra hlen
  push Not at hlen
  have h1 : (d ++ x).take cs.length = cs := by rw [key.2]; simp
  have h2 : (d ++ x).drop cs.length = rest := by rw [key.2]; simp
  rw [List.drop_append_of_le_length (by omega)] at h2
  obtain ⟨c, t, hc⟩ : ∃ c t, d.drop cs.length = c :: t := by
    cases hh : d.drop cs.length with
    | nil => have := congrArg List.length hh; simp at this; omega
    | cons c t => exact ⟨c, t, rfl⟩
  obtain ⟨k, hk⟩ := hd c (List.mem_of_mem_drop (by rw [hc]; simp : c ∈ d.drop cs.length))
  rw [hc] at h2
  exact hn c _ k h2.symm hk

theorem numeral_len {bits : Nat} {signed : Bool} (hw : Width bits) {i : Int} (h : InRange bits signed i) :
    (numeral 10 i.natAbs).length ≤ maxIntSize bits false 10 := by
  rw [maxIntSize_eq (by omega) _ _ (intMax_ne _ _ hw)]
  apply numeral_length_mono (by omega)
  unfold InRange at h
  unfold intMax
  rcases hw with rfl | rfl | rfl | rfl | rfl <;> cases signed <;> norm_num at h ⊢ <;> omega

/-- Texts of numbers are safe. -/
theorem intSafe_number {P : Plat} (hP : PlatOk P) {bits : Nat} {signed : Bool} (hw : Width bits) {i : Int} (hi : InRange bits signed i) (hi0 : i ≠ 0)
    {ws rest : List Nat} (hws : ∀ c ∈ ws, IsSpace c) (hrest : ∀ c t, rest = c :: t → IsSpace c) (hplain : ∀ c ∈ rest, 9 ≤ c ∧ c < 58) :
    Valid (P.cfg bits signed false false 10) ∧ IntSafe (P.cfg bits signed false false 10) (ws ++ (decimal i ++ rest)) ∧
    Reads (.int bits signed false false 10) (ws ++ (decimal i ++ rest)) ⟨rest, .ok, some (.num i)⟩ := by
  set cfg := P.cfg bits signed false false 10 with hcfg
  have hv : Valid cfg := ⟨by simp [hcfg, Plat.cfg], by simp [hcfg, Plat.cfg], hw, hP.charWidth, hP.simd, by simp [hcfg, Plat.cfg], by simp [hcfg, Plat.cfg]⟩
  obtain ⟨neg, hs, hval⟩ := sign_decimal hi
  set sgn := signText false i with hsgn
  set cs := (numeral 10 i.natAbs).map (digitChar false) with hcs
  have hrun : DigitRun 10 cs (numeral 10 i.natAbs) := numeral_run 10 (by omega) false i.natAbs
  have hnum := numeral_isNumeral (b := 10) (by omega) i.natAbs
  have hcs0 : cs ≠ [] := by simp [hcs, hnum.nonempty]
  have hlen : cs.length ≤ maxIntSize bits false 10 := by rw [hcs, List.length_map]; exact numeral_len hw hi
  have hdig : ∀ {c k : Nat}, IsDigit 10 c k → 48 ≤ c ∧ c < 58 := by
    intro c k h
    obtain ⟨h1, h2 | h2⟩ := h <;> (unfold digitChar at h2; rw [if_pos h1] at h2; omega)
  have hnd : NoDigitFirst 10 rest := by
    intro c t d he hd
    have := hrest c t he
    have := hdig hd
    unfold IsSpace at *; omega
  have hz : (numeral 10 i.natAbs).head? ≠ some 0 := by
    intro h
    have h1 := hnum.no_leading_zero h
    have h2 := hnum.value
    rw [h1] at h2
    simp [digitsValue] at h2
    omega
  have hT : ws ++ (decimal i ++ rest) = ws ++ (sgn ++ (cs ++ rest)) := by simp [decimal, hsgn, hcs]
  have hchars : ∀ c ∈ ws ++ (decimal i ++ rest), 9 ≤ c ∧ c < 58 := by
    intro c hc
    rw [hT] at hc
    simp only [List.mem_append] at hc
    rcases hc with hc | hc | hc | hc
    · have := hws c hc; unfold IsSpace at this; omega
    · rcases hs with ⟨h, _⟩ | ⟨_, h, _⟩ <;> rw [h] at hc <;> simp at hc; omega
    · obtain ⟨k, hk⟩ := run_mem hrun c hc
      have := hdig hk; omega
    · exact hplain c hc
  have h7 : 128 ≤ 2 ^ (P.cw - 1) := by rcases hP.charWidth with h | h | h <;> rw [h] <;> norm_num
  have h8 : 256 ≤ 2 ^ P.cw := by rcases hP.charWidth with h | h | h <;> rw [h] <;> norm_num
  have hfirst : ∀ c t, sgn ++ (cs ++ rest) = c :: t → ¬ IsSpace c := by
    intro c t he
    have hmem : c = 45 ∨ c ∈ cs := by
      rcases hs with ⟨h, _⟩ | ⟨_, h, _⟩
      · rw [h] at he
        cases hh : cs with
        | nil => exact absurd hh hcs0
        | cons a b => rw [hh] at he; simp at he; right; simp [he.1]
      · rw [h] at he; simp at he; left; omega
    rcases hmem with rfl | hm
    · unfold IsSpace; omega
    · obtain ⟨k, hk⟩ := run_mem hrun c hm
      have := hdig hk
      unfold IsSpace; omega
  refine ⟨hv, ⟨⟨fun c hc => ?_, by simp [hcfg, Plat.cfg, NoTrap]⟩, fun _ _ c hc => ?_, ?_, ?_⟩, ?_⟩
  · have := hchars c hc
    show c < 2 ^ P.cw
    omega
  · have := hchars c hc
    refine ⟨this.1, ?_⟩
    show c < 2 ^ (P.cw - 1) + 9
    omega
  · intro p q hpq ws' sgn' neg' t ht hws' hs' _ _ _ h64 k d ds x hk hdr hdz hdn hk0 _
    have hk' := hk0 rfl
    subst hk'
    refine ⟨?_, by simp⟩
    by_cases hd0 : d = []
    · subst hd0; simp; split <;> omega
    have hE : ws ++ (sgn ++ (cs ++ rest)) = ws' ++ (sgn' ++ (d ++ (x ++ q))) := by
      rw [← hT, hpq, ht, hk]; simp
    obtain ⟨_, _, hle⟩ := run_le (signed := signed) hws hs hrun hcs0 hnd hE hws' hs' hd0 (run_mem hdr)
    have hmax : maxIntSize bits false 10 < (if bits < 64 then 16 else 32) := by
      have h64' : bits ≤ 64 := h64
      rcases hw with rfl | rfl | rfl | rfl | rfl
      · decide +kernel
      · decide +kernel
      · decide +kernel
      · decide +kernel
      · omega
    show d.length < (if bits < 64 then 16 else 32)
    omega
  · intro p q hpq hq hbad
    rcases hbad with ⟨_, ws', sgn', neg', hp, hws', hs'⟩ | ⟨ws', sgn', neg', k, d, ds, hp, hws', hs', hdr, hd0, hcap⟩
    · have hE : ws ++ (sgn ++ (cs ++ rest)) = ws' ++ (sgn' ++ ([48] ++ q)) := by
        rw [← hT, hpq, hp]; simp
      obtain ⟨_, he, _⟩ := run_le (signed := signed) hws hs hrun hcs0 hnd hE hws'.2 hs' (by simp) (by
        intro c hc; simp at hc; rw [hc]; exact ⟨0, by omega, Or.inl (by simp [digitChar])⟩)
      cases hdl : numeral 10 i.natAbs with
      | nil => exact hnum.nonempty hdl
      | cons a b =>
        rw [hdl] at hz
        have hcs' : cs = digitChar false a :: b.map (digitChar false) := by rw [hcs, hdl]; rfl
        rw [hcs'] at he
        simp only [List.cons_append, List.nil_append, List.cons.injEq] at he
        have ha : a < 10 := hnum.digits_lt a (by rw [hdl]; simp)
        have := he.1
        unfold digitChar at this
        rw [if_pos ha] at this
        apply hz
        have : a = 0 := by omega
        simp [this]
    · have hdc : d ≠ [] := by rintro rfl; exact hd0 (by have := digitRun_length hdr; exact List.eq_nil_of_length_eq_zero (by simpa using this.symm))
      have hE : ws ++ (sgn ++ (cs ++ rest)) = ws' ++ (sgn' ++ ((List.replicate k 48 ++ d) ++ q)) := by
        rw [← hT, hpq, hp]; simp
      obtain ⟨he, _, hle⟩ := run_le (signed := signed) hws hs hrun hcs0 hnd hE hws'.2 hs' (by simp [hdc]) (by
        intro c hc
        rcases List.mem_append.mp hc with h | h
        · rw [List.eq_of_mem_replicate h]; exact ⟨0, by omega, Or.inl (by simp [digitChar])⟩
        · exact run_mem hdr c h)
      have hsl : sgn'.length ≤ (if signed then 1 else 0) := (sign_length hs').1
      simp only [List.length_append, List.length_replicate] at hle
      have hcap' : (if signed then 1 else 0) + maxIntSize bits false 10 + 2 ≤ sgn'.length + d.length := hcap
      omega
  · refine ⟨⟨rest, .ok, some i⟩, ?_, rfl⟩
    rw [hT]
    refine .num ws _ _ (by simp) hws (fun _ => ⟨by simp [hcs0], hfirst⟩) ?_
    have := NumSpec.ok (bits := bits) (signed := signed) (skipzero := false) (base := 10) sgn cs (numeral 10 i.natAbs) rest neg hs hrun hnum.nonempty hnd
      (fun _ h => absurd h hz) (by rw [hnum.value, hval]; exact hi)
    rw [hnum.value, hval] at this
    simpa using this

end Verif.Scan
