import Verif.Ip.Lemmas
/-! Printing IPv6 addresses. -/
namespace Verif.Ip
open Verif Verif.IntPrint Verif.IntScan

/-! ## The search for the longest run -/

theorem takeWhile_zero (l : List Nat) :
    (∀ k < (l.takeWhile (· == 0)).length, l[k]? = some 0) ∧ l[(l.takeWhile (· == 0)).length]? ≠ some 0 := by
  induction l with
  | nil => simp
  | cons x l ih =>
    by_cases h : x = 0
    · subst h
      simp only [List.takeWhile_cons, beq_self_eq_true, if_true, List.length_cons]
      refine ⟨?_, by simpa using ih.2⟩
      intro k hk
      cases k with
      | zero => rfl
      | succ k => simpa using ih.1 k (by omega)
    · simp [h]

theorem zeroEnd_spec (w : List Nat) (j : Nat) :
    (∀ k, j ≤ k → k < zeroEnd w j → w[k]? = some 0) ∧ w[zeroEnd w j]? ≠ some 0 := by
  obtain ⟨h1, h2⟩ := takeWhile_zero (w.drop j)
  unfold zeroEnd
  refine ⟨?_, ?_⟩
  · intro k hk hk'
    have := h1 (k - j) (by omega)
    rw [List.getElem?_drop] at this
    rwa [show j + (k - j) = k by omega] at this
  · rwa [List.getElem?_drop] at h2

theorem zeroEnd_le (w : List Nat) (j : Nat) (h : j ≤ w.length) : zeroEnd w j ≤ w.length := by
  by_contra hc
  have := (zeroEnd_spec w j).1 (zeroEnd w j - 1) (by omega) (by omega)
  rw [List.getElem?_eq_none (by omega)] at this
  cases this

/-- What the search knows when it has looked at `w[0..i)`. -/
structure RunInv (w : List Nat) (i mp me : Nat) : Prop where
  ile : i ≤ w.length
  found : (mp = w.length ∧ me = w.length) ∨ (mp ≤ i ∧ 2 ≤ me - mp ∧ me ≤ i ∧ ZeroRun w mp (me - mp))
  best : ∀ j m, j < i → ZeroRun w j m → m ≤ max 1 (me - mp) ∧ (m = me - mp → 2 ≤ m → mp ≤ j)

theorem runLoop_spec (w : List Nat) (i mp me : Nat) (h : RunInv w i mp me) :
    RunInv w w.length (runLoop w i mp me).1 (runLoop w i mp me).2 := by
  unfold runLoop
  by_cases hi : i < w.length
  · rw [dif_pos hi]
    by_cases hz : w[i] = 0
    · rw [if_pos hz]
      simp only
      obtain ⟨z1, z2⟩ := zeroEnd_spec w (i + 1)
      have z3 := zeroEnd_le w (i + 1) (by omega)
      have z4 := le_zeroEnd w (i + 1)
      have hall : ∀ k, i ≤ k → k < zeroEnd w (i + 1) → w[k]? = some 0 := by
        intro k h1 h2
        by_cases hk : k = i
        · subst hk; rw [List.getElem?_eq_getElem hi, hz]
        · exact z1 k (by omega) h2
      have hbnd : ∀ j m, i ≤ j → j < zeroEnd w (i + 1) → ZeroRun w j m → m ≤ zeroEnd w (i + 1) - j := by
        intro j m h1 h2 h3
        by_contra hc
        apply z2
        have := h3.2 (zeroEnd w (i + 1) - j) (by omega)
        rwa [show j + (zeroEnd w (i + 1) - j) = zeroEnd w (i + 1) by omega] at this
      generalize zeroEnd w (i + 1) = e at *
      by_cases hc : 1 < e - i ∧ me - mp < e - i
      · rw [if_pos hc]
        apply runLoop_spec
        refine ⟨z3, Or.inr ⟨by omega, by omega, le_refl _, by omega, ?_⟩, ?_⟩
        · intro k hk; exact hall (i + k) (by omega) (by omega)
        · intro j m hj hr
          by_cases hji : j < i
          · have := h.best j m hji hr; omega
          · have := hbnd j m (by omega) hj hr; omega
      · rw [if_neg hc]
        apply runLoop_spec
        refine ⟨z3, ?_, ?_⟩
        · rcases h.found with h' | ⟨h1, h2, h3, h4⟩
          · exact Or.inl h'
          · exact Or.inr ⟨by omega, h2, by omega, h4⟩
        · intro j m hj hr
          by_cases hji : j < i
          · exact h.best j m hji hr
          · have := hbnd j m (by omega) hj hr
            refine ⟨by omega, ?_⟩
            intro h1 h2
            rcases h.found with h' | h'
            · omega
            · omega
    · rw [if_neg hz]
      apply runLoop_spec
      refine ⟨by omega, ?_, ?_⟩
      · rcases h.found with h' | ⟨h1, h2, h3, h4⟩
        · exact Or.inl h'
        · exact Or.inr ⟨by omega, h2, by omega, h4⟩
      · intro j m hj hr
        by_cases hji : j < i
        · exact h.best j m hji hr
        · have : j = i := by omega
          subst this
          have hm : m = 0 := by
            by_contra hm
            have := hr.2 0 (by omega)
            rw [Nat.add_zero, List.getElem?_eq_getElem hi] at this
            exact hz (by simpa using this)
          subst hm; omega
  · rw [dif_neg hi]
    have : i = w.length := by have := h.ile; omega
    subst this; exact h
termination_by w.length - i

/-- The search finds the run RFC 5952 asks for, or there is none. -/
theorem runLoop_best (w : List Nat) :
    let r := runLoop w 0 w.length w.length
    (r = (w.length, w.length) ∧ ∀ j, ¬ ZeroRun w j 2) ∨ (r.1 < r.2 ∧ r.2 ≤ w.length ∧ BestRun w r.1 (r.2 - r.1)) := by
  have h := runLoop_spec w 0 w.length w.length ⟨by omega, Or.inl ⟨rfl, rfl⟩, by intro j m hj; omega⟩
  generalize runLoop w 0 w.length w.length = r at *
  simp only
  rcases h.found with ⟨h1, h2⟩ | ⟨h1, h2, h3, h4⟩
  · refine Or.inl ⟨by rw [← h1]; ext <;> simp [h1, h2], ?_⟩
    intro j hr
    have := h.best j 2 (by have := hr.1; omega) hr
    omega
  · refine Or.inr ⟨by omega, h3, h2, h4, ?_⟩
    intro j m hr
    by_cases hj : j < w.length
    · have := h.best j m hj hr; omega
    · have := hr.1; omega

/-! ## Texts -/

/-- Each text preceded by `:`. -/
def coloned (ts : List (List Nat)) : List Nat := ts.flatMap fun t => 58 :: t

theorem colons_cons (t : List Nat) (ts : List (List Nat)) : colons (t :: ts) = t ++ coloned ts := by
  unfold colons coloned
  induction ts generalizing t with
  | nil => simp
  | cons u us ih => rw [List.intercalate_cons_cons, ih]; simp

theorem colons_nil : colons [] = [] := by simp [colons]

/-- The words as stored, for given groups. -/
abbrev words (little : Bool) (g : List Nat) : List Nat := g.map (netWord little)

variable {little upper full : Bool}

theorem writes_long (g : List Nat) (hg : ∀ x ∈ g, x < 65536) :
    Writes (prtLong little upper full false (words little g)) (coloned (g.map (groupText upper full))) := by
  induction g with
  | nil => exact writes_nil
  | cons x g ih =>
    have h := (writes_put 58).bind ((writes_group little upper full x (hg x (by simp))).bind (ih fun y hy => hg y (by simp [hy])))
    exact h.congr (by intro s; simp [prtLong]) (by simp [coloned])

theorem writes_long_first (g : List Nat) (hg : ∀ x ∈ g, x < 65536) :
    Writes (prtLong little upper full true (words little g)) (colons (g.map (groupText upper full))) := by
  cases g with
  | nil => exact writes_nil.congr (by intro s; rfl) colons_nil.symm
  | cons x g =>
    have h := ((writes_group little upper full x (hg x (by simp))).bind
      (writes_long (little := little) (upper := upper) (full := full) g fun y hy => hg y (by simp [hy])))
    exact h.congr (by intro s; simp [prtLong]) (by simp [colons_cons])

theorem drop_succ_cons {g : List Nat} {i : Nat} (h : i < g.length) : g.drop i = g[i] :: g.drop (i + 1) :=
  List.drop_eq_getElem_cons h

/-- One group. -/
theorem writes_step (g : List Nat) (hg : ∀ x ∈ g, x < 65536) {mp me fuel i : Nat} (hi : i < g.length) (hmp : mp ≠ i)
    {b : List Nat} (hn : Writes (prtShort little upper full (words little g) mp me fuel (i + 1)) b) :
    Writes (prtShort little upper full (words little g) mp me (fuel + 1) i)
      ((if i ≠ 0 ∧ i ≠ me then [58] else []) ++ (groupText upper full g[i] ++ b)) := by
  have hgr := (writes_group little upper full g[i] (hg _ (List.getElem_mem _))).bind hn
  have hne : i ≠ (words little g).length := by simp; omega
  have hget : (words little g)[i]? = some (netWord little g[i]) := by simp [hi]
  by_cases hs : i ≠ 0 ∧ i ≠ me
  · exact ((writes_put 58).bind hgr).congr
      (by intro s; rw [prtShort, if_neg hne, if_neg hmp, hget]; simp [hs]) (by simp [hs])
  · exact hgr.congr (by intro s; rw [prtShort, if_neg hne, if_neg hmp, hget]; simp [hs]) (by simp [hs])

theorem writes_short_tail (g : List Nat) (hg : ∀ x ∈ g, x < 65536) (mp me : Nat)
    : ∀ fuel i, i ≤ g.length → g.length - i < fuel → ((mp < i ∧ me ≤ i) ∨ (mp = g.length ∧ me = g.length)) →
    Writes (prtShort little upper full (words little g) mp me fuel i)
      (if i ≠ 0 ∧ i ≠ me then coloned ((g.drop i).map (groupText upper full))
       else colons ((g.drop i).map (groupText upper full))) := by
  intro fuel
  induction fuel with
  | zero => intro i _ h; omega
  | succ fuel ih =>
    intro i hi hf hm
    by_cases he : i = g.length
    · subst he
      refine writes_nil.congr (by intro s; simp [prtShort]) ?_
      simp [colons_nil, coloned]
    · have hlt : i < g.length := by omega
      have h1 := ih (i + 1) (by omega) (by omega) (by omega)
      have h2 := writes_step g hg hlt (by omega) h1
      refine h2.congr (fun _ => rfl) ?_
      rw [drop_succ_cons hlt, List.map_cons, colons_cons]
      have h3 : (if i + 1 ≠ 0 ∧ i + 1 ≠ me then coloned ((g.drop (i + 1)).map (groupText upper full))
          else colons ((g.drop (i + 1)).map (groupText upper full))) = coloned ((g.drop (i + 1)).map (groupText upper full)) := by
        by_cases h : i + 1 ≠ 0 ∧ i + 1 ≠ me
        · rw [if_pos h]
        · rw [if_neg h, show g.drop (i + 1) = [] from List.drop_eq_nil_of_le (by omega)]
          simp [colons_nil, coloned]
      rw [h3]
      by_cases h : i ≠ 0 ∧ i ≠ me
      · rw [if_pos h, if_pos h]; simp [coloned]
      · rw [if_neg h, if_neg h]; simp

theorem writes_short_head (g : List Nat) (hg : ∀ x ∈ g, x < 65536) (mp me : Nat) (h1 : mp < me) (h2 : me ≤ g.length)
    : ∀ fuel i, i ≤ mp → g.length - i < fuel →
    Writes (prtShort little upper full (words little g) mp me fuel i)
      ((if i ≠ 0 then coloned (((g.take mp).drop i).map (groupText upper full))
       else colons (((g.take mp).drop i).map (groupText upper full))) ++
       ([58, 58] ++ colons ((g.drop me).map (groupText upper full)))) := by
  intro fuel
  induction fuel with
  | zero => intro i _ h; omega
  | succ fuel ih =>
    intro i hi hf
    by_cases he : mp = i
    · subst he
      have ht := writes_short_tail (little := little) (upper := upper) (full := full) g hg mp me fuel me h2 (by omega) (Or.inl ⟨h1, le_refl _⟩)
      have hw : Writes (fun s : Mem × Nat => some (store s.1 s.2 [58, 58], s.2 + 2)) [58, 58] := by intro m p; rfl
      refine (hw.bind ht).congr ?_ ?_
      · intro s
        rw [prtShort, if_neg (by simp; omega), if_pos rfl]; rfl
      · have : (g.take mp).drop mp = [] := List.drop_eq_nil_of_le (by simp)
        rw [this]; simp [colons_nil, coloned]
    · have hlt : i < g.length := by omega
      have hlt' : i < (g.take mp).length := by simp; omega
      have h3 := ih (i + 1) (by omega) (by omega)
      have h4 := writes_step g hg hlt he h3
      refine h4.congr (fun _ => rfl) ?_
      rw [drop_succ_cons hlt', List.map_cons, colons_cons]
      have : i ≠ me := by omega
      by_cases h : i = 0
      · simp [h]
      · simp [h, this, coloned]

theorem zeroRun_words (g : List Nat) (hg : ∀ x ∈ g, x < 65536) (i n : Nat) :
    ZeroRun (words little g) i n ↔ ZeroRun g i n := by
  unfold ZeroRun
  rw [List.length_map]
  refine and_congr_right fun hle => forall_congr' fun k => forall_congr' fun hk => ?_
  have : i + k < g.length := by omega
  have hx := netWord_zero little g[i + k] (hg _ (List.getElem_mem _))
  simp [this, hx]

theorem bestRun_words (g : List Nat) (hg : ∀ x ∈ g, x < 65536) (i n : Nat) :
    BestRun (words little g) i n ↔ BestRun g i n := by
  unfold BestRun; simp only [zeroRun_words g hg]

/-- The text written for the groups `g`. -/
theorem writes_body (shorten : Bool) (g : List Nat) (hg : ∀ x ∈ g, x < 65536) :
    ∃ txt, IsV6Text shorten upper full g txt ∧
      Writes (fun s => prtIn6addr little shorten upper false full (words little g) s) txt := by
  cases shorten
  · exact ⟨_, by simp [IsV6Text], (writes_long_first (little := little) (upper := upper) (full := full) g hg).congr (by intro s; simp [prtIn6addr]) rfl⟩
  · have hb := runLoop_best (words little g)
    simp only at hb
    rcases hr : runLoop (words little g) 0 (words little g).length (words little g).length with ⟨mp, me⟩
    rw [hr] at hb
    have hbody : ∀ s, prtIn6addr little true upper false full (words little g) s =
        prtShort little upper full (words little g) mp me ((words little g).length + 1) 0 s := by
      intro s; simp only [prtIn6addr, Bool.false_eq_true, if_false, if_true, hr]
    rcases hb with ⟨h1, h2⟩ | ⟨h1, h2, h3⟩
    · simp only [Prod.mk.injEq, List.length_map] at h1
      have ht := writes_short_tail (little := little) (upper := upper) (full := full) g hg mp me (g.length + 1) 0 (by omega) (by omega) (Or.inr h1)
      refine ⟨_, ?_, ht.congr (by intro s; rw [hbody]; simp) rfl⟩
      simp only [IsV6Text, if_true]
      refine Or.inr ⟨?_, by simp⟩
      intro j hj; exact h2 j ((zeroRun_words g hg j 2).mpr hj)
    · have ht := writes_short_head (little := little) (upper := upper) (full := full) g hg mp me h1 (by simpa using h2) (g.length + 1) 0 (by omega) (by omega)
      refine ⟨_, ?_, ht.congr (by intro s; rw [hbody]; simp) rfl⟩
      simp only [IsV6Text, if_true]
      refine Or.inl ⟨mp, me - mp, (bestRun_words g hg _ _).mp h3, ?_⟩
      rw [show mp + (me - mp) = me by simp only at h1; omega]
      simp [ascii]

/-- Brackets. -/
theorem writes_in6addr (shorten bracket : Bool) (g : List Nat) (hg : ∀ x ∈ g, x < 65536) :
    ∃ txt, IsV6Text shorten upper full g txt ∧
      Writes (prtIn6addr little shorten upper bracket full (words little g))
        (if bracket then ascii "[" ++ txt ++ ascii "]" else txt) := by
  obtain ⟨txt, h1, h2⟩ := writes_body (little := little) (upper := upper) (full := full) shorten g hg
  refine ⟨txt, h1, ?_⟩
  cases bracket
  · exact h2
  · refine ((writes_put 91).bind (h2.bind (writes_put 93))).congr ?_ (by simp [ascii])
    intro s
    simp only [Option.bind_some, prtIn6addr, if_true, Bool.false_eq_true, if_false, Option.map_eq_bind]
    rfl

end Verif.Ip
