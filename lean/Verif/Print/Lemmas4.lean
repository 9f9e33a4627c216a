import Verif.Print.Lemmas3
/-! # Lemmas on `concat` -/
namespace Verif.Print

/-- The characters announced by an argument for `concat`. -/
def Item.need (i : Item) : Nat := i.reserve.getD 0 + i.extra

theorem need_sum (l : List Item) : reserveTotal l + sizeWithScatter l = (l.map Item.need).sum := by
  induction l with
  | nil => rfl
  | cons i t ih =>
    simp only [reserveTotal, sizeWithScatter, List.map_cons, List.sum_cons, Item.need] at ih ⊢
    omega

theorem touched_le {i : Item} (hi : i.Honest) (hp : i.plain = true) :
    (if i.dynamic.isSome || i.reserve.isSome then i.text.length + i.junk.length else i.text.length) ≤ i.need := by
  unfold Item.need Item.extra
  cases hd : i.dynamic with
  | some n =>
    have := hi.dynamic_ok n hd
    simp; omega
  | none =>
    cases hr : i.reserve with
    | some n =>
      have := hi.reserve_ok n hr
      simp; omega
    | none =>
      simp [Item.plain, hr, hd] at hp
      simp [hp]

theorem chainScatter_ok (size : Nat) (line : Bool) (l : List Item) (hr : ∀ i ∈ l, i.Honest ∧ i.plain = true)
    (h : (l.map Item.need).sum + line.toNat ≤ size) : chainScatter size line l = .ok ((l.map Item.text).flatten ++ lf line) := by
  have := chainMem_ok (fun i => i.dynamic.isSome || i.reserve.isSome) line Item.need l (by
    intro i hi
    have := touched_le (hr i hi).1 (hr i hi).2
    rw [List.length_append]
    split_ifs at this ⊢ <;> simpa using this) (List.replicate size 0) 0 (by simpa using h)
  simpa [chainScatter] using this.1

theorem reserveChain_ok {c : StrCfg} (hc : c.Good) (line : Bool) (s : Str) (l : List Item) (hr : ∀ i ∈ l, i.Honest)
    (hn : ∀ i ∈ l, i.reserve ≠ none) (hb : reserveTotal l + line.toNat ≤ c.mx) :
    ∃ s', reserveChain c line s (reserveTotal l + line.toNat) l = .ok s' ∧ s'.content = expected line l := by
  unfold reserveChain
  rcases strReserve_cases hc s (reserveTotal l + line.toNat) with ⟨s', e', g1, _, _, _⟩ | ⟨_, g⟩
  · rw [e']
    have := chainLine_ok s'.cap line l hr hn g1
    show ∃ s'', (chainLine s'.cap line l >>= fun bs => .ok { s' with content := bs }) = .ok s'' ∧ _
    rw [this.1]
    exact ⟨_, rfl, rfl⟩
  · omega

theorem fresh_inv {c : StrCfg} (hc : c.Good) : StrInv c ⟨[], c.fresh⟩ := by
  refine ⟨Nat.zero_le _, fun ha => ⟨?_, ?_⟩⟩
  have h1 := (hc.own ha).2
  have h2 := hc.mx
  all_goals simp only [List.length_nil]
  all_goals omega

theorem concatRef_ok {c : StrCfg} (hc : c.Good) (opt line : Bool) (l : List Item) (h0 : l ≠ []) (hr : ∀ i ∈ l, i.Honest)
    (hl : l.length < 2 ^ 53) (hs : (l.map Item.need).sum < 2 ^ 56) (ht : (expected line l).length < 2 ^ 56) :
    ∃ s', concatRef opt c line ⟨[], c.fresh⟩ l = .ok s' ∧ s'.content = expected line l := by
  have hmx := hc.mx
  have hns := need_sum l
  have hln : line.toNat ≤ 1 := by cases line <;> simp
  unfold concatRef
  by_cases h1 : l.all Item.plain = true
  · rw [if_pos h1]
    simp only []
    by_cases h2 : (l.all fun i => i.reserve.isSome) = true
    · rw [if_pos h2]
      have hn : ∀ i ∈ l, i.reserve ≠ none := fun i hi => by
        have := List.all_eq_true.1 h2 i hi
        exact Option.isSome_iff_ne_none.1 this
      have key := reserveChain_ok hc line ⟨[], c.fresh⟩ l hr hn (by omega)
      cases hsso : c.sso with
      | none => exact key
      | some cap =>
        simp only []
        have hcap := hc.sso cap hsso
        split_ifs with h3
        · match l, h0, key with
          | [i], _, key =>
            simp only []
            split_ifs with h4
            · unfold concatPrecise
              simp only [hsso, Option.getD_some]
              have htl : i.text.length + line.toNat < 2 ^ 56 := by
                have : (expected line [i]).length = i.text.length + line.toNat := by
                  simp only [expected, lf_def, List.length_append, lf_length]; simp
                omega
              by_cases h5 : cap < i.text.length + line.toNat
              · rw [if_pos h5]
                rcases strReserve_cases hc ⟨[], c.fresh⟩ (i.text.length + line.toNat) with ⟨s', e', g1, _, _, _⟩ | ⟨_, g⟩
                · rw [e']
                  refine ⟨{ s' with content := i.text ++ if line then [10] else [] }, if_pos g1, ?_⟩
                  simp [expected]
                · omega
              · rw [if_neg h5]
                refine ⟨{ content := i.text ++ if line then [10] else [], cap := c.fresh }, if_pos ?_, ?_⟩
                · show i.text.length + line.toNat ≤ c.fresh
                  omega
                · simp [expected]
            · exact key
          | i :: j :: t, _, key => exact key
        · have := chainLine_ok c.fresh line l hr hn (by unfold reserveTotal at h3; omega)
          rw [this.1]
          exact ⟨_, rfl, rfl⟩
    · rw [if_neg h2, if_neg (by omega)]
      rcases strReserve_cases hc ⟨[], c.fresh⟩ (reserveTotal l + line.toNat + sizeWithScatter l) with ⟨s', e', g1, _, _, _⟩ | ⟨_, g⟩
      · rw [e']
        have := chainScatter_ok s'.cap line l (fun i hi => ⟨hr i hi, List.all_eq_true.1 h1 i hi⟩) (by omega)
        show ∃ s'', (chainScatter s'.cap line l >>= fun bs => .ok { s' with content := bs }) = .ok s'' ∧ _
        rw [this]
        exact ⟨_, rfl, rfl⟩
      · omega
  · rw [if_neg h1]
    have := printBuffered_ok (str_lawful hc) opt line l (s := ⟨[], c.fresh⟩) (fresh_inv hc) hr (fun i _ => by simp [Fits, strStream]) hl
    match hm : printBuffered opt (strStream c) line ⟨[], c.fresh⟩ l, this with
    | .ok s', this => exact ⟨s', rfl, by simpa using this.2⟩
    | .error .stop, this =>
      have h := this.2
      simp only [List.nil_append] at h
      omega
    | .error .ub, this => exact this.elim

theorem concatBuffer_good {cs : Nat} (h1 : 1 ≤ cs) (h8 : cs ≤ 8) : (concatBuffer cs).Good where
  reserve := fun _ _ _ => Nat.le_refl _
  append := fun _ _ _ => Nat.le_refl _
  sso := by simp [concatBuffer]
  char := ⟨h1, h8⟩
  own := fun _ => ⟨fun _ _ => rfl, by
    show 2048 / cs ≤ 2 ^ 20
    exact Nat.le_trans (Nat.div_le_self _ _) (by decide)⟩

end Verif.Print
