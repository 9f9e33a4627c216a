import Verif.To.Model
import Verif.Print.Lemmas4
import Verif.IntScan.Props
/-! Lemmas about `to`. -/
namespace Verif.To
open Verif Verif.Print Verif.IntScan

/-- The piecewise scan of texts that are already there. -/
def piecesLoop {S V : Type} (step : S → List Nat → Option (S × List Nat × Code × Option V)) (eof : S → Option (Code × Option V)) :
    S → List (List Nat) → R (Res V)
  | s, [] => result (eof s)
  | s, l :: rest =>
    match step s l with
    | none => .error .ub
    | some (s, l', c, v) => if l' ≠ [] then result (some (c, v)) else piecesLoop step eof s rest

theorem ctxLoop_eq {S V B : Type} {step : S → List Nat → Option (S × List Nat × Code × Option V)}
    {eof : S → Option (Code × Option V)} {fetch : B → Item → R (B × List Nat)} (items : List Item)
    (h : ∀ b, ∀ i ∈ items, ∃ b', fetch b i = .ok (b', i.text)) : ∀ b s,
    ctxLoop step eof fetch b s items = piecesLoop step eof s (items.map Item.text) := by
  induction items with
  | nil => intro b s; rfl
  | cons i t ih =>
    intro b s
    obtain ⟨b', e⟩ := h b i (by simp)
    simp only [ctxLoop, e, List.map_cons, piecesLoop]
    cases step s i.text with
    | none => rfl
    | some r =>
      obtain ⟨s', l', c, v⟩ := r
      simp only
      split
      · rfl
      · exact ih (fun b i hi => h b i (by simp [hi])) b' s'

theorem foldl_max_ge (l : List Nat) : ∀ a, a ≤ l.foldl max a ∧ ∀ x ∈ l, x ≤ l.foldl max a := by
  induction l with
  | nil => simp
  | cons y t ih =>
    intro a
    have h := ih (max a y)
    refine ⟨le_trans (Nat.le_max_left _ _) h.1, ?_⟩
    intro x hx
    rcases List.mem_cons.1 hx with rfl | hx
    · exact le_trans (Nat.le_max_right _ _) h.1
    · exact h.2 x hx

theorem le_maxReserve {items : List Item} {i : Item} (h : i ∈ items) {n : Nat} (hn : i.reserve = some n) : n ≤ maxReserve items :=
  (foldl_max_ge _ 0).2 n (List.mem_map.2 ⟨i, h, by simp [hn]⟩)

theorem le_maxDynamic {items : List Item} {i : Item} (h : i ∈ items) {n : Nat} (hn : i.dynamic = some n) : n ≤ maxDynamic items :=
  (foldl_max_ge _ 0).2 n (List.mem_map.2 ⟨i, h, by simp [hn]⟩)

/-- No argument that only announces the size of its type stands beside one whose size depends on its value, unless the larger
of the latter happens to suffice. -/
def Mixable (items : List Item) : Prop :=
  (∀ i ∈ items, i.scatter = true ∨ i.reserve ≠ none) ∨
  (∀ i ∈ items, i.scatter = true ∨ i.text.length + i.junk.length ≤ maxDynamic items)

theorem fetchArray_ok {items : List Item} (hr : ∀ i ∈ items, i.Honest) (hm : Mixable items) :
    ∀ b, ∀ i ∈ items, ∃ b', fetchArray (pieceSize items) b i = .ok (b', i.text) := by
  intro b i hi
  unfold fetchArray
  by_cases hs : i.scatter = true
  · rw [if_pos hs]; exact ⟨(), rfl⟩
  · rw [if_neg hs]
    have key : i.text.length + i.junk.length ≤ pieceSize items := by
      unfold pieceSize
      rw [if_neg (by intro h; exact hs (List.all_eq_true.1 h i hi))]
      by_cases ha : (items.all fun i => i.reserve.isSome || i.scatter) = true
      · rw [if_pos ha]
        have := List.all_eq_true.1 ha i hi
        simp only [hs, Bool.or_false] at this
        obtain ⟨n, hn⟩ := Option.isSome_iff_exists.1 (by simpa using this)
        exact le_trans ((hr i hi).reserve_ok n hn) (le_maxReserve hi hn)
      · rw [if_neg ha]
        rcases hm with hm | hm
        · refine absurd (List.all_eq_true.2 ?_) ha
          intro j hj
          rcases hm j hj with h | h
          · simp [h]
          · simp [Option.isSome_iff_ne_none.2 h]
        · rcases hm i hi with h | h
          · exact absurd h hs
          · exact h
    have : intoArray (pieceSize items) false i = .ok i.text := by
      unfold intoArray
      simp only [Bool.false_eq_true, if_false, List.append_nil]
      rw [if_pos (by omega)]
    rw [this]
    exact ⟨(), rfl⟩

/-- An argument that only has a `print_define` makes a single `write`. -/
def OneWrite (i : Item) : Prop := i.plain = true ∨ ∃ l, i.custom = some [.write l]

theorem storeAt_zero {mem bs : List Nat} (h : bs.length ≤ mem.length) :
    ∃ m, storeAt mem 0 bs = .ok m ∧ m.take bs.length = bs := by
  unfold storeAt
  rw [if_pos (by omega)]
  exact ⟨_, rfl, by simp⟩

theorem dynWrite_ok (b : DynBuf) (bs : List Nat) (h0 : b.curr = 0) :
    ∃ b', DynBuf.write b bs = .ok b' ∧ b'.out = bs := by
  unfold DynBuf.write
  by_cases h : b.mem.length - b.curr < bs.length
  · rw [if_pos h]
    simp only []
    generalize hn : (if (if (2 ^ 64 - 1) / 2 < b.mem.length then 2 ^ 64 - 1 else b.mem.length * 2) < b.mem.length + bs.length then
        b.mem.length + bs.length else if (2 ^ 64 - 1) / 2 < b.mem.length then 2 ^ 64 - 1 else b.mem.length * 2) = n
    have hle : bs.length ≤ n := by
      rw [← hn]; split_ifs <;> omega
    have e : b.realloc n = .ok ⟨List.replicate n 0, 0⟩ := by
      unfold DynBuf.realloc
      rw [if_pos (by omega), h0]; simp
    rw [e]
    obtain ⟨m, e1, e2⟩ := storeAt_zero (mem := List.replicate n 0) (bs := bs) (by simpa using hle)
    show ∃ b', (storeAt (List.replicate n 0) 0 bs >>= fun m => Except.ok (⟨m, 0 + bs.length⟩ : DynBuf)) = .ok b' ∧ _
    rw [e1]
    exact ⟨⟨m, 0 + bs.length⟩, rfl, by simp [DynBuf.out, e2]⟩
  · rw [if_neg h]
    obtain ⟨m, e1, e2⟩ := storeAt_zero (mem := b.mem) (bs := bs) (by omega)
    rw [e1]
    exact ⟨⟨m, bs.length⟩, rfl, by simp [DynBuf.out, e2]⟩

theorem dynPlace_ok (b : DynBuf) (i : Item) (h0 : b.curr = 0) (n : Nat) (hn : i.text.length + i.junk.length ≤ n) :
    ∃ b', (if n < dynStream.room b then place dynStream b false i
      else intoArray n false i >>= fun bs => dynStream.write b bs) = .ok b' ∧ b'.out = i.text := by
  by_cases h : n < dynStream.room b
  · rw [if_pos h]
    have h' : n < b.mem.length - b.curr := h
    unfold place
    simp only [Bool.false_eq_true, if_false, List.append_nil]
    rw [if_pos (by show _ ≤ b.mem.length - b.curr ∧ _ ≤ b.mem.length - b.curr; omega)]
    exact ⟨_, rfl, by simp [dynStream, DynBuf.out, h0]⟩
  · rw [if_neg h]
    have : intoArray n false i = .ok i.text := by
      unfold intoArray
      simp only [Bool.false_eq_true, if_false, List.append_nil]
      rw [if_pos (by omega)]
    rw [this]
    exact dynWrite_ok b i.text h0

theorem dynControl_ok {i : Item} (hi : i.Honest) (ho : OneWrite i) (b : DynBuf) (h0 : b.curr = 0) :
    ∃ b', control dynStream false b i = .ok b' ∧ b'.out = i.text := by
  unfold Print.control
  by_cases hs : i.scatter = true
  · rw [if_pos hs]
    exact dynWrite_ok b i.text h0
  · rw [if_neg hs]
    cases hr : i.reserve with
    | some n =>
      exact dynPlace_ok b i h0 n (hi.reserve_ok n hr)
    | none =>
      cases hd : i.dynamic with
      | some n =>
        simp only []
        unfold controlDynamic
        have := hi.dynamic_small n hd
        rw [if_neg (by simp; omega)]
        exact dynPlace_ok b i h0 n (hi.dynamic_ok n hd)
      | none =>
        rcases ho with hp | ⟨l, hl⟩
        · simp [Item.plain, hs, hr, hd] at hp
        · simp only [hl]
          have ht : l = i.text := by simpa [Prim.text] using hi.custom_ok _ hl
          obtain ⟨b', e1, e2⟩ := dynWrite_ok b l h0
          refine ⟨b', ?_, by rw [e2, ht]⟩
          simp only [runPrims, Bool.false_eq_true, if_false]
          show (((DynBuf.write b l >>= fun s => Except.ok s) >>= fun s => Except.ok s) : R DynBuf) = _
          rw [e1]; rfl

theorem fetchDyn_ok {items : List Item} (hr : ∀ i ∈ items, i.Honest) (ho : ∀ i ∈ items, OneWrite i) :
    ∀ b, ∀ i ∈ items, ∃ b', fetchDyn b i = .ok (b', i.text) := by
  intro b i hi
  obtain ⟨b', e1, e2⟩ := dynControl_ok (hr i hi) (ho i hi) { b with curr := 0 } rfl
  refine ⟨b', ?_⟩
  simp only [fetchDyn, e1, e2]

theorem toChain_ok (size : Nat) (items : List Item) (sz : Item → Nat)
    (h : ∀ i ∈ items, (if i.scatter then i.text.length else i.text.length + i.junk.length) ≤ sz i)
    (hs : (items.map sz).sum ≤ size) : toChain size items = .ok (items.map Item.text).flatten := by
  have := chainMem_ok (fun i => !i.scatter) false sz items (by
    intro i hi
    have := h i hi
    rw [List.length_append]
    cases hs : i.scatter <;> simp [hs] at this ⊢ <;> omega) (List.replicate size 0) 0 (by simpa using hs)
  simpa [toChain, lf] using this.1

theorem printAll_ok {items : List Item} (hr : ∀ i ∈ items, i.Honest) (hp : ∀ i ∈ items, i.plain = true)
    (hx : (∀ i ∈ items, i.reserve ≠ none) ∨ ∀ i ∈ items, i.scatter = true ∨ i.dynamic ≠ none)
    (hs : sizeWithScatter items < 2 ^ 64) :
    printAll items = .ok (items.map Item.text).flatten := by
  unfold printAll
  by_cases h1 : items.all Item.scatter = true ∧ items.length = 1
  · rw [if_pos h1]
  · rw [if_neg h1]
    by_cases h2 : (items.all fun i => i.reserve.isSome) = true
    · rw [if_pos h2]
      refine toChain_ok _ items (fun i => i.reserve.getD 0) ?_ (by simp [reserveTotal])
      intro i hi
      obtain ⟨n, hn⟩ := Option.isSome_iff_exists.1 (List.all_eq_true.1 h2 i hi)
      have := (hr i hi).reserve_ok n hn
      simp only [hn, Option.getD_some]
      split <;> omega
    · rw [if_neg h2, if_neg (by omega)]
      refine toChain_ok _ items Item.extra ?_ (by simp [sizeWithScatter])
      intro i hi
      rcases hx with hx | hx
      · exact absurd (List.all_eq_true.2 fun i hi => Option.isSome_iff_ne_none.2 (hx i hi)) h2
      · unfold Item.extra
        cases hd : i.dynamic with
        | some n =>
          have := (hr i hi).dynamic_ok n hd
          simp only []; split <;> omega
        | none =>
          rcases hx i hi with h | h
          · simp [h]
          · exact absurd hd h

/-! ## Integers -/

/-- The code is not `part`. -/
def NP (x : Option (Nat × Code × Nat)) : Prop := ∀ r, x = some r → r.2.1 ≠ .part

theorem NP.ite {p : Prop} [Decidable p] {x y : Option (Nat × Code × Nat)} (hx : NP x) (hy : NP y) : NP (if p then x else y) := by
  by_cases h : p
  · rw [if_pos h]; exact hx
  · rw [if_neg h]; exact hy

theorem NP.some {n : Nat} {c : Code} {m : Nat} (h : c ≠ .part) : NP (some (n, c, m)) := by
  intro r hr; cases hr; exact h

theorem NP.bind {α : Type} {x : Option α} {f : α → Option (Nat × Code × Nat)} (h : ∀ a, NP (f a)) : NP (x.bind f) := by
  intro r hr
  obtain ⟨a, _, ha⟩ := Option.bind_eq_some_iff.1 hr
  exact h a r ha

theorem sseParse_not_part {small : Bool} {l : List Nat} {r : Nat × Code × Nat} (h : sseParse small l = some r) :
    r.2.1 ≠ .part := by
  suffices H : NP (sseParse small l) from H r h
  unfold sseParse
  have h1 : Code.ok ≠ .part := by simp
  have h2 : Code.overflow ≠ .part := by simp
  have h3 : Code.invalid ≠ .part := by simp
  refine NP.bind fun w => NP.ite (.some h3) (NP.ite (NP.ite (NP.bind fun _ => .some h2) (NP.bind fun a => ?_)) (.some h1))
  exact NP.ite (.some h1) (NP.ite (.some h1) (NP.ite (.some h1) (NP.ite (.some h1) (NP.ite (NP.ite (.some h2) (NP.ite (.some h2) (.some h1)))
    (NP.ite (NP.bind fun _ => .some h2) (.some h2))))))

theorem finish_not_part (cfg : Cfg) (neg : Bool) (rest : List Nat) (res : Nat) : (finish cfg neg rest res).code ≠ .part := by
  unfold finish
  simp only []
  split_ifs <;> simp

theorem accumulate_not_part {cfg : Cfg} {neg : Bool} {l : List Nat} {o : Outcome} (h : accumulate cfg neg l = some o) :
    o.code ≠ .part := by
  unfold accumulate at h
  split at h
  · unfold sseBranch at h
    obtain ⟨r, hr, h⟩ := Option.bind_eq_some_iff.1 h
    have := sseParse_not_part hr
    split_ifs at h
    · cases h; exact this
    · cases h; simp
    · cases h; exact finish_not_part _ _ _ _
  · unfold scalarBranch at h
    obtain ⟨r, hr, h⟩ := Option.bind_eq_some_iff.1 h
    split_ifs at h
    · cases h; simp
    · cases h; exact finish_not_part _ _ _ _

theorem afterSign_not_part {cfg : Cfg} {neg : Bool} {l : List Nat} {o : Outcome} (h : afterSign cfg neg l = some o) :
    o.code ≠ .part := by
  unfold afterSign at h
  split at h
  · exact accumulate_not_part h
  · obtain ⟨r, hr, h⟩ := Option.bind_eq_some_iff.1 h
    split at h
    · cases h; simp
    · split_ifs at h
      · unfold afterZero at h
        split_ifs at h
        · simp only [] at h
          split_ifs at h
          · cases h; simp
          · exact accumulate_not_part h
        · split at h
          · cases h; simp
          · obtain ⟨r, hr, h⟩ := Option.bind_eq_some_iff.1 h
            split at h <;> (cases h; simp)
      · exact accumulate_not_part h

theorem scanNoSpace_not_part {cfg : Cfg} {l : List Nat} {o : Outcome} (h : scanNoSpace cfg l = some o) :
    o.code ≠ .part := by
  unfold scanNoSpace at h
  split_ifs at h
  · split at h
    · cases h; simp
    · split_ifs at h
      · exact afterSign_not_part h
      · exact afterSign_not_part h
  · exact afterSign_not_part h

theorem ctxDigit_part {cfg : Cfg} {st : CtxState} {l : List Nat} {s : Step} (h : ctxDigit cfg st l = some s)
    (hp : s.code = .part) : s.rest = [] := by
  unfold ctxDigit at h
  obtain ⟨it, hr, h⟩ := Option.bind_eq_some_iff.1 h
  simp only [] at h
  split_ifs at h
  · cases h; rfl
  · cases h; cases hp
  · obtain ⟨o, ho, h⟩ := Option.bind_eq_some_iff.1 h
    split_ifs at h
    cases h
    exact absurd hp (scanNoSpace_not_part ho)
  · cases h; rfl
  · cases h; cases hp

theorem ctxZero_part {cfg : Cfg} {st : CtxState} {ph : Phase} {l : List Nat} {s : Step} (h : ctxZero cfg st ph l = some s)
    (hp : s.code = .part) : s.rest = [] := by
  unfold ctxZero at h
  cases l with
  | nil => cases h; rfl
  | cons c t =>
    obtain ⟨r, hr, h⟩ := Option.bind_eq_some_iff.1 h
    cases r with
    | none =>
      simp only [] at h
      split_ifs at h <;> (cases h; cases hp)
    | some x =>
      simp only [] at h
      by_cases h48 : c = 48
      · rw [if_pos h48] at h
        generalize (if cfg.skipzero = true then findNoneZero cfg t else t) = t' at h
        cases t' with
        | nil => cases h; rfl
        | cons c' t'' =>
          obtain ⟨r, hr, h⟩ := Option.bind_eq_some_iff.1 h
          cases r with
          | none => cases h; cases hp
          | some x =>
            by_cases hk : cfg.skipzero = true
            · simp only [hk, if_true] at h; exact ctxDigit_part h hp
            · simp only [hk] at h; cases h; cases hp
      · rw [if_neg h48] at h
        exact ctxDigit_part h hp

theorem ctxSign_part {cfg : Cfg} {st : CtxState} {ph : Phase} {l : List Nat} {s : Step} (h : ctxSign cfg st ph l = some s)
    (hp : s.code = .part) : s.rest = [] := by
  unfold ctxSign at h
  split_ifs at h
  · split at h
    · cases h; rfl
    · split_ifs at h <;> exact ctxZero_part h hp
  · exact ctxZero_part h hp

/-- Whenever the scanner asks for more it has used up the range. -/
theorem ctxStep_part {cfg : Cfg} {st : CtxState} {l : List Nat} {s : Step} (h : ctxStep cfg st l = some s)
    (hp : s.code = .part) : s.rest = [] := by
  unfold ctxStep at h
  split at h
  · split_ifs at h
    · exact ctxSign_part h hp
    · simp only [] at h
      split_ifs at h
      · cases h; rfl
      · exact ctxSign_part h hp
  · exact ctxSign_part h hp
  · exact ctxZero_part h hp
  · exact ctxZero_part h hp
  · exact ctxDigit_part h hp
  · split_ifs at h
    · cases h; cases hp
    · unfold ctxZeroInvalid at h
      split at h
      · cases h; rfl
      · cases h
      · obtain ⟨r, hr, h⟩ := Option.bind_eq_some_iff.1 h
        split at h <;> (cases h; cases hp)
  · unfold ctxSkip at h
    obtain ⟨r, hr, h⟩ := Option.bind_eq_some_iff.1 h
    cases h
    simp only [] at hp ⊢
    by_contra hne
    rw [if_neg hne] at hp
    cases hp

theorem isDigit_one {b : Nat} (hb : 2 ≤ b) : IsDigit b 49 1 := ⟨hb, by left; decide⟩

/-- When the scanner has decided, it has seen a character that it does not use. -/
theorem spec_rest_ne {cfg : Cfg} (hv : Valid cfg) {pre : List Nat} {c : Code} {v : Option Int} (hc : c ≠ .part)
    (h : ∀ fut, Spec cfg (pre ++ fut) ⟨fut, c, v⟩) : False := by
  have hb := hv.base_lo
  have h0 : Spec cfg pre ⟨[], c, v⟩ := by simpa using h []
  obtain ⟨t1, ht1, h1⟩ : ∃ t, t = pre ++ [49] ∧ Spec cfg t ⟨[49], c, v⟩ := ⟨_, rfl, h [49]⟩
  have hsp : ¬ IsSpace 49 := by unfold IsSpace; omega
  cases h1 with
  | num ws l _ hw1 hw2 hw3 hn =>
    obtain ⟨t2, ht2, hn⟩ : ∃ t, t = l ∧ NumSpec cfg.bits cfg.signed cfg.skipzero cfg.base t ⟨[49], c, v⟩ := ⟨_, rfl, hn⟩
    cases hn with
    | noDigits sgn rest neg hs hf hn => exact (‹NoDigitFirst cfg.base [49]›) 49 [] 1 rfl (isDigit_one hb)
    | ok sgn cs ds rest neg hs hr h0 hn => exact (‹NoDigitFirst cfg.base [49]›) 49 [] 1 rfl (isDigit_one hb)
    | overflow sgn cs ds rest neg hs hr h0 hn => exact (‹NoDigitFirst cfg.base [49]›) 49 [] 1 rfl (isDigit_one hb)
    | leadingZero sgn c rest neg d hsk hs hd =>
      have hp : pre = ws ++ (sgn ++ [48]) := by
        have : pre ++ [49] = (ws ++ (sgn ++ [48])) ++ [49] := by rw [← ht1, ← ht2]; simp
        exact List.append_cancel_right this
      have hz : Spec cfg pre ⟨[], .ok, some 0⟩ := by
        rw [hp]
        obtain ⟨r, e, hr⟩ := ctxEof_ok hv (.zeroInvalid ws sgn neg hsk ⟨hw1, hw2⟩ hs)
        cases e
        exact hr
      have := scanSpec_functional hv.base_lo hv.base_hi h0 hz
      cases this

/-- An empty range changes nothing, unless zeros are skipped. -/
theorem ctxStep_nil {cfg : Cfg} {st : CtxState} {pre : List Nat} (hi : Inv cfg st pre) (hsk : cfg.skipzero = false) :
    ∃ st', ctxStep cfg st [] = some ⟨st', [], .part, none⟩ ∧ Inv cfg st' pre := by
  cases hi with
  | space ws hw =>
    unfold ctxStep
    simp only []
    by_cases hns : cfg.noskipws = true
    · have hp := hw.1 hns
      subst hp
      rw [if_pos hns]
      unfold ctxSign
      by_cases hsg : cfg.signed = true
      · rw [if_pos hsg]; exact ⟨_, rfl, .sign hsg hns⟩
      · rw [if_neg hsg]; exact ⟨_, rfl, .zeroU (by simpa using hsg) hns⟩
    · rw [if_neg hns]
      have : findSpace cfg [] = [] := List.suffix_nil.1 (findSpace_suffix cfg [])
      rw [if_pos this]
      exact ⟨_, rfl, .space pre hw⟩
  | sign h1 h2 =>
    simp only [ctxStep, ctxSign, h1, if_true]
    exact ⟨_, rfl, .sign h1 h2⟩
  | zeroU h1 h2 => exact ⟨_, rfl, .zeroU h1 h2⟩
  | zeroS ws h1 h2 => exact ⟨_, rfl, .zeroS ws h1 h2⟩
  | zeroSkip ws sgn neg k h => rw [hsk] at h; cases h
  | zeroInvalid ws sgn neg h1 hw hs =>
    simp only [ctxStep, hsk]
    exact ⟨_, rfl, .zeroInvalid ws sgn neg h1 hw hs⟩
  | digit ws sgn neg k cs ds hw hs hk hr h0 hz hcap =>
    simp only [ctxStep, ctxDigit, skipDigits, Option.bind_some]
    simp only [List.length_nil, Nat.sub_zero, List.length_append]
    rw [if_pos (by omega)]
    exact ⟨_, rfl, by simpa using .digit ws sgn neg k cs ds hw hs hk hr h0 hz hcap⟩
  | overflow b ws sgn neg k cs ds hw hs hk hr h0 hz hcap =>
    simp only [ctxStep, ctxSkip, skipDigits, Option.bind_some]
    exact ⟨_, rfl, .overflow b ws sgn neg k cs ds hw hs hk hr h0 hz hcap⟩

theorem spec_value {cfg : Cfg} {l : List Nat} {o : Outcome} (h : Spec cfg l o) : o.code = .ok → ∃ v, o.value = some v := by
  intro ho
  cases h with
  | eof => cases ho
  | num ws l o _ _ _ hn =>
    cases hn with
    | ok => exact ⟨_, rfl⟩
    | noDigits => cases ho
    | leadingZero => cases ho
    | overflow => cases ho

theorem result_spec {cfg : Cfg} {l : List Nat} {o : Outcome} (h : Spec cfg l o) :
    ∃ r, result (some (o.code, o.value)) = .ok r ∧ Answer o r := by
  by_cases ho : o.code = .ok
  · obtain ⟨v, hv⟩ := spec_value h ho
    exact ⟨.value v, by rw [ho, hv]; rfl, .inl ⟨v, ho, hv, rfl⟩⟩
  · refine ⟨.throws o.code, ?_, .inr ⟨ho, rfl⟩⟩
    generalize o.code = c at ho
    generalize o.value = v
    cases c <;> first | exact absurd rfl ho | rfl

theorem pieces_ok {cfg : Cfg} (hv : Valid cfg) (pieces : List (List Nat)) : ∀ {st : CtxState} {pre : List Nat},
    Inv cfg st pre → (∀ l ∈ pieces, Clean cfg l ∧ (cfg.noskipws = false → SpaceSafe cfg l)) →
    (∀ l ∈ pieces, l = [] → cfg.skipzero = false) →
    (∀ a l b, pieces = a ++ l :: b → l ≠ [] → ¬ BadCut cfg (pre ++ a.flatten)) →
    ∃ o r, Spec cfg (pre ++ pieces.flatten) o ∧ Answer o r ∧
      piecesLoop (fun st l => (ctxStep cfg st l).map fun s => (s.st, s.rest, s.code, s.value)) (ctxEof cfg) st pieces = .ok r := by
  induction pieces with
  | nil =>
    intro st pre hi _ _ _
    obtain ⟨p, h1, h2⟩ := ctxEof_ok hv hi
    obtain ⟨r, e, a⟩ := result_spec h2
    refine ⟨_, r, by simpa using h2, a, ?_⟩
    simp only [piecesLoop, h1]
    exact e
  | cons l ls ih =>
    intro st pre hi hcl he hcut
    have next : ∀ st', Inv cfg st' (pre ++ l) → ∃ o r, Spec cfg (pre ++ (l :: ls).flatten) o ∧ Answer o r ∧
      piecesLoop (fun st l => (ctxStep cfg st l).map fun s => (s.st, s.rest, s.code, s.value)) (ctxEof cfg) st' ls = .ok r := by
      intro st' hi'
      obtain ⟨o, r, h1, h2, h3⟩ := ih hi' (fun x hx => hcl x (by simp [hx])) (fun x hx => he x (by simp [hx])) (by
        intro a x b hx hne
        have := hcut (l :: a) x b (by simp [hx]) hne
        simpa using this)
      exact ⟨o, r, by simpa using h1, h2, h3⟩
    by_cases hl : l = []
    · subst hl
      obtain ⟨st', e, hi'⟩ := ctxStep_nil hi (he [] (by simp) rfl)
      simp only [piecesLoop, e, Option.map_some]
      exact next st' (by simpa using hi')
    · obtain ⟨s, e, hs⟩ := ctxStep_ok hv hi l (hcl l (by simp)).1 (hcl l (by simp)).2 (.inl hl)
        (by simpa using hcut [] l ls rfl hl)
      simp only [piecesLoop, e, Option.map_some]
      rcases hs with ⟨hp, hinv⟩ | ⟨hp, hspec⟩
      · rw [if_neg (by rw [ctxStep_part e hp]; simp)]
        exact next _ hinv
      · have hne : s.rest ≠ [] := by
          intro h0
          refine spec_rest_ne hv hp (pre := pre ++ l) (v := s.value) ?_
          intro fut
          have := hspec fut
          rw [h0] at this
          simpa using this
        rw [if_pos hne]
        have := hspec ls.flatten
        obtain ⟨r, e', a⟩ := result_spec this
        exact ⟨_, r, by simpa using this, a, e'⟩

end Verif.To
