import Verif.Ip.Lemmas2
/-! What the printed IPv6 text denotes; the denotation is a function of the text. -/
namespace Verif.Ip
open Verif Verif.IntPrint Verif.IntScan

/-! ## Splitting at colons -/

theorem split_colon {a a' x x' : List Nat} (ha : 58 ∉ a) (ha' : 58 ∉ a') (hx : x = [] ∨ ∃ t, x = 58 :: t)
    (hx' : x' = [] ∨ ∃ t, x' = 58 :: t) (h : a ++ x = a' ++ x') : a = a' ∧ x = x' := by
  induction a generalizing a' with
  | nil =>
    cases a' with
    | nil => exact ⟨rfl, by simpa using h⟩
    | cons c a' =>
      exfalso
      simp only [List.nil_append, List.cons_append] at h
      rcases hx with hx | ⟨t, hx⟩
      · rw [hx] at h; simp at h
      · rw [hx] at h
        simp only [List.cons.injEq] at h
        exact ha' (by simp [← h.1])
  | cons c a ih =>
    cases a' with
    | nil =>
      exfalso
      simp only [List.nil_append, List.cons_append] at h
      rcases hx' with hx' | ⟨t, hx'⟩
      · rw [hx'] at h; simp at h
      · rw [hx'] at h
        simp only [List.cons.injEq] at h
        exact ha (by simp [h.1])
    | cons c' a' =>
      simp only [List.cons_append, List.cons.injEq] at h
      obtain ⟨h1, h2⟩ := ih (a' := a') (by simp at ha; exact ha.2) (by simp at ha'; exact ha'.2) h.2
      exact ⟨by rw [h.1, h1], h2⟩

theorem coloned_form (ts : List (List Nat)) : coloned ts = [] ∨ ∃ t, coloned ts = 58 :: t := by
  cases ts with
  | nil => exact Or.inl rfl
  | cons t ts => exact Or.inr ⟨t ++ coloned ts, by simp [coloned]⟩

theorem coloned_inj : ∀ {ts us : List (List Nat)}, (∀ t ∈ ts, 58 ∉ t) → (∀ t ∈ us, 58 ∉ t) → coloned ts = coloned us → ts = us
  | [], [], _, _, _ => rfl
  | [], u :: us, _, _, h => by simp [coloned] at h
  | t :: ts, [], _, _, h => by simp [coloned] at h
  | t :: ts, u :: us, h1, h2, h => by
    have h' : t ++ coloned ts = u ++ coloned us := by simpa [coloned] using h
    obtain ⟨e1, e2⟩ := split_colon (h1 t (by simp)) (h2 u (by simp)) (coloned_form _) (coloned_form _) h'
    rw [e1, coloned_inj (fun x hx => h1 x (by simp [hx])) (fun x hx => h2 x (by simp [hx])) e2]

theorem colons_inj {ts us : List (List Nat)} (h1 : ∀ t ∈ ts, 58 ∉ t) (h2 : ∀ t ∈ us, 58 ∉ t) (n1 : ts ≠ []) (n2 : us ≠ [])
    (h : colons ts = colons us) : ts = us := by
  apply coloned_inj h1 h2
  cases ts with
  | nil => exact absurd rfl n1
  | cons t ts =>
    cases us with
    | nil => exact absurd rfl n2
    | cons u us =>
      rw [colons_cons, colons_cons] at h
      simp only [coloned, List.flatMap_cons, List.cons_append, List.cons.injEq, true_and]
      exact h

/-- The pieces between the colons of a text with `::`. -/
def pieces (ts us : List (List Nat)) : List (List Nat) :=
  (if ts = [] then [[]] else ts) ++ [] :: (if us = [] then [[]] else us)

theorem coloned_append (a b : List (List Nat)) : coloned (a ++ b) = coloned a ++ coloned b := by simp [coloned]

theorem colons_append {a b : List (List Nat)} (ha : a ≠ []) (hb : b ≠ []) : colons (a ++ b) = colons a ++ 58 :: colons b := by
  cases a with
  | nil => exact absurd rfl ha
  | cons x a =>
    cases b with
    | nil => exact absurd rfl hb
    | cons y b =>
      rw [List.cons_append, colons_cons, colons_cons, colons_cons, coloned_append]
      simp [coloned]

theorem pieces_text (ts us : List (List Nat)) : colons ts ++ ascii "::" ++ colons us = colons (pieces ts us) := by
  have h1 : colons (if ts = [] then [[]] else ts) = colons ts := by split <;> simp_all [colons]
  have h2 : colons (if us = [] then [[]] else us) = colons us := by split <;> simp_all [colons]
  have n1 : (if ts = [] then [[]] else ts) ≠ [] := by split <;> simp_all
  have n2 : (if us = [] then [[]] else us) ≠ [] := by split <;> simp_all
  unfold pieces
  rw [colons_append n1 (by simp), h1, ← List.singleton_append (l := (if us = [] then [[]] else us)),
    colons_append (by simp) n2, h2]
  simp [colons, ascii]

theorem split_empty {a a' b b' : List (List Nat)} (ha : [] ∉ a) (ha' : [] ∉ a') (h : a ++ [] :: b = a' ++ [] :: b') :
    a = a' ∧ b = b' := by
  induction a generalizing a' with
  | nil =>
    cases a' with
    | nil => simpa using h
    | cons c a' => exfalso; simp only [List.nil_append, List.cons_append, List.cons.injEq] at h; exact ha' (by simp [← h.1])
  | cons c a ih =>
    cases a' with
    | nil => exfalso; simp only [List.nil_append, List.cons_append, List.cons.injEq] at h; exact ha (by simp [h.1])
    | cons c' a' =>
      simp only [List.cons_append, List.cons.injEq] at h
      obtain ⟨h1, h2⟩ := ih (a' := a') (by simp at ha; exact ha.2) (by simp at ha'; exact ha'.2) h.2
      exact ⟨by rw [h.1, h1], h2⟩

theorem orEmpty_inj {us us' : List (List Nat)} (h : [] ∉ us) (h' : [] ∉ us')
    (he : (if us = [] then [[]] else us) = (if us' = [] then [[]] else us')) : us = us' := by
  by_cases h1 : us = [] <;> by_cases h2 : us' = []
  · rw [h1, h2]
  · rw [if_pos h1, if_neg h2] at he; exact absurd (by rw [← he]; simp) h'
  · rw [if_neg h1, if_pos h2] at he; exact absurd (by rw [he]; simp) h
  · rwa [if_neg h1, if_neg h2] at he

theorem pieces_inj {ts us ts' us' : List (List Nat)} (h1 : [] ∉ ts) (h2 : [] ∉ us) (h1' : [] ∉ ts') (h2' : [] ∉ us')
    (h : pieces ts us = pieces ts' us') : ts = ts' ∧ us = us' := by
  unfold pieces at h
  by_cases e : ts = [] <;> by_cases e' : ts' = []
  · subst e e'
    simp only [if_true, List.cons_append, List.nil_append, List.cons.injEq, true_and] at h
    exact ⟨rfl, orEmpty_inj h2 h2' h⟩
  · exfalso
    subst e
    rw [if_neg e'] at h
    cases ts' with
    | nil => exact e' rfl
    | cons x t => simp at h; exact h1' (by simp [← h.1])
  · exfalso
    subst e'
    rw [if_neg e] at h
    cases ts with
    | nil => exact e rfl
    | cons x t => simp at h; exact h1 (by simp [h.1])
  · rw [if_neg e, if_neg e'] at h
    obtain ⟨a, b⟩ := split_empty h1 h1' h
    exact ⟨a, orEmpty_inj h2 h2' b⟩

/-! ## Groups -/

theorem readsGroup_shape {t : List Nat} {g : Nat} (h : ReadsGroup t g) : t ≠ [] ∧ 58 ∉ t := by
  obtain ⟨ds, h1, h2, h3, h4⟩ := h
  refine ⟨?_, ?_⟩
  · rintro rfl; rw [← digitRun_length h1] at h2; simp at h2
  · intro hm
    obtain ⟨d, _, hd⟩ := forall₂_mem_left h1 hm
    obtain ⟨h5, h6⟩ := hd
    unfold digitChar at h6
    split at h6 <;> simp at h6 <;> omega
where
  forall₂_mem_left {α β : Type} {R : α → β → Prop} : ∀ {l : List α} {m : List β} {a : α}, List.Forall₂ R l m → a ∈ l → ∃ b ∈ m, R a b
    | _, _, _, .nil, h => by simp at h
    | _, _, _, .cons h hs, hm => by
      rcases List.mem_cons.mp hm with rfl | hm
      · exact ⟨_, by simp, h⟩
      · obtain ⟨b, h1, h2⟩ := forall₂_mem_left hs hm
        exact ⟨b, by simp [h1], h2⟩

theorem digitRun_functional {b : Nat} (hb : b ≤ 36) : ∀ {cs ds es : List Nat}, DigitRun b cs ds → DigitRun b cs es → ds = es
  | _, _, _, .nil, .nil => rfl
  | _, _, _, .cons h hs, .cons h' hs' => by rw [isDigit_unique hb h h', digitRun_functional hb hs hs']

theorem readsGroup_functional {t : List Nat} {g g' : Nat} (h : ReadsGroup t g) (h' : ReadsGroup t g') : g = g' := by
  obtain ⟨ds, h1, _, _, h4⟩ := h
  obtain ⟨es, h1', _, _, h4'⟩ := h'
  rw [← h4, ← h4', digitRun_functional (by omega) h1 h1']

theorem reads_functional : ∀ {ts : List (List Nat)} {g g' : List Nat}, List.Forall₂ ReadsGroup ts g → List.Forall₂ ReadsGroup ts g' → g = g'
  | _, _, _, .nil, .nil => rfl
  | _, _, _, .cons h hs, .cons h' hs' => by rw [readsGroup_functional h h', reads_functional hs hs']

theorem reads_shape : ∀ {ts : List (List Nat)} {g : List Nat}, List.Forall₂ ReadsGroup ts g → [] ∉ ts ∧ ∀ t ∈ ts, 58 ∉ t
  | _, _, .nil => by simp
  | _, _, .cons h hs => by
    have h1 := readsGroup_shape h
    have h2 := reads_shape hs
    refine ⟨by simp; exact ⟨fun e => h1.1 (by simp [e]), h2.1⟩, ?_⟩
    intro t ht
    rcases List.mem_cons.mp ht with rfl | ht
    · exact h1.2
    · exact h2.2 t ht

theorem pieces_colonfree {ts us : List (List Nat)} (h1 : ∀ t ∈ ts, 58 ∉ t) (h2 : ∀ t ∈ us, 58 ∉ t) :
    ∀ t ∈ pieces ts us, 58 ∉ t := by
  intro t ht
  unfold pieces at ht
  simp only [List.mem_append, List.mem_cons] at ht
  rcases ht with ht | ht | ht
  · split at ht
    · simp at ht; simp [ht]
    · exact h1 t ht
  · simp [ht]
  · split at ht
    · simp at ht; simp [ht]
    · exact h2 t ht

theorem pieces_ne (ts us : List (List Nat)) : pieces ts us ≠ [] := by simp [pieces]

/-- A text denotes at most one address. -/
theorem denotes_functional {txt g g' : List Nat} (h : Denotes txt g) (h' : Denotes txt g') : g = g' := by
  have ne_of : ∀ {ts : List (List Nat)} {g : List Nat}, List.Forall₂ ReadsGroup ts g → g.length = 8 → ts ≠ [] := by
    intro ts g h1 h2 h3; subst h3; have := h1.length_eq; simp at this; omega
  have mixed : ∀ {ts us vs : List (List Nat)} {g : List Nat}, List.Forall₂ ReadsGroup ts g → g.length = 8 →
      (∀ t ∈ us, 58 ∉ t) → (∀ t ∈ vs, 58 ∉ t) → colons ts = colons us ++ ascii "::" ++ colons vs → False := by
    intro ts us vs g h1 h2 h3 h4 h5
    rw [pieces_text] at h5
    have := colons_inj (reads_shape h1).2 (pieces_colonfree h3 h4) (ne_of h1 h2) (pieces_ne _ _) h5
    apply (reads_shape h1).1
    rw [this]; simp [pieces]
  generalize ht : txt = txt' at h'
  cases h with
  | long ts _ h1 h2 =>
    cases h' with
    | long ts' _ h1' h2' =>
      have := colons_inj (reads_shape h1).2 (reads_shape h1').2 (ne_of h1 h2) (ne_of h1' h2') ht
      subst this; exact reads_functional h1 h1'
    | short ts' us' _ _ n' r1 r2 _ _ =>
      exact (mixed h1 h2 (reads_shape r1).2 (reads_shape r2).2 ht).elim
  | short ts us g1 g2 n q1 q2 hn hl =>
    cases h' with
    | long ts' _ h1' h2' =>
      exact (mixed h1' h2' (reads_shape q1).2 (reads_shape q2).2 ht.symm).elim
    | short ts' us' g1' g2' n' r1 r2 hn' hl' =>
      rw [pieces_text, pieces_text] at ht
      have hp := colons_inj (pieces_colonfree (reads_shape q1).2 (reads_shape q2).2)
        (pieces_colonfree (reads_shape r1).2 (reads_shape r2).2) (pieces_ne _ _) (pieces_ne _ _) ht
      obtain ⟨e1, e2⟩ := pieces_inj (reads_shape q1).1 (reads_shape q2).1 (reads_shape r1).1 (reads_shape r2).1 hp
      subst e1 e2
      have e3 := reads_functional q1 r1
      have e4 := reads_functional q2 r2
      subst e3 e4
      have : n = n' := by omega
      rw [this]

/-! ## The printed text denotes the address -/

theorem digitRun_map (upper : Bool) (ds : List Nat) (h : ∀ d ∈ ds, d < 16) : DigitRun 16 (ds.map (digitChar upper)) ds := by
  induction ds with
  | nil => exact .nil
  | cons d ds ih =>
    refine .cons ⟨h d (by simp), ?_⟩ (ih fun x hx => h x (by simp [hx]))
    cases upper
    · exact Or.inl rfl
    · exact Or.inr rfl

theorem groupText_reads (upper full : Bool) (g : Nat) (hg : g < 65536) : ReadsGroup (groupText upper full g) g := by
  cases full
  · have hn := numeral_isNumeral (b := 16) (by omega) g
    refine ⟨numeral 16 g, digitRun_map upper _ hn.digits_lt, numeral_length_pos 16 g, ?_, hn.value⟩
    rw [numeral_length_le (by omega) _ _ (by omega)]; norm_num; exact hg
  · refine ⟨padded 16 4 g, digitRun_map upper _ (padded_lt 16 4 g (by omega)), by simp, by simp, ?_⟩
    exact padded_value 16 4 g (by norm_num; exact hg)

theorem groupTexts_read (upper full : Bool) (g : List Nat) (hg : ∀ x ∈ g, x < 65536) :
    List.Forall₂ ReadsGroup (g.map (groupText upper full)) g := by
  induction g with
  | nil => exact .nil
  | cons x g ih => exact .cons (groupText_reads upper full x (hg x (by simp))) (ih fun y hy => hg y (by simp [hy]))

theorem isV6Text_denotes {shorten upper full : Bool} {g txt : List Nat} (hl : g.length = 8) (hg : ∀ x ∈ g, x < 65536)
    (h : IsV6Text shorten upper full g txt) : Denotes txt g := by
  have hlong : Denotes (colons (g.map (groupText upper full))) g := .long _ _ (groupTexts_read upper full g hg) hl
  unfold IsV6Text at h
  split at h
  · rcases h with ⟨i, n, ⟨h1, ⟨h2, h3⟩, _⟩, h5⟩ | ⟨_, h⟩
    · rw [h5]
      have hz : g = g.take i ++ List.replicate n 0 ++ g.drop (i + n) := by
        apply List.ext_getElem?
        intro k
        by_cases k1 : k < i
        · rw [List.append_assoc, List.getElem?_append_left (by simp; omega), List.getElem?_take_of_lt k1]
        · by_cases k2 : k < i + n
          · have := h3 (k - i) (by omega)
            rw [show i + (k - i) = k by omega] at this
            rw [this, List.append_assoc, List.getElem?_append_right (by simp; omega),
              List.getElem?_append_left (by simp; omega), List.getElem?_replicate]
            rw [if_pos (by simp; omega)]
          · rw [List.getElem?_append_right (by simp; omega), List.getElem?_drop]
            congr 1; simp; omega
      have hd := Denotes.short (n := n) _ _ _ _ (groupTexts_read upper full (g.take i) fun x hx => hg x (List.mem_of_mem_take hx))
        (groupTexts_read upper full (g.drop (i + n)) fun x hx => hg x (List.mem_of_mem_drop hx)) (by omega)
        (by simp; omega)
      rw [← hz] at hd; exact hd
    · rw [h]; exact hlong
  · rw [h]; exact hlong

/-! ## Lengths -/

theorem coloned_length (ts : List (List Nat)) (k : Nat) (h : ∀ t ∈ ts, t.length ≤ k) : (coloned ts).length ≤ (k + 1) * ts.length := by
  induction ts with
  | nil => simp [coloned]
  | cons t ts ih =>
    have h1 := h t (by simp)
    have h2 := ih fun x hx => h x (by simp [hx])
    simp only [coloned, List.flatMap_cons, List.length_append, List.length_cons] at *
    rw [Nat.mul_add]; omega

theorem colons_length (ts : List (List Nat)) (k : Nat) (h : ∀ t ∈ ts, t.length ≤ k) : (colons ts).length ≤ (k + 1) * ts.length - 1 := by
  cases ts with
  | nil => simp [colons]
  | cons t ts =>
    have h1 := h t (by simp)
    have h2 := coloned_length ts k fun x hx => h x (by simp [hx])
    rw [colons_cons, List.length_append, List.length_cons, Nat.mul_add]; omega

theorem groupText_length (upper full : Bool) (g : Nat) (hg : g < 65536) : (groupText upper full g).length ≤ 4 := by
  obtain ⟨ds, h1, _, h3, _⟩ := groupText_reads upper full g hg
  rw [digitRun_length h1]; exact h3

theorem isV6Text_length {shorten upper full : Bool} {g txt : List Nat} (hl : g.length = 8) (hg : ∀ x ∈ g, x < 65536)
    (h : IsV6Text shorten upper full g txt) : txt.length ≤ 39 := by
  have hlen : ∀ l : List Nat, (∀ x ∈ l, x < 65536) → (colons (l.map (groupText upper full))).length ≤ 5 * l.length - 1 := by
    intro l hx
    have := colons_length (l.map (groupText upper full)) 4 (by
      intro t ht; obtain ⟨x, h1, rfl⟩ := List.mem_map.mp ht; exact groupText_length upper full x (hx x h1))
    simpa using this
  unfold IsV6Text at h
  split at h
  · rcases h with ⟨i, n, ⟨h1, ⟨h2, h3⟩, _⟩, h5⟩ | ⟨_, h⟩
    · rw [h5]
      have a := hlen (g.take i) fun x hx => hg x (List.mem_of_mem_take hx)
      have b := hlen (g.drop (i + n)) fun x hx => hg x (List.mem_of_mem_drop hx)
      have c : (ascii "::").length = 2 := by decide
      simp only [List.length_append, List.length_take, List.length_drop] at *
      omega
    · rw [h]; have := hlen g hg; omega
  · rw [h]; have := hlen g hg; omega

theorem decText_length (n k : Nat) (hk : 0 < k) (h : n < 10 ^ k) : (decText n).length ≤ k := by
  rw [decText, List.length_map, numeral_length_le (by omega) _ _ hk]; exact h

theorem dotted_length (x : Addr4) (hx : x.Ok) : 7 ≤ (dotted x).length ∧ (dotted x).length ≤ 15 := by
  obtain ⟨h1, h2, h3, h4⟩ := hx
  have e : ∀ n, n < 256 → 1 ≤ (decText n).length ∧ (decText n).length ≤ 3 := by
    intro n hn
    refine ⟨by rw [decText, List.length_map]; exact numeral_length_pos 10 n, decText_length n 3 (by omega) (by omega)⟩
  have a := e _ h1
  have b := e _ h2
  have c := e _ h3
  have d := e _ h4
  simp only [dotted, List.length_append, ascii]; simp; omega

end Verif.Ip
