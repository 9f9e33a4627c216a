import Verif.Utf.Model
import Mathlib.Data.List.Basic
import Mathlib.Tactic.SplitIfs
/-!
# Encodings: prefix-freeness, determinism of `Reads`, what is written
-/
namespace Verif.Utf
open Verif

/-! ## Writing -/

theorem load_eq_iff (m : Mem) (p : Nat) (l : List Nat) :
    load m p l.length = l ↔ ∀ i (h : i < l.length), m (p + i) = l[i] := by
  constructor
  · intro h i hi
    have := List.getElem_of_eq h (i := i) (by simp [load, hi])
    rw [← this]; simp [load]
  · intro h
    apply List.ext_getElem
    · simp [load]
    · intro i h1 h2
      simp [load, h i h2]

theorem Wrote.nil (cap : Nat) (m : Mem) (p : Nat) : Wrote cap m m p [] := ⟨by simp, by simp [load], fun _ _ => rfl⟩

theorem Wrote.put (m : Mem) (p : Nat) (l : List Nat) : Wrote l.length m (store m p l) p l :=
  ⟨le_refl _, load_store m p l, fun a h => store_outside m p l a h⟩

theorem Wrote.mono {cap cap' : Nat} {m m' : Mem} {p : Nat} {l : List Nat} (h : Wrote cap m m' p l) (hc : cap ≤ cap') :
    Wrote cap' m m' p l := ⟨le_trans h.1 hc, h.2.1, fun a ha => h.2.2 a (by omega)⟩

theorem Wrote.append {cap cap1 cap2 : Nat} {m m1 m2 : Mem} {p : Nat} {l1 l2 : List Nat} (h1 : Wrote cap1 m m1 p l1)
    (h2 : Wrote cap2 m1 m2 (p + l1.length) l2) (hc1 : cap1 ≤ cap) (hc2 : l1.length + cap2 ≤ cap) : Wrote cap m m2 p (l1 ++ l2) := by
  obtain ⟨a1, b1, c1⟩ := h1
  obtain ⟨a2, b2, c2⟩ := h2
  refine ⟨by simp; omega, ?_, ?_⟩
  · rw [load_eq_iff] at *
    intro i hi
    by_cases h : i < l1.length
    · rw [List.getElem_append_left h, ← b1 i h]
      exact c2 _ (by omega)
    · rw [List.getElem_append_right (by omega), ← b2 (i - l1.length) (by simp at hi; omega)]
      congr 1; omega
  · intro a ha
    rw [c2 a (by omega), c1 a (by omega)]

/-! ## Reading -/

/-- No character's encoding is a prefix of another's. -/
def PrefixFree (e : Enc) : Prop := (∀ c, enc e c ≠ []) ∧ ∀ c d, Scalar c → Scalar d → enc e c <+: enc e d → c = d

theorem Reads.append {e : Enc} {l cs t b cs' t' : List Nat} (h : Reads e l cs t) (h2 : Reads e (t ++ b) cs' t') :
    Reads e (l ++ b) (cs ++ cs') t' := by
  induction h with
  | done tail _ => exact h2
  | char c rest cs tail hc _ ih => rw [List.append_assoc]; exact .char c _ _ _ hc (ih h2)
  | bad p rest cs tail hp _ ih => rw [List.append_assoc]; exact .bad p _ _ _ hp (ih h2)

theorem Reads.tail_ok {e : Enc} {l cs t : List Nat} (h : Reads e l cs t) : t = [] ∨ Incomplete e t := by
  induction h with
  | done tail h => exact h
  | char _ _ _ _ _ _ ih => exact ih
  | bad _ _ _ _ _ _ ih => exact ih

theorem prefix_cases {a b l : List Nat} (h1 : a <+: l) (h2 : b <+: l) : a <+: b ∨ b <+: a := by
  rcases Nat.le_total a.length b.length with h | h
  · exact Or.inl (List.prefix_of_prefix_length_le h1 h2 h)
  · exact Or.inr (List.prefix_of_prefix_length_le h2 h1 h)

theorem char_not_incomplete {e : Enc} (he : PrefixFree e) {c : Nat} (hc : Scalar c) {t : List Nat} (h : Incomplete e t) :
    ¬ enc e c <+: t := by
  intro hp
  obtain ⟨_, d, hd, h1, h2⟩ := h
  have := he.2 c d hc hd (hp.trans h1)
  subst this
  exact h2 (h1.eq_of_length_le hp.length_le)

theorem bad_not_prefix_incomplete {e : Enc} {p t : List Nat} (hp : Bad e p) (h : Incomplete e t) : ¬ p <+: t := by
  intro hpt
  obtain ⟨_, d, hd, h1, _⟩ := h
  exact (hp.2.1 d hd).2 (hpt.trans h1)

theorem bad_prefix_dropLast {e : Enc} {p q : List Nat} (hp : Bad e p) (hq : Bad e q) (h : p <+: q) : p = q := by
  by_contra hne
  have hlen : p.length < q.length := by
    have := h.length_le
    rcases Nat.lt_or_ge p.length q.length with h' | h'
    · exact h'
    · exact absurd (h.eq_of_length_le h') hne
  have hpd : p <+: q.dropLast := by
    apply List.prefix_of_prefix_length_le h (List.dropLast_prefix q)
    simp; omega
  rcases hq.2.2 with h0 | hi
  · rw [h0] at hpd
    exact hp.1 (List.prefix_nil.mp hpd)
  · exact bad_not_prefix_incomplete hp hi hpd

theorem Reads.det {e : Enc} (he : PrefixFree e) {l cs t : List Nat} (h : Reads e l cs t) :
    ∀ {cs' t' : List Nat}, Reads e l cs' t' → cs' = cs ∧ t' = t := by
  have hbadchar : ∀ {c : Nat} {p r1 r2 : List Nat}, Scalar c → Bad e p → enc e c ++ r1 = p ++ r2 → False := by
    intro c p r1 r2 hc hp heq
    rcases prefix_cases (List.prefix_append (enc e c) r1) (heq ▸ List.prefix_append p r2) with h | h
    · exact (hp.2.1 c hc).1 h
    · exact (hp.2.1 c hc).2 h
  have hdonechar : ∀ {c : Nat} {r1 tl : List Nat}, Scalar c → (tl = [] ∨ Incomplete e tl) → enc e c ++ r1 = tl → False := by
    intro c r1 tl hc ht heq
    rcases ht with ht | ht
    · rw [ht] at heq; exact he.1 c (List.append_eq_nil_iff.mp heq).1
    · exact char_not_incomplete he hc ht (heq ▸ List.prefix_append _ _)
  have hdonebad : ∀ {p r1 tl : List Nat}, Bad e p → (tl = [] ∨ Incomplete e tl) → p ++ r1 = tl → False := by
    intro p r1 tl hp ht heq
    rcases ht with ht | ht
    · rw [ht] at heq; exact hp.1 (List.append_eq_nil_iff.mp heq).1
    · exact bad_not_prefix_incomplete hp ht (heq ▸ List.prefix_append _ _)
  induction h with
  | done tail ht =>
    intro cs' t' h'
    generalize hx : tail = x at h'
    cases h' with
    | done _ _ => exact ⟨rfl, rfl⟩
    | char c rest cs _ hc hr => exact (hdonechar hc ht hx.symm).elim
    | bad p rest cs _ hp hr => exact (hdonebad hp ht hx.symm).elim
  | char c rest cs tail hc hr ih =>
    intro cs' t' h'
    generalize hx : enc e c ++ rest = x at h'
    cases h' with
    | done _ ht => exact (hdonechar hc ht hx).elim
    | char c' rest' cs' _ hc' hr' =>
      have hcc : c = c' := by
        rcases prefix_cases (List.prefix_append (enc e c) rest) (hx ▸ List.prefix_append (enc e c') rest') with h | h
        · exact he.2 _ _ hc hc' h
        · exact (he.2 _ _ hc' hc h).symm
      subst hcc
      have := List.append_cancel_left hx
      subst this
      obtain ⟨h1, h2⟩ := ih hr'
      exact ⟨by rw [h1], h2⟩
    | bad p rest' cs' _ hp hr' => exact (hbadchar hc hp hx).elim
  | bad p rest cs tail hp hr ih =>
    intro cs' t' h'
    generalize hx : p ++ rest = x at h'
    cases h' with
    | done _ ht => exact (hdonebad hp ht hx).elim
    | char c' rest' cs' _ hc' hr' => exact (hbadchar hc' hp hx.symm).elim
    | bad p' rest' cs' _ hp' hr' =>
      have hpp : p = p' := by
        rcases prefix_cases (List.prefix_append p rest) (hx ▸ List.prefix_append p' rest') with h | h
        · exact bad_prefix_dropLast hp hp' h
        · exact (bad_prefix_dropLast hp' hp h).symm
      subst hpp
      have := List.append_cancel_left hx
      subst this
      obtain ⟨h1, h2⟩ := ih hr'
      exact ⟨by rw [h1], h2⟩

theorem Reads.tail_suffix {e : Enc} {l cs t : List Nat} (h : Reads e l cs t) : ∃ a, l = a ++ t := by
  induction h with
  | done tail _ => exact ⟨[], rfl⟩
  | char c rest _ _ _ _ ih => obtain ⟨a, rfl⟩ := ih; exact ⟨enc e c ++ a, by simp⟩
  | bad p rest _ _ _ _ ih => obtain ⟨a, rfl⟩ := ih; exact ⟨p ++ a, by simp⟩

theorem reads_text {e : Enc} : ∀ (cs : List Nat), (∀ c ∈ cs, Scalar c) → ∀ t, (t = [] ∨ Incomplete e t) → Reads e (encText e cs ++ t) cs t
  | [], _, t, ht => .done t ht
  | c :: cs, h, t, ht => by
    have := reads_text cs (fun x hx => h x (by simp [hx])) t ht
    simp only [encText, List.flatMap_cons, List.append_assoc]
    exact .char c _ _ _ (h c (by simp)) this

theorem scalar_fffd : Scalar 0xFFFD := by decide

theorem Reads.scalars {e : Enc} {l cs t : List Nat} (h : Reads e l cs t) : ∀ c ∈ cs, Scalar c := by
  induction h with
  | done _ _ => simp
  | char c _ _ _ hc _ ih => intro x hx; simp at hx; rcases hx with rfl | hx; exacts [hc, ih x hx]
  | bad _ _ _ _ _ _ ih => intro x hx; simp at hx; rcases hx with rfl | hx; exacts [scalar_fffd, ih x hx]

/-! ## Prefix-freeness -/

theorem enc8_ne (c : Nat) : enc8 c ≠ [] := by unfold enc8; split_ifs <;> simp

theorem prefixFree_u8 : PrefixFree .u8 := by
  refine ⟨enc8_ne, ?_⟩
  intro c d hc hd h
  have h1 := hc.1
  have h2 := hd.1
  simp only [enc] at h
  unfold enc8 at h
  split_ifs at h <;> simp [List.cons_prefix_cons] at h <;> omega

theorem prefixFree_u16 : PrefixFree .u16 := by
  refine ⟨fun c => by simp only [enc]; unfold enc16; split_ifs <;> simp, ?_⟩
  intro c d hc hd h
  unfold Scalar at hc hd
  simp only [enc] at h
  unfold enc16 at h
  split_ifs at h <;> simp [List.cons_prefix_cons] at h <;> omega

theorem prefixFree_u32 : PrefixFree .u32 := by
  refine ⟨by simp [enc], ?_⟩
  intro c d hc hd h
  simpa [enc, List.cons_prefix_cons] using h

theorem table_inv : ∀ i < 256, ebcdicToI8.getD (i8ToEbcdic.getD i 0) 0 = i := by decide +kernel

theorem table_inj {i j : Nat} (hi : i < 256) (hj : j < 256) (h : i8ToEbcdic.getD i 0 = i8ToEbcdic.getD j 0) : i = j := by
  rw [← table_inv i hi, ← table_inv j hj, h]

theorem encI8_lt (c : Nat) (hc : c < 0x110000) : ∀ x ∈ encI8 c, x < 256 := by
  unfold encI8
  split_ifs <;> simp <;> omega

theorem encI8_ne (c : Nat) : encI8 c ≠ [] := by unfold encI8; split_ifs <;> simp

theorem map_prefix_inj {f : Nat → Nat} : ∀ {a b : List Nat}, (∀ x ∈ a, x < 256) → (∀ x ∈ b, x < 256) →
    (∀ i < 256, ∀ j < 256, f i = f j → i = j) → a.map f <+: b.map f → a <+: b
  | [], b, _, _, _, _ => List.nil_prefix
  | x :: a, [], _, _, _, h => by simp at h
  | x :: a, y :: b, ha, hb, hf, h => by
    simp only [List.map_cons, List.cons_prefix_cons] at h ⊢
    refine ⟨hf x (ha x (by simp)) y (hb y (by simp)) h.1, map_prefix_inj (fun z hz => ha z (by simp [hz])) (fun z hz => hb z (by simp [hz])) hf h.2⟩

theorem prefixFree_ebcdic : PrefixFree .ebcdic := by
  refine ⟨by simp [enc, encI8_ne], ?_⟩
  intro c d hc hd h
  have h := map_prefix_inj (encI8_lt c hc.1) (encI8_lt d hd.1) (fun i hi j hj h => table_inj hi hj h) h
  have h1 := hc.1
  have h2 := hd.1
  unfold encI8 at h
  split_ifs at h <;> simp [List.cons_prefix_cons] at h <;> omega

theorem prefixFree (e : Enc) : PrefixFree e := by
  cases e
  · exact prefixFree_u8
  · exact prefixFree_u16
  · exact prefixFree_u32
  · exact prefixFree_ebcdic

end Verif.Utf
