import Verif.Gb.Props
import Verif.Utf.Lemmas7
/-!
# GB 18030: conversions of texts
-/
namespace Verif.Gb
open Verif

def Bytes (l : List Nat) : Prop := ∀ x ∈ l, x < 256

/-- What the conversions need of a source. -/
structure Good (s : Source) : Prop where
  total : ∀ l, l ≠ [] → Bytes l → (∃ c n, s.adv l = some (some (c, n)) ∧ Utf.Scalar c ∧ 1 ≤ n ∧ n ≤ l.length) ∨ (s.adv l = some none ∧ l.length < 4)
  ext : ∀ l r q, Bytes (l ++ r) → s.adv l = some (some q) → s.adv (l ++ r) = some (some q)
  least : ∀ l r c n, Bytes (l ++ r) → l ≠ [] → s.adv l = some none → s.adv (l ++ r) = some (some (c, n)) → l.length ≤ n
  ascii : ∀ c l, c < 0x80 → Bytes l → s.adv (c :: l) = some (some (c, 1))
  unchecked : ∀ l q, Bytes l → s.adv l = some (some q) → s.advU l = some q

/-- What they need of a destination. -/
structure Fits (s : Source) (e : Emit) (enc : Nat → List Nat) (f : Nat) : Prop where
  pos : 1 ≤ f
  emit : ∀ c, Utf.Scalar c → e c = some (enc c)
  ascii : ∀ c, c < 0x80 → enc c = [c]
  bound : ∀ l c n, Bytes l → s.adv l = some (some (c, n)) → (enc c).length ≤ f * n

theorem Chars.tail_ok {adv : Adv} {l cs t : List Nat} (h : Chars adv l cs t) : t = [] ∨ adv t = some none := by
  induction h with
  | done t h => exact h
  | char l c n cs t hl ha _ ih => exact ih

theorem Chars.det {adv : Adv} {l cs t : List Nat} (h : Chars adv l cs t) : ∀ {cs' t'}, Chars adv l cs' t' → cs = cs' ∧ t = t' := by
  induction h with
  | done t h =>
    intro cs' t' h2
    cases h2 with
    | done => exact ⟨rfl, rfl⟩
    | char l c n cs t hl ha _ =>
      rcases h with h | h
      · exact absurd h hl
      · rw [h] at ha; cases ha
  | char l c n cs t hl ha _ ih =>
    intro cs' t' h2
    cases h2 with
    | done t h =>
      rcases h with h | h
      · exact absurd h hl
      · rw [h] at ha; cases ha
    | char l c' n' cs' t hl' ha' h2 =>
      rw [ha] at ha'
      simp only [Option.some.injEq, Prod.mk.injEq] at ha'
      obtain ⟨rfl, rfl⟩ := ha'
      obtain ⟨rfl, rfl⟩ := ih h2
      exact ⟨rfl, rfl⟩

theorem Chars.suffix {adv : Adv} {l cs t : List Nat} (h : Chars adv l cs t) : ∃ a, l = a ++ t := by
  induction h with
  | done t h => exact ⟨[], rfl⟩
  | char l c n cs t hl ha _ ih =>
    obtain ⟨a, e⟩ := ih
    exact ⟨l.take n ++ a, by rw [List.append_assoc, ← e, List.take_append_drop]⟩

theorem Chars.append {s : Source} (g : Good s) {l cs t : List Nat} (h : Chars s.adv l cs t) : ∀ {r cs' t'}, Bytes (l ++ r) → Chars s.adv (t ++ r) cs' t' →
    Chars s.adv (l ++ r) (cs ++ cs') t' := by
  induction h with
  | done t h => intro r cs' t' _ h2; exact h2
  | char l c n cs t hl ha _ ih =>
    intro r cs' t' hb h2
    have hbl : Bytes l := fun x hx => hb x (by simp [hx])
    have hn : n ≤ l.length := by
      rcases g.total l hl hbl with ⟨c', n', e, _, _, h'⟩ | ⟨e, _⟩
      · rw [ha] at e
        simp only [Option.some.injEq, Prod.mk.injEq] at e
        omega
      · rw [ha] at e; cases e
    have hd : (l ++ r).drop n = l.drop n ++ r := List.drop_append_of_le_length hn
    refine Chars.char _ c n _ _ (by simp [hl]) (g.ext l r _ hb ha) ?_
    rw [hd]
    refine ih ?_ h2
    intro x hx
    rw [← hd] at hx
    exact hb x (List.mem_of_mem_drop hx)

theorem Bytes.drop {l : List Nat} (h : Bytes l) (n : Nat) : Bytes (l.drop n) := fun x hx => h x (List.mem_of_mem_drop hx)

/-- The loop, character by character. -/
theorem loop8_ok {s : Source} {e : Emit} {enc : Nat → List Nat} {f : Nat} (g : Good s) (w : Fits s e enc f) : ∀ (fuel : Nat) (l : List Nat) (o : Utf.Out), l.length < fuel →
    Bytes l → ∃ cs t, Chars s.adv l cs t ∧ loop8 s e fuel l o = some (t, Utf.put o (cs.flatMap enc)) ∧ (cs.flatMap enc).length + f * t.length ≤ f * l.length
  | 0, _, _, h, _ => by omega
  | fuel + 1, [], o, _, _ => ⟨[], [], .done _ (Or.inl rfl), by simp [loop8, Utf.put_nil], by simp⟩
  | fuel + 1, c :: rest, o, h, hb => by
    simp only [List.length_cons] at h
    rw [loop8]
    by_cases h1 : c < 0x80
    · rw [if_pos h1]
      have hbr : Bytes rest := fun x hx => hb x (by simp [hx])
      obtain ⟨cs, t, e1, e2, e3⟩ := loop8_ok g w fuel rest (Utf.put o [c]) (by omega) hbr
      refine ⟨c :: cs, t, .char _ c 1 _ _ (by simp) (g.ascii c rest h1 hbr) e1, ?_, ?_⟩
      · rw [e2, Utf.put_put, List.flatMap_cons, w.ascii c h1]
      · rw [List.flatMap_cons, w.ascii c h1, List.length_append, List.length_singleton, List.length_cons, Nat.mul_add]
        have := w.pos
        omega
    · rw [if_neg h1]
      rcases g.total (c :: rest) (by simp) hb with ⟨x, n, ha, hx, hn, hn'⟩ | ⟨ha, _⟩
      · rw [ha, Option.bind_some]
        simp only
        rw [w.emit x hx, Option.bind_some]
        have hlen : ((c :: rest).drop n).length = rest.length + 1 - n := by rw [List.length_drop, List.length_cons]
        obtain ⟨cs, t, e1, e2, e3⟩ := loop8_ok g w fuel ((c :: rest).drop n) (Utf.put o (enc x)) (by omega) (hb.drop n)
        refine ⟨x :: cs, t, .char _ x n _ _ (by simp) ha e1, ?_, ?_⟩
        · rw [e2, Utf.put_put, List.flatMap_cons]
        · rw [List.flatMap_cons, List.length_append]
          have hbd := w.bound _ _ _ hb ha
          rw [hlen] at e3
          have : f * (c :: rest).length = f * n + f * (rest.length + 1 - n) := by
            rw [← Nat.mul_add]; congr 1; simp at hn' ⊢; omega
          omega
      · rw [ha, Option.bind_some]
        exact ⟨[], c :: rest, .done _ (Or.inr ha), by simp [Utf.put_nil], by simp⟩

theorem chars_ascii {s : Source} (g : Good s) : ∀ (a : List Nat), (∀ x ∈ a, x < 0x80) → ∀ (l cs t : List Nat), Bytes (a ++ l) → Chars s.adv l cs t →
    Chars s.adv (a ++ l) (a ++ cs) t
  | [], _, _, _, _, _, h => h
  | x :: a, hx, l, cs, t, hb, h => by
    have hb' : Bytes (a ++ l) := fun y hy => hb y (by simp only [List.cons_append, List.mem_cons]; exact Or.inr hy)
    exact .char _ x 1 _ _ (by simp) (g.ascii x _ (hx x (by simp)) hb') (chars_ascii g a (fun y hy => hx y (by simp [hy])) l cs t hb' h)

theorem flat_ascii {enc : Nat → List Nat} (h : ∀ c, c < 0x80 → enc c = [c]) : ∀ a : List Nat, (∀ x ∈ a, x < 0x80) → a.flatMap enc = a
  | [], _ => rfl
  | x :: a, hx => by rw [List.flatMap_cons, h x (hx x (by simp)), flat_ascii h a (fun y hy => hx y (by simp [hy]))]; rfl

/-- The vector loop. -/
theorem sseLoop_ok {s : Source} {e : Emit} {enc : Nat → List Nat} {f : Nat} (g : Good s) (w : Fits s e enc f) : ∀ (fuel : Nat) (l : List Nat) (o : Utf.Out),
    l.length < fuel → Bytes l → ∃ cs l' o', sseLoop s e fuel l o = some (l', o') ∧ Bytes l' ∧ Output (f * l.length) o o' (cs.flatMap enc) ∧
      (cs.flatMap enc).length + f * l'.length ≤ f * l.length ∧ (∀ cs2 t, Chars s.adv l' cs2 t → Chars s.adv l (cs ++ cs2) t)
  | 0, _, _, h, _ => by omega
  | fuel + 1, l, o, h, hb => by
    have hf := w.pos
    unfold sseLoop
    split_ifs with h16
    · rcases l with _ | ⟨c, rest⟩
      · simp at h16
      · simp only
        split_ifs with hc
        · obtain ⟨A, hA⟩ : ∃ A, A = ((c :: rest).take 16).takeWhile (· < 0x80) := ⟨_, rfl⟩
          rw [← hA]
          have hA1 : ∀ x ∈ A, x < 0x80 := by
            intro x hx
            have := List.all_eq_true.mp (List.all_takeWhile (p := (· < 0x80)) (l := (c :: rest).take 16)) x (by rw [← hA]; exact hx)
            simpa using this
          have hpre : A <+: (c :: rest).take 16 := by rw [hA]; exact List.takeWhile_prefix _
          have hpre2 : A <+: c :: rest := hpre.trans (List.take_prefix _ _)
          obtain ⟨B, hB⟩ := hpre
          obtain ⟨l1, hl1⟩ := hpre2
          have hA2 : 1 ≤ A.length := by rw [hA]; simp [List.takeWhile_cons, hc]
          have hdrop : (c :: rest).drop A.length = l1 := by rw [← hl1]; simp
          have hlen := congrArg List.length hl1
          simp only [List.length_append] at hlen
          rw [hdrop]
          have hb1 : Bytes l1 := by rw [← hdrop]; exact hb.drop _
          obtain ⟨cs, l', o', e1, e2, ⟨e3, e4⟩, e5, e6⟩ := sseLoop_ok g w fuel l1 (store o.1 o.2 ((c :: rest).take 16), o.2 + A.length) (by omega) hb1
          have hAo := flat_ascii w.ascii A hA1
          have hmul : f * (c :: rest).length = f * A.length + f * l1.length := by rw [← hlen, Nat.mul_add]
          have hAf : A.length ≤ f * A.length := Nat.le_mul_of_pos_left _ hf
          refine ⟨A ++ cs, l', o', e1, e2, ⟨?_, ?_⟩, ?_, ?_⟩
          · rw [e3, List.flatMap_append, hAo, List.length_append]; simp only; omega
          · rw [List.flatMap_append, hAo]
            have hw := Utf.wrote_prefix o.1 o.2 A B
            rw [hB] at hw
            refine Utf.Wrote.append hw e4 ?_ ?_
            · have : (c :: rest).length ≤ f * (c :: rest).length := Nat.le_mul_of_pos_left _ hf
              rw [List.length_take]; omega
            · omega
          · rw [List.flatMap_append, hAo, List.length_append]; omega
          · intro cs2 t hr
            rw [← hl1, List.append_assoc]
            exact chars_ascii g A hA1 _ _ _ (by rw [hl1]; exact hb) (e6 cs2 t hr)
        · rcases g.total (c :: rest) (by simp) hb with ⟨x, n, ha, hx, hn, hn'⟩ | ⟨_, h4⟩
          · rw [g.unchecked _ _ hb ha, Option.bind_some, w.emit x hx, Option.bind_some]
            have hlen : ((c :: rest).drop n).length = (c :: rest).length - n := List.length_drop
            obtain ⟨cs, l', o', e1, e2, ⟨e3, e4⟩, e5, e6⟩ := sseLoop_ok g w fuel ((c :: rest).drop n) (Utf.put o (enc x)) (by omega) (hb.drop n)
            have hbd := w.bound _ _ _ hb ha
            have hmul : f * (c :: rest).length = f * n + f * ((c :: rest).length - n) := by rw [← Nat.mul_add]; congr 1; omega
            rw [hlen] at e4 e5
            refine ⟨x :: cs, l', o', e1, e2, ⟨?_, ?_⟩, ?_, ?_⟩
            · rw [e3, List.flatMap_cons, List.length_append]; simp only [Utf.put]; omega
            · rw [List.flatMap_cons]
              exact Utf.Wrote.append (Utf.put_wrote o _) e4 (by omega) (by omega)
            · rw [List.flatMap_cons, List.length_append]; omega
            · intro cs2 t hr
              exact .char _ x n _ _ (by simp) ha (e6 cs2 t hr)
          · omega
    · exact ⟨[], l, o, rfl, hb, ⟨by simp, Utf.Wrote.nil _ _ _⟩, by simp, fun cs2 t h => h⟩

theorem Output.mono {a b : Nat} {o o' : Mem × Nat} {out : List Nat} (h : Output a o o' out) (hab : a ≤ b) : Output b o o' out := ⟨h.1, h.2.mono hab⟩

theorem Output.append {cap a b : Nat} {o o1 o2 : Mem × Nat} {u v : List Nat} (h1 : Output a o o1 u) (h2 : Output b o1 o2 v) (ha : a ≤ cap) (hb : u.length + b ≤ cap) :
    Output cap o o2 (u ++ v) := by
  obtain ⟨x1, y1⟩ := h1
  obtain ⟨x2, y2⟩ := h2
  rw [x1] at y2
  exact ⟨by rw [x2, x1, List.length_append]; omega, Utf.Wrote.append y1 y2 ha hb⟩

theorem Output.put (o : Utf.Out) (u : List Nat) (cap : Nat) (h : u.length ≤ cap) : Output cap o (Utf.put o u) u := ⟨rfl, (Utf.put_wrote o u).mono h⟩

theorem Output.nil (o : Utf.Out) (cap : Nat) : Output cap o o [] := ⟨by simp, Utf.Wrote.nil _ _ _⟩

/-- Without state. -/
theorem cvt_ok {s : Source} {e : Emit} {enc : Nat → List Nat} {f : Nat} (g : Good s) (w : Fits s e enc f) (sse : Bool) (l : List Nat) (hb : Bytes l) (o : Utf.Out) :
    ∃ cs t o', cvt s e sse l o = some (t, o') ∧ Chars s.adv l cs t ∧ Output (f * l.length) o o' (cs.flatMap enc) ∧
      (cs.flatMap enc).length + f * t.length ≤ f * l.length := by
  rw [cvt]
  cases sse
  · obtain ⟨cs, t, e1, e2, e3⟩ := loop8_ok g w (l.length + 1) l o (by omega) hb
    exact ⟨cs, t, _, e2, e1, Output.put _ _ _ (by omega), e3⟩
  · obtain ⟨cs, l', o', e1, e2, e3, e4, e5⟩ := sseLoop_ok g w (l.length + 1) l o (by omega) hb
    obtain ⟨cs2, t, e6, e7, e8⟩ := loop8_ok g w (l'.length + 1) l' o' (by omega) e2
    refine ⟨cs ++ cs2, t, _, by simp only [if_true]; rw [e1, Option.bind_some]; exact e7, e5 _ _ e6, ?_, ?_⟩
    · rw [List.flatMap_append]
      exact Output.append e3 (Output.put _ _ _ (le_refl _)) (le_refl _) (by omega)
    · rw [List.flatMap_append, List.length_append]; omega

theorem tail_short {s : Source} (g : Good s) {l cs t : List Nat} (h : Chars s.adv l cs t) (hb : Bytes l) : t.length < 4 := by
  rcases h.tail_ok with rfl | ht
  · simp
  · by_cases h0 : t = []
    · subst h0; simp
    · obtain ⟨a, rfl⟩ := h.suffix
      rcases g.total t h0 (fun x hx => hb x (by simp [hx])) with ⟨c, n, e, _⟩ | ⟨_, h'⟩
      · rw [ht] at e; cases e
      · exact h'

theorem rest8_ok {s : Source} {e : Emit} {enc : Nat → List Nat} {f : Nat} (g : Good s) (w : Fits s e enc f) (sse : Bool) (l : List Nat) (hb : Bytes l) (o : Utf.Out) :
    ∃ cs t o', rest8 s e sse l o = some (t, o') ∧ Chars s.adv l cs t ∧ Output (f * l.length) o o' (cs.flatMap enc) ∧
      (cs.flatMap enc).length + f * t.length ≤ f * l.length := by
  obtain ⟨cs, t, o', e1, e2, e3⟩ := cvt_ok g w sse l hb o
  refine ⟨cs, t, o', ?_, e2, e3⟩
  have := tail_short g e2 hb
  rw [rest8, e1, Option.bind_some]
  exact if_pos (by simp only; omega)

/-- With a state. -/
theorem state_ok {s : Source} {e : Emit} {enc : Nat → List Nat} {f : Nat} (g : Good s) (w : Fits s e enc f) (sse : Bool) (st l : List Nat) (hst : st = [] ∨ s.adv st = some none)
    (hb : Bytes (st ++ l)) (o : Utf.Out) : ∃ cs t o', cvtState s e sse st l o = some (t, o') ∧ Chars s.adv (st ++ l) cs t ∧
      Output (f * (st ++ l).length) o o' (cs.flatMap enc) ∧ (cs.flatMap enc).length + f * t.length ≤ f * (st ++ l).length := by
  rw [cvtState]
  by_cases h0 : st = []
  · subst h0
    rw [if_pos rfl]
    exact rest8_ok g w sse l hb o
  have hst := hst.resolve_left h0
  rw [if_neg h0]
  by_cases h1 : l = []
  · subst h1
    rw [if_pos rfl]
    exact ⟨[], st, o, rfl, by rw [List.append_nil]; exact .done _ (Or.inr hst), Output.nil _ _, by simp⟩
  rw [if_neg h1]
  have hbs : Bytes st := fun x hx => hb x (by simp [hx])
  have hst4 : st.length < 4 := by
    rcases g.total st h0 hbs with ⟨c, n, e, _⟩ | ⟨_, h'⟩
    · rw [hst] at e; cases e
    · exact h'
  have hsplit : st ++ l = (st ++ l.take (8 - st.length)) ++ l.drop (8 - st.length) := by rw [List.append_assoc, List.take_append_drop]
  have hb1 : Bytes (st ++ l.take (8 - st.length)) := fun x hx => hb x (by rw [hsplit]; exact List.mem_append_left _ hx)
  rw [pending]
  rcases g.total (st ++ l.take (8 - st.length)) (by simp [h0]) hb1 with ⟨c, n, ha, hc, hn1, hn2⟩ | ⟨ha, h4⟩
  · have hmin := g.least st _ c n hb1 h0 hst ha
    have ha' := g.ext _ (l.drop (8 - st.length)) _ (by rw [← hsplit]; exact hb) ha
    rw [← hsplit] at ha'
    rw [ha, Option.bind_some]
    simp only
    rw [w.emit c hc, Option.bind_some, if_neg (by omega)]
    simp only [Option.bind_some]
    have hd : (st ++ l).drop n = l.drop (n - st.length) := by
      rw [List.drop_append, List.drop_eq_nil_of_le hmin, List.nil_append]
    obtain ⟨cs, t, o', e1, e2, e3, e4⟩ := rest8_ok g w sse (l.drop (n - st.length)) (by rw [← hd]; exact hb.drop n) (Utf.put o (enc c))
    have hbd := w.bound _ _ _ hb1 ha
    have hn3 : n ≤ (st ++ l).length := by
      rw [hsplit, List.length_append]; omega
    have hlen : (l.drop (n - st.length)).length = (st ++ l).length - n := by rw [← hd, List.length_drop]
    have hmul : f * (st ++ l).length = f * n + f * ((st ++ l).length - n) := by rw [← Nat.mul_add]; congr 1; omega
    rw [hlen] at e3 e4
    refine ⟨c :: cs, t, o', e1, .char _ c n _ _ (by simp [h0]) ha' (by rw [hd]; exact e2), ?_, ?_⟩
    · rw [List.flatMap_cons]
      exact Output.append (Output.put _ _ _ (le_refl _)) e3 (by omega) (by omega)
    · rw [List.flatMap_cons, List.length_append]; omega
  · rw [ha, Option.bind_some]
    simp only
    rw [if_pos (by omega), Option.bind_some]
    simp only
    have htake : l.take (8 - st.length) = l := by
      rw [List.length_append, List.length_take] at h4
      exact List.take_of_length_le (by omega)
    rw [htake] at ha ⊢
    exact ⟨[], st ++ l, o, rfl, .done _ (Or.inr ha), Output.nil _ _, by simp⟩

/-- A stream. -/
theorem chunks_ok {s : Source} {e : Emit} {enc : Nat → List Nat} {f : Nat} (g : Good s) (w : Fits s e enc f) (sse : Bool) : ∀ (ls : List (List Nat)) (st : List Nat),
    (st = [] ∨ s.adv st = some none) → Bytes (st ++ ls.flatten) → ∀ o : Utf.Out, ∃ cs t o', cvtChunks s e sse st ls o = some (t, o') ∧
      Chars s.adv (st ++ ls.flatten) cs t ∧ Output (f * (st ++ ls.flatten).length) o o' (cs.flatMap enc)
  | [], st, hst, _, o => ⟨[], st, o, rfl, by simpa using Chars.done st hst, Output.nil _ _⟩
  | l :: ls, st, hst, hb, o => by
    have hfl : st ++ (l :: ls).flatten = (st ++ l) ++ ls.flatten := by simp
    rw [hfl] at hb ⊢
    have hb1 : Bytes (st ++ l) := fun x hx => hb x (List.mem_append_left _ hx)
    obtain ⟨cs, t, o1, e1, e2, e3, e4⟩ := state_ok g w sse st l hst hb1 o
    obtain ⟨a, ha⟩ := e2.suffix
    have hb2 : Bytes (t ++ ls.flatten) := fun x hx => hb x (by
      rw [ha]
      rw [List.mem_append] at hx
      simp only [List.mem_append]
      tauto)
    obtain ⟨cs2, t2, o2, f1, f2, f3⟩ := chunks_ok g w sse ls t e2.tail_ok hb2 o1
    refine ⟨cs ++ cs2, t2, o2, by rw [cvtChunks, e1, Option.bind_some]; exact f1, e2.append g hb f2, ?_⟩
    rw [List.flatMap_append]
    refine Output.append e3 f3 ?_ ?_
    · exact Nat.mul_le_mul_left _ (by simp)
    · simp only [List.length_append, Nat.mul_add] at *
      omega

/-! ## The sources and destinations -/

theorem least_gb (l r : List Nat) (c n : Nat) (hb : Bytes (l ++ r)) (hl : l ≠ []) (h : advance l = some none) (h2 : advance (l ++ r) = some (some (c, n))) :
    l.length ≤ n := by
  rcases l with _ | ⟨a, l⟩
  · exact absurd rfl hl
  have ha := hb a (by simp)
  by_cases h1 : a < 0x80 ∨ a = 0x80 ∨ a = 0xFF
  · rw [adv1 a _ h1] at h; cases h
  rcases l with _ | ⟨b, l⟩
  · rcases advance_total _ (by simp) hb with ⟨c', n', e, _, h', _⟩ | ⟨e, _⟩
    · rw [h2] at e
      simp only [Option.some.injEq, Prod.mk.injEq] at e
      simp only [List.length_singleton]; omega
    · rw [h2] at e; cases e
  rw [adv2 _ _ _ (by omega) (by omega)] at h
  rw [List.cons_append, List.cons_append, adv2 _ _ _ (by omega) (by omega)] at h2
  by_cases h4 : b = 0x7F
  · rw [if_pos h4] at h; cases h
  rw [if_neg h4] at h h2
  by_cases h5 : sub8 b 0x40 < 0xFF - 0x40
  · rw [if_pos h5] at h
    cases hx : twoByte a b <;> rw [hx] at h <;> cases h
  rw [if_neg h5] at h h2
  by_cases h6 : b < 0x30 ∨ b = 0xFF
  · rw [if_pos h6] at h; cases h
  rw [if_neg h6] at h h2
  have hlen : l.length < 2 := by
    rcases l with _ | ⟨x, _ | ⟨y, l⟩⟩
    · simp
    · simp
    · exfalso
      rw [four2] at h
      split_ifs at h <;> cases h
  have : 3 ≤ n := by
    revert h2
    rcases l ++ r with _ | ⟨x, _ | ⟨y, z⟩⟩
    · intro h2; cases h2
    · intro h2; cases h2
    · rw [four2]
      split_ifs <;> (simp only [Option.some.injEq, Prod.mk.injEq]; omega)
  simp only [List.length_cons]
  omega

theorem good_gb : Good gbSource where
  total := fun l hl hb => by
    rcases advance_total l hl hb with ⟨c, n, h1, h2, h3, h4, _⟩ | h
    · exact Or.inl ⟨c, n, h1, h2, h3, h4⟩
    · exact Or.inr h
  ext := fun l r q hb h => advance_ext l r q (fun x hx => hb x (by simp [hx])) h
  least := least_gb
  ascii := fun c l hc _ => by
    change advance (c :: l) = _
    rw [adv1 c l (Or.inl hc), if_pos hc]
  unchecked := fun l q hb h => advanceUnchecked_eq l q hb h

theorem utfEmit_eq (d : Utf.Enc) (c : Nat) (hc : Utf.Scalar c) : utfEmit d c = some (Utf.enc d c) := by
  rw [utfEmit, Utf.codeUnits_eq d false c hc]
  simp [Utf.encOut, Utf.encText]

/-- Units written for each unit of GB 18030. -/
def factorGb (d : Utf.Enc) : Nat := if d = .u8 then 3 else 1

/-- The bytes of UTF-8 from GB 18030. -/
theorem fits_gb (d : Utf.Enc) (hd : d ≠ .ebcdic) : Fits gbSource (utfEmit d) (Utf.enc d) (factorGb d) where
  pos := by unfold factorGb; split_ifs <;> omega
  emit := utfEmit_eq d
  ascii := fun c hc => Utf.enc_ascii d hd c hc
  bound := fun l c n hb h => by
    have hl : l ≠ [] := by rintro rfl; cases h
    change advance l = _ at h
    have hn : c < 0x10000 ∨ 2 ≤ n := by
      rcases l with _ | ⟨a, l⟩
      · cases h
      have ha := hb a (by simp)
      by_cases h1 : a < 0x80 ∨ a = 0x80 ∨ a = 0xFF
      · rw [adv1 a _ h1] at h
        simp only [Option.some.injEq, Prod.mk.injEq] at h
        left; rw [← h.1]; split_ifs <;> omega
      · right
        have := advance_total (a :: l) (by simp) hb
        rcases l with _ | ⟨b, l⟩
        · rw [adv_one a (by omega) (by omega)] at h; cases h
        rw [adv2 _ _ _ (by omega) (by omega)] at h
        split_ifs at h
        · simp only [Option.some.injEq, Prod.mk.injEq] at h; omega
        · cases hx : twoByte a b <;> rw [hx] at h
          · cases h
          · simp only [Option.map_some, Option.some.injEq, Prod.mk.injEq] at h; omega
        · simp only [Option.some.injEq, Prod.mk.injEq] at h; omega
        · rcases l with _ | ⟨x, _ | ⟨y, l⟩⟩
          · cases h
          · cases h
          · rw [four2] at h
            split_ifs at h <;> (simp only [Option.some.injEq, Prod.mk.injEq] at h; omega)
    have hn1 : 1 ≤ n := by
      rcases advance_total l hl hb with ⟨c', n', e, _, h', _⟩ | ⟨e, _⟩
      · rw [h] at e
        simp only [Option.some.injEq, Prod.mk.injEq] at e
        omega
      · rw [h] at e; cases e
    cases d with
    | u8 => simp only [Utf.enc, Utf.enc8, factorGb]; split_ifs <;> simp <;> omega
    | u16 => simp only [Utf.enc, Utf.enc16, factorGb]; split_ifs <;> simp <;> omega
    | u32 => simp only [Utf.enc, factorGb]; simp; omega
    | ebcdic => exact absurd rfl hd

/-- A piece of UTF-8 and what it is read as. -/
def Piece (q : List Nat) (c : Nat) : Prop := (Utf.Scalar c ∧ q = Utf.enc .u8 c) ∨ (Utf.Bad .u8 q ∧ c = 0xFFFD)

theorem Piece.ne {q : List Nat} {c : Nat} (h : Piece q c) : q ≠ [] := by
  rcases h with ⟨_, rfl⟩ | ⟨h, _⟩
  · exact Utf.enc8_ne c
  · exact h.1

theorem Piece.unique {q q' : List Nat} {c c' : Nat} (h : Piece q c) (h' : Piece q' c') (hp : q <+: q') : q = q' ∧ c = c' := by
  rcases h with ⟨h1, rfl⟩ | ⟨h1, rfl⟩ <;> rcases h' with ⟨h2, rfl⟩ | ⟨h2, rfl⟩
  · have := Utf.prefixFree_u8.2 c c' h1 h2 hp
    subst this; exact ⟨rfl, rfl⟩
  · exact absurd hp (h2.2.1 c h1).1
  · exact absurd hp (h1.2.1 c' h2).2
  · exact ⟨Utf.bad_prefix_dropLast h1 h2 hp, rfl⟩

theorem Piece.not_incomplete {q t : List Nat} {c : Nat} (h : Piece q c) (ht : Utf.Incomplete .u8 t) : ¬ q <+: t := by
  rcases h with ⟨h1, rfl⟩ | ⟨h1, rfl⟩
  · exact Utf.char_not_incomplete Utf.prefixFree_u8 h1 ht
  · exact Utf.bad_not_prefix_incomplete h1 ht

theorem utf8_cases (l : List Nat) (hl : l ≠ []) (hb : Bytes l) :
    (∃ q r c, Piece q c ∧ l = q ++ r ∧ Utf.advance l = some (some (r, c)) ∧ utf8Source.adv l = some (some (c, q.length))) ∨
    (Utf.Incomplete .u8 l ∧ utf8Source.adv l = some none) := by
  rcases Utf.advance_ok l hl hb with ⟨c, r, hc, hl, ha⟩ | ⟨p, r, hp, hl, ha⟩ | ⟨hi, ha⟩
  · refine Or.inl ⟨_, r, c, Or.inl ⟨hc, rfl⟩, hl, ha, ?_⟩
    simp only [utf8Source, ha, Option.map_some]
    congr 3
    rw [hl, List.length_append]; simp [Utf.enc]
  · refine Or.inl ⟨_, r, _, Or.inr ⟨hp, rfl⟩, hl, ha, ?_⟩
    simp only [utf8Source, ha, Option.map_some]
    congr 3
    rw [hl, List.length_append]; simp
  · exact Or.inr ⟨hi, by simp only [utf8Source, ha, Option.map_some, Option.map_none]⟩

theorem utf8_piece (q r : List Nat) (c : Nat) (hq : Piece q c) (hb : Bytes (q ++ r)) : utf8Source.adv (q ++ r) = some (some (c, q.length)) := by
  rcases utf8_cases (q ++ r) (by simp [hq.ne]) hb with ⟨q', r', c', h1, h2, _, h3⟩ | ⟨h1, _⟩
  · have hp : q <+: q ++ r := List.prefix_append _ _
    have hp' : q' <+: q ++ r := by rw [h2]; exact List.prefix_append _ _
    rcases Utf.prefix_cases hp hp' with h | h
    · obtain ⟨rfl, rfl⟩ := hq.unique h1 h
      exact h3
    · obtain ⟨rfl, rfl⟩ := h1.unique hq h
      exact h3
  · exact absurd (List.prefix_append q r) (hq.not_incomplete h1)

theorem incomplete_short {t : List Nat} (h : Utf.Incomplete .u8 t) : t.length < 4 := by
  obtain ⟨_, c, _, h1, h2⟩ := h
  have h3 : (Utf.enc .u8 c).length ≤ 4 := by simp only [Utf.enc, Utf.enc8]; split_ifs <;> simp
  have h4 := h1.length_le
  rcases Nat.lt_or_ge t.length (Utf.enc .u8 c).length with h | h
  · omega
  · exact absurd (h1.eq_of_length_le h) h2

theorem piece_scalar {q : List Nat} {c : Nat} (h : Piece q c) : Utf.Scalar c := by
  rcases h with ⟨h, _⟩ | ⟨_, rfl⟩
  · exact h
  · decide

theorem good_utf8 : Good utf8Source where
  total := fun l hl hb => by
    rcases utf8_cases l hl hb with ⟨q, r, c, h1, h2, _, h3⟩ | ⟨h1, h2⟩
    · exact Or.inl ⟨c, _, h3, piece_scalar h1, List.length_pos_iff.mpr h1.ne, by rw [h2]; simp⟩
    · exact Or.inr ⟨h2, incomplete_short h1⟩
  ext := fun l r q hb h => by
    have hl : l ≠ [] := by rintro rfl; cases h
    rcases utf8_cases l hl (fun x hx => hb x (by simp [hx])) with ⟨p, r', c, h1, h2, _, h3⟩ | ⟨_, h2⟩
    · rw [← h, h3, h2, List.append_assoc]
      exact utf8_piece p _ c h1 (by rw [← List.append_assoc, ← h2]; exact hb)
    · rw [h] at h2; cases h2
  least := fun l r c n hb hl h h2 => by
    rcases utf8_cases l hl (fun x hx => hb x (by simp [hx])) with ⟨p, r', c, _, _, _, h3⟩ | ⟨hi, _⟩
    · rw [h] at h3; cases h3
    rcases utf8_cases (l ++ r) (by simp [hl]) hb with ⟨p, r', c', h3, h4, _, h5⟩ | ⟨_, h3⟩
    · rw [h2] at h5
      simp only [Option.some.injEq, Prod.mk.injEq] at h5
      rw [h5.2]
      have hp : p <+: l ++ r := by rw [h4]; exact List.prefix_append _ _
      rcases Utf.prefix_cases hp (List.prefix_append l r) with h' | h'
      · exact absurd h' (h3.not_incomplete hi)
      · exact h'.length_le
    · rw [h2] at h3; cases h3
  ascii := fun c l hc hb => by
    have he : Utf.enc .u8 c = [c] := Utf.enc_ascii _ (by simp) c hc
    have := utf8_piece [c] l c (Or.inl ⟨⟨by omega, by omega⟩, he.symm⟩) (by
      intro x hx
      simp only [List.singleton_append, List.mem_cons] at hx
      rcases hx with rfl | hx
      · omega
      · exact hb x hx)
    exact this
  unchecked := fun l q hb h => by
    have hl : l ≠ [] := by rintro rfl; cases h
    rcases utf8_cases l hl hb with ⟨p, r, c, h1, h2, h3, h4⟩ | ⟨_, h2⟩
    · have hu : Utf.advanceUnchecked l = some (r, c) := by unfold Utf.advanceUnchecked; rw [h3]; rfl
      rw [h] at h4
      simp only [Option.some.injEq] at h4
      rw [h4]
      simp only [utf8Source, hu, Option.map_some]
      congr 2
      rw [h2, List.length_append]; simp
    · rw [h] at h2; cases h2

theorem reads_of_chars {l cs t : List Nat} (h : Chars utf8Source.adv l cs t) : Bytes l → Utf.Reads .u8 l cs t := by
  induction h with
  | done t h =>
    intro hb
    rcases h with h | h
    · exact .done _ (Or.inl h)
    · by_cases h0 : t = []
      · exact .done _ (Or.inl h0)
      · rcases utf8_cases t h0 hb with ⟨_, _, _, _, _, _, h3⟩ | ⟨hi, _⟩
        · rw [h] at h3; cases h3
        · exact .done _ (Or.inr hi)
  | char l c n cs t hl ha _ ih =>
    intro hb
    have ih' := ih (hb.drop n)
    rcases utf8_cases l hl hb with ⟨q, r, c', h1, h2, _, h3⟩ | ⟨_, h2⟩
    · rw [ha] at h3
      simp only [Option.some.injEq, Prod.mk.injEq] at h3
      obtain ⟨rfl, rfl⟩ := h3
      rw [h2, List.drop_left] at ih'
      rw [h2]
      rcases h1 with ⟨g, rfl⟩ | ⟨g, rfl⟩
      · exact .char c r cs t g ih'
      · exact .bad q r cs t g ih'
    · rw [ha] at h2; cases h2

/-- The code of a character, as stored. -/
def gbOf (c : Nat) : List Nat := (encode c).getD []

theorem encode_gbOf (c : Nat) (hc : Utf.Scalar c) : encode c = some (gbOf c) := by
  obtain ⟨l, h, _⟩ := c82_roundtrip_partial c hc
  rw [gbOf, h]; rfl

theorem gbOf_length (c : Nat) (hc : Utf.Scalar c) : (gbOf c).length ≤ 4 := by
  by_cases h0 : c < 0x80
  · rw [gbOf, encode, if_pos h0]; simp
  rcases encode_cases c (by omega) hc.1 with ⟨_, _, _, _, _, _, e⟩ | ⟨_, _, _, _, _, _, _, e⟩
  · rw [gbOf, e]; simp [four]
  · rw [gbOf, e, lookupUni]
    simp only
    split_ifs <;> simp

theorem gbOf_ascii (c : Nat) (h : c < 0x80) : gbOf c = [c] := by rw [gbOf, encode, if_pos h]; rfl

theorem fits_utf8 : Fits utf8Source gbEmit gbOf 4 where
  pos := by norm_num
  emit := encode_gbOf
  ascii := gbOf_ascii
  bound := fun l c n hb h => by
    have hl : l ≠ [] := by rintro rfl; cases h
    rcases utf8_cases l hl hb with ⟨p, r, c', h1, h2, h3, h4⟩ | ⟨_, h2⟩
    · rw [h] at h4
      simp only [Option.some.injEq, Prod.mk.injEq] at h4
      have := gbOf_length c (by rw [h4.1]; exact piece_scalar h1)
      have := List.length_pos_iff.mpr h1.ne
      omega
    · rw [h] at h2; cases h2

end Verif.Gb
