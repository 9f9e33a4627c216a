import Verif.Indent.Spec
import Verif.Indent.Model
/-! Theorems about `auto_indent` (C62). -/
namespace Verif.Indent

def Plain (c : List Nat) : Prop := ∀ x ∈ c, x ≠ 9 ∧ x ≠ 10

theorem widthLoop_skip : ∀ (c r : List Nat) (i lt pos lines : Nat) (cont : List Nat), Plain c →
    widthLoop (c ++ r) i lt pos lines cont = widthLoop r (i + c.length) lt pos lines cont
  | [], r, i, lt, pos, lines, cont, _ => rfl
  | x :: c, r, i, lt, pos, lines, cont, h => by
    have hx := h x (by simp)
    rw [List.cons_append, widthLoop, if_neg (by omega), widthLoop_skip c r _ _ _ _ _ (fun y hy => h y (by simp [hy]))]
    simp [Nat.add_assoc, Nat.add_comm 1]

theorem widthLoop_tab (c r : List Nat) (i pos lines : Nat) (cont : List Nat) (h : Plain c) :
    widthLoop (c ++ 9 :: r) i i pos lines cont =
      widthLoop r (i + c.length + 1) (i + c.length + 1) (pos + 1) lines (column cont pos c.length) := by
  rw [widthLoop_skip c _ _ _ _ _ _ h, widthLoop]; simp

theorem widthLoop_lf (c r : List Nat) (i pos lines : Nat) (cont : List Nat) (h : Plain c) :
    widthLoop (c ++ 10 :: r) i i pos lines cont =
      widthLoop r (i + c.length + 1) (i + c.length + 1) 0 (lines + 1) (column cont pos c.length) := by
  rw [widthLoop_skip c _ _ _ _ _ _ h, widthLoop]; simp

/-- The widths of a run of cells from column `pos` on. -/
def columns : List Nat → Nat → List (List Nat) → List Nat
  | cont, _, [] => cont
  | cont, pos, c :: r => columns (column cont pos c.length) (pos + 1) r

theorem column_getD (cont : List Nat) (pos w j : Nat) (h : pos ≤ cont.length) :
    (column cont pos w).getD j 0 = if j = pos then max (cont.getD pos 0) w else cont.getD j 0 := by
  unfold column
  by_cases h1 : pos < cont.length
  · rw [if_pos h1]
    by_cases h2 : cont.getD pos 0 < w
    · rw [if_pos h2]
      by_cases hj : j = pos
      · subst hj
        rw [if_pos rfl, Nat.max_eq_right (by omega)]
        simp [h1]
      · rw [if_neg hj]
        simp [List.getElem?_set, Ne.symm hj]
    · rw [if_neg h2]
      by_cases hj : j = pos
      · subst hj; rw [if_pos rfl, Nat.max_eq_left (by omega)]
      · rw [if_neg hj]
  · rw [if_neg h1]
    have he : pos = cont.length := by omega
    subst he
    by_cases hj : j = cont.length
    · subst hj; simp
    · rw [if_neg hj]
      by_cases hlt : j < cont.length
      · simp [List.getElem?_append_left hlt]
      · have : (cont ++ [w])[j]? = none := List.getElem?_eq_none (by simp; omega)
        have h' : cont[j]? = none := List.getElem?_eq_none (by omega)
        simp [this, h']

theorem column_length (cont : List Nat) (pos w : Nat) (h : pos ≤ cont.length) :
    (column cont pos w).length = max cont.length (pos + 1) := by
  unfold column
  split
  · split
    · rw [List.length_set]; omega
    · omega
  · simp; omega

theorem columns_length : ∀ (cells : List (List Nat)) (cont : List Nat) (pos : Nat), pos ≤ cont.length →
    (columns cont pos cells).length = max cont.length (pos + cells.length)
  | [], cont, pos, h => by simp [columns]; omega
  | c :: r, cont, pos, h => by
    have := column_length cont pos c.length h
    rw [columns, columns_length r _ _ (by omega), this, List.length_cons]; omega

theorem columns_getD : ∀ (cells : List (List Nat)) (cont : List Nat) (pos j : Nat), pos ≤ cont.length →
    (columns cont pos cells).getD j 0 =
      max (cont.getD j 0) (if pos ≤ j then (cells.getD (j - pos) []).length else 0)
  | [], cont, pos, j, h => by simp [columns]
  | c :: r, cont, pos, j, h => by
    have hl := column_length cont pos c.length h
    rw [columns, columns_getD r _ _ j (by omega), column_getD _ _ _ _ h]
    by_cases h1 : j = pos
    · subst h1
      rw [if_pos rfl, if_neg (by omega), if_pos (Nat.le_refl _), Nat.sub_self]; simp
    · rw [if_neg h1]
      by_cases h2 : pos + 1 ≤ j
      · rw [if_pos h2, if_pos (by omega), show j - pos = (j - (pos + 1)) + 1 by omega]; simp
      · rw [if_neg h2, if_neg (by omega)]

theorem join_length_line : ∀ (cells : List (List Nat)), cells ≠ [] → ∀ c, cells.getLast? = some c → c.length ≤ (join 9 cells).length
  | [], h, _, _ => absurd rfl h
  | [c], _, d, h => by simp at h; subst h; simp [join]
  | c :: d :: r, _, e, h => by
    have := join_length_line (d :: r) (by simp) e (by simpa using h)
    simp [join]; omega

/-- A whole line that ends with a line feed. -/
theorem widthLoop_line : ∀ (cells : List (List Nat)) (r : List Nat) (i pos lines : Nat) (cont : List Nat),
    cells ≠ [] → (∀ c ∈ cells, Plain c) →
    widthLoop (join 9 cells ++ 10 :: r) i i pos lines cont =
      widthLoop r (i + (join 9 cells).length + 1) (i + (join 9 cells).length + 1) 0 (lines + 1) (columns cont pos cells)
  | [], _, _, _, _, _, h, _ => absurd rfl h
  | [c], r, i, pos, lines, cont, _, h => widthLoop_lf c r i pos lines cont (h c (by simp))
  | c :: d :: rest, r, i, pos, lines, cont, _, h => by
    have e : join 9 (c :: d :: rest) ++ 10 :: r = c ++ 9 :: (join 9 (d :: rest) ++ 10 :: r) := by simp [join]
    rw [e, widthLoop_tab c _ i pos lines cont (h c (by simp)),
      widthLoop_line (d :: rest) r _ _ _ _ (by simp) (fun x hx => h x (by simp [hx]))]
    have e2 : (join 9 (c :: d :: rest)).length = c.length + 1 + (join 9 (d :: rest)).length := by simp [join]; omega
    rw [e2]
    have e3 : i + c.length + 1 + (join 9 (d :: rest)).length + 1 = i + (c.length + 1 + (join 9 (d :: rest)).length) + 1 := by
      omega
    rw [e3]; rfl

/-- The last line, with its last cell still open. -/
theorem widthLoop_last : ∀ (init : List (List Nat)) (c : List Nat) (i pos lines : Nat) (cont : List Nat),
    (∀ c ∈ init, Plain c) → Plain c →
    widthLoop (join 9 (init ++ [c])) i i pos lines cont =
      (i + (join 9 (init ++ [c])).length - c.length, pos + init.length, lines, columns cont pos init)
  | [], c, i, pos, lines, cont, _, hc => by
    have := widthLoop_skip c [] i i pos lines cont hc
    rw [List.append_nil] at this
    simp [join, this, widthLoop, columns]
  | d :: init, c, i, pos, lines, cont, h, hc => by
    have e : join 9 (d :: init ++ [c]) = d ++ 9 :: join 9 (init ++ [c]) := by
      cases init <;> simp [join]
    rw [e, widthLoop_tab d _ i pos lines cont (h d (by simp)),
      widthLoop_last init c _ _ _ _ (fun x hx => h x (by simp [hx])) hc]
    simp only [List.length_append, List.length_cons, columns]
    have : i + d.length + 1 + (join 9 (init ++ [c])).length - c.length =
        i + (d.length + ((join 9 (init ++ [c])).length + 1)) - c.length := by omega
    rw [this, show pos + 1 + init.length = pos + (init.length + 1) by omega]

/-- All lines. -/
def allColumns (cont : List Nat) : List (List (List Nat)) → List Nat
  | [] => cont
  | l :: r => allColumns (columns cont 0 l) r

theorem join_append (sep : Nat) : ∀ (ls : List (List Nat)) (l : List Nat), ls ≠ [] →
    join sep (ls ++ [l]) = join sep ls ++ sep :: l
  | [], _, h => absurd rfl h
  | [a], l, _ => by simp [join]
  | a :: b :: r, l, _ => by
    have := join_append sep (b :: r) l (by simp)
    simp only [List.cons_append, join] at this ⊢
    rw [this]; simp

theorem widthLoop_lines : ∀ (ls : List (List (List Nat))) (r : List Nat) (i lines : Nat) (cont : List Nat),
    (∀ l ∈ ls, l ≠ []) → (∀ l ∈ ls, ∀ c ∈ l, Plain c) →
    widthLoop ((ls.map fun l => join 9 l ++ [10]).flatten ++ r) i i 0 lines cont =
      widthLoop r (i + ((ls.map fun l => join 9 l ++ [10]).flatten).length) (i + ((ls.map fun l => join 9 l ++ [10]).flatten).length)
        0 (lines + ls.length) (allColumns cont ls)
  | [], r, i, lines, cont, _, _ => by simp [allColumns]
  | l :: ls, r, i, lines, cont, h1, h2 => by
    have e : ((l :: ls).map fun l => join 9 l ++ [10]).flatten ++ r =
        join 9 l ++ 10 :: ((ls.map fun l => join 9 l ++ [10]).flatten ++ r) := by simp
    rw [e, widthLoop_line l _ i 0 lines cont (h1 l (by simp)) (h2 l (by simp)),
      widthLoop_lines ls r _ _ _ (fun x hx => h1 x (by simp [hx])) (fun x hx => h2 x (by simp [hx]))]
    simp only [List.map_cons, List.flatten_cons, List.length_append, List.length_cons, List.length_nil, allColumns]
    congr 1 <;> omega

theorem tableText_eq : ∀ (ls : List (List (List Nat))) (l : List (List Nat)),
    tableText (ls ++ [l]) = (ls.map fun l => join 9 l ++ [10]).flatten ++ join 9 l := by
  intro ls
  induction ls with
  | nil => intro l; simp [tableText, join]
  | cons a ls ih =>
    intro l
    have := ih l
    unfold tableText at this ⊢
    cases ls with
    | nil => simp [join] at this ⊢
    | cons b ls =>
      simp only [List.cons_append, List.map_cons, join] at this ⊢
      rw [this]; simp

theorem printLoop_skip (text cont : List Nat) : ∀ (c r : List Nat) (i lt pos : Nat) (out : List Nat), Plain c →
    printLoop text cont (c ++ r) i lt pos out = printLoop text cont r (i + c.length) lt pos out
  | [], r, i, lt, pos, out, _ => rfl
  | x :: c, r, i, lt, pos, out, h => by
    have hx := h x (by simp)
    rw [List.cons_append, printLoop, if_neg (by omega),
      printLoop_skip text cont c r _ _ _ _ (fun y hy => h y (by simp [hy]))]
    simp [Nat.add_assoc, Nat.add_comm 1]

theorem cut (text pre c r : List Nat) (h : text = pre ++ c ++ r) : (text.drop pre.length).take (pre.length + c.length - pre.length) = c := by
  subst h; simp

theorem printLoop_tab (text cont pre c r : List Nat) (pos : Nat) (out : List Nat) (h : Plain c)
    (ht : text = pre ++ c ++ 9 :: r) (hp : pos < cont.length) :
    printLoop text cont (c ++ 9 :: r) pre.length pre.length pos out =
      printLoop text cont r (pre.length + c.length + 1) (pre.length + c.length + 1) (pos + 1)
        (out ++ (c ++ List.replicate (cont.getD pos 0 - c.length) 32 ++ [9])) := by
  rw [printLoop_skip text cont c _ _ _ _ _ h, printLoop, if_pos (by simp)]
  simp only [cut text pre c _ ht, if_true]
  have : cont[pos]? = some (cont.getD pos 0) := by simp [hp]
  rw [this]
  simp only [Option.bind_some]
  rw [show pre.length + c.length - pre.length = c.length by omega]
  simp

theorem printLoop_lf (text cont pre c r : List Nat) (pos : Nat) (out : List Nat) (h : Plain c)
    (ht : text = pre ++ c ++ 10 :: r) :
    printLoop text cont (c ++ 10 :: r) pre.length pre.length pos out =
      printLoop text cont r (pre.length + c.length + 1) (pre.length + c.length + 1) 0 (out ++ c ++ [10]) := by
  rw [printLoop_skip text cont c _ _ _ _ _ h, printLoop, if_pos (by simp)]
  simp only [cut text pre c _ ht]
  simp

theorem printLoop_line (text cont : List Nat) : ∀ (cells : List (List Nat)) (pre r : List Nat) (pos : Nat) (out : List Nat),
    cells ≠ [] → (∀ c ∈ cells, Plain c) → text = pre ++ join 9 cells ++ 10 :: r → pos + cells.length ≤ cont.length + 1 →
    printLoop text cont (join 9 cells ++ 10 :: r) pre.length pre.length pos out =
      printLoop text cont r (pre.length + (join 9 cells).length + 1) (pre.length + (join 9 cells).length + 1) 0
        (out ++ align (fun j => cont.getD j 0) pos cells ++ [10])
  | [], _, _, _, _, h, _, _, _ => absurd rfl h
  | [c], pre, r, pos, out, _, h, ht, _ => by
    simp only [join, align] at ht ⊢
    exact printLoop_lf text cont pre c r pos out (h c (by simp)) ht
  | c :: d :: rest, pre, r, pos, out, _, h, ht, hl => by
    have e : join 9 (c :: d :: rest) ++ 10 :: r = c ++ 9 :: (join 9 (d :: rest) ++ 10 :: r) := by simp [join]
    simp only [List.length_cons] at hl
    have ht' : text = (pre ++ c ++ [9]) ++ join 9 (d :: rest) ++ 10 :: r := by rw [ht]; simp [join]
    rw [e, printLoop_tab text cont pre c _ pos out (h c (by simp)) (by rw [ht]; simp [join]) (by omega)]
    have hpl : pre.length + c.length + 1 = (pre ++ c ++ [9]).length := by simp; omega
    rw [hpl, printLoop_line text cont (d :: rest) (pre ++ c ++ [9]) r (pos + 1) _ (by simp) (fun x hx => h x (by simp [hx])) ht'
      (by simp only [List.length_cons]; omega)]
    have e2 : (join 9 (c :: d :: rest)).length = c.length + 1 + (join 9 (d :: rest)).length := by simp [join]; omega
    have e3 : (pre ++ c ++ [9]).length + (join 9 (d :: rest)).length + 1 =
        pre.length + (join 9 (c :: d :: rest)).length + 1 := by rw [e2]; simp; omega
    rw [e3]
    simp [align]

theorem printLoop_last (text cont : List Nat) : ∀ (init : List (List Nat)) (c pre : List Nat) (pos : Nat) (out : List Nat),
    (∀ c ∈ init, Plain c) → Plain c → text = pre ++ join 9 (init ++ [c]) → pos + init.length ≤ cont.length →
    ∃ out', printLoop text cont (join 9 (init ++ [c])) pre.length pre.length pos out = some (text.length - c.length, out') ∧
      out' ++ c = out ++ align (fun j => cont.getD j 0) pos (init ++ [c])
  | [], c, pre, pos, out, _, hc, ht, _ => by
    have := printLoop_skip text cont c [] pre.length pre.length pos out hc
    rw [List.append_nil] at this
    simp only [List.nil_append, join] at ht ⊢
    refine ⟨out, ?_, ?_⟩
    · rw [this, printLoop]; simp [ht]
    · simp [align]
  | d :: init, c, pre, pos, out, h, hc, ht, hl => by
    have e : join 9 (d :: init ++ [c]) = d ++ 9 :: join 9 (init ++ [c]) := by
      cases init <;> simp [join]
    simp only [List.length_cons] at hl
    have ht' : text = (pre ++ d ++ [9]) ++ join 9 (init ++ [c]) := by rw [ht, e]; simp
    rw [e, printLoop_tab text cont pre d _ pos out (h d (by simp)) (by rw [ht, e]; simp) (by omega)]
    have hpl : pre.length + d.length + 1 = (pre ++ d ++ [9]).length := by simp; omega
    rw [hpl]
    obtain ⟨out', h1, h2⟩ := printLoop_last text cont init c (pre ++ d ++ [9]) (pos + 1)
      (out ++ (d ++ List.replicate (cont.getD pos 0 - d.length) 32 ++ [9])) (fun x hx => h x (by simp [hx])) hc ht' (by omega)
    refine ⟨out', h1, ?_⟩
    rw [h2]
    cases init <;> simp [align]

theorem printLoop_lines (text cont : List Nat) : ∀ (ls : List (List (List Nat))) (pre r out : List Nat),
    (∀ l ∈ ls, l ≠ []) → (∀ l ∈ ls, ∀ c ∈ l, Plain c) → (∀ l ∈ ls, l.length ≤ cont.length + 1) →
    text = pre ++ (ls.map fun l => join 9 l ++ [10]).flatten ++ r →
    printLoop text cont ((ls.map fun l => join 9 l ++ [10]).flatten ++ r) pre.length pre.length 0 out =
      printLoop text cont r (pre ++ (ls.map fun l => join 9 l ++ [10]).flatten).length
        (pre ++ (ls.map fun l => join 9 l ++ [10]).flatten).length 0
        (out ++ (ls.map fun l => align (fun j => cont.getD j 0) 0 l ++ [10]).flatten)
  | [], pre, r, out, _, _, _, _ => by simp
  | l :: ls, pre, r, out, h1, h2, h3, ht => by
    have e : ((l :: ls).map fun l => join 9 l ++ [10]).flatten ++ r =
        join 9 l ++ 10 :: ((ls.map fun l => join 9 l ++ [10]).flatten ++ r) := by simp
    rw [e, printLoop_line text cont l pre _ 0 out (h1 l (by simp)) (h2 l (by simp)) (by rw [ht]; simp)
      (by have := h3 l (by simp); omega)]
    have hpl : pre.length + (join 9 l).length + 1 = (pre ++ join 9 l ++ [10]).length := by simp; omega
    rw [hpl, printLoop_lines text cont ls (pre ++ join 9 l ++ [10]) r _ (fun x hx => h1 x (by simp [hx]))
      (fun x hx => h2 x (by simp [hx])) (fun x hx => h3 x (by simp [hx])) (by rw [ht]; simp)]
    simp

theorem allColumns_getD : ∀ (ls : List (List (List Nat))) (cont : List Nat) (j : Nat),
    (allColumns cont ls).getD j 0 = max (cont.getD j 0) (colWidth ls j)
  | [], cont, j => by simp [allColumns, colWidth]
  | l :: ls, cont, j => by
    rw [allColumns, allColumns_getD ls, columns_getD l cont 0 j (by omega)]
    simp [colWidth, Nat.max_assoc]

theorem allColumns_length : ∀ (ls : List (List (List Nat))) (cont : List Nat),
    cont.length ≤ (allColumns cont ls).length ∧ ∀ l ∈ ls, l.length ≤ (allColumns cont ls).length
  | [], cont => by simp [allColumns]
  | l :: ls, cont => by
    have h := columns_length l cont 0 (by omega)
    obtain ⟨h1, h2⟩ := allColumns_length ls (columns cont 0 l)
    rw [allColumns]
    refine ⟨by omega, ?_⟩
    intro x hx
    rcases List.mem_cons.1 hx with rfl | hx
    · omega
    · exact h2 x hx

theorem colWidth_append (ls : List (List (List Nat))) (l : List (List Nat)) (j : Nat) :
    colWidth (ls ++ [l]) j = max (colWidth ls j) (l.getD j []).length := by
  induction ls with
  | nil => simp [colWidth]
  | cons a ls ih =>
    simp only [colWidth, List.cons_append, List.map_cons, List.foldr_cons] at ih ⊢
    rw [ih]; omega

/-- What `calculate_auto_width_result` computes for a table with the last line `init ++ [c]`. -/
theorem calculate_spec (ls : List (List (List Nat))) (init : List (List Nat)) (c : List Nat)
    (h : IsTable (ls ++ [init ++ [c]])) :
    ∃ cont, calculate (tableText (ls ++ [init ++ [c]])) =
        ((sumLoop cont 1).bind fun t => (orDie (t * (ls.length + if c = [] then 0 else 1))).map fun t => (t, cont)) ∧
      (∀ j, cont.getD j 0 = colWidth (ls ++ [init ++ [c]]) j) ∧
      (∀ l ∈ ls, l.length ≤ cont.length) ∧ init.length ≤ cont.length ∧ (c ≠ [] → init.length + 1 ≤ cont.length) := by
  have hpl : ∀ l ∈ ls, ∀ c ∈ l, Plain c := fun l hl => h.plain l (by simp [hl])
  have hin : ∀ x ∈ init, Plain x := fun x hx => h.plain (init ++ [c]) (by simp) x (by simp [hx])
  have hc : Plain c := h.plain (init ++ [c]) (by simp) c (by simp)
  have hw : widthLoop (tableText (ls ++ [init ++ [c]])) 0 0 0 0 [] =
      ((tableText (ls ++ [init ++ [c]])).length - c.length, init.length, ls.length, columns (allColumns [] ls) 0 init) := by
    rw [tableText_eq, widthLoop_lines ls _ 0 0 [] (fun l hl => h.cells l (by simp [hl])) hpl,
      widthLoop_last init c _ _ _ _ hin hc]
    simp
  have hlen : c.length ≤ (tableText (ls ++ [init ++ [c]])).length := by
    rw [tableText_eq]
    have := join_length_line (init ++ [c]) (by simp) c (by simp)
    simp; omega
  have hl1 := columns_length init (allColumns [] ls) 0 (by omega)
  have hal := (allColumns_length ls []).2
  unfold calculate
  rw [hw]
  simp only []
  by_cases hce : c = []
  · subst hce
    refine ⟨columns (allColumns [] ls) 0 init, ?_, ?_, ?_, ?_, ?_⟩
    · rw [if_neg (by simp)]; simp
    · intro j
      rw [columns_getD _ _ _ _ (by omega), allColumns_getD, colWidth_append]
      simp only [Nat.zero_le, if_true, Nat.sub_zero]
      have : (init.getD j []).length = ((init ++ [[]]).getD j []).length := by
        by_cases hj : j < init.length
        · simp [List.getElem?_append_left hj]
        · have h1 : init[j]? = none := List.getElem?_eq_none (by omega)
          by_cases hj2 : j = init.length
          · subst hj2; simp
          · have h2 : (init ++ [[]])[j]? = none := List.getElem?_eq_none (by simp; omega)
            simp [h1, h2]
      rw [this]; simp
    · intro l hl; have := hal l hl; omega
    · omega
    · intro hx; exact absurd rfl hx
  · have hpos : 0 < c.length := List.length_pos_iff.2 hce
    refine ⟨columns (allColumns [] ls) 0 (init ++ [c]), ?_, ?_, ?_, ?_, ?_⟩
    · rw [if_pos (by omega)]
      have happ : ∀ (cs : List (List Nat)) (cont : List Nat) (pos : Nat),
          columns cont pos (cs ++ [c]) = column (columns cont pos cs) (pos + cs.length) c.length := by
        intro cs
        induction cs with
        | nil => intro cont pos; rfl
        | cons a cs ih =>
          intro cont pos
          simp only [List.cons_append, columns, ih, List.length_cons]
          congr 1; omega
      rw [happ]
      have : (tableText (ls ++ [init ++ [c]])).length - ((tableText (ls ++ [init ++ [c]])).length - c.length) = c.length := by omega
      simp only [this, hce, if_false, Nat.zero_add]
    · intro j
      rw [columns_getD _ _ _ _ (by omega), allColumns_getD, colWidth_append]
      simp
    · have := columns_length (init ++ [c]) (allColumns [] ls) 0 (by omega)
      intro l hl; have := hal l hl; omega
    · have := columns_length (init ++ [c]) (allColumns [] ls) 0 (by omega)
      simp at this; omega
    · have := columns_length (init ++ [c]) (allColumns [] ls) 0 (by omega)
      simp at this; omega

theorem aligned_eq (W : Nat → Nat) (ls : List (List (List Nat))) (l : List (List Nat)) :
    join 10 ((ls ++ [l]).map (align W 0)) = (ls.map fun l => align W 0 l ++ [10]).flatten ++ align W 0 l := by
  induction ls with
  | nil => simp [join]
  | cons a ls ih =>
    cases ls with
    | nil => simp [join]
    | cons b ls =>
      simp only [List.cons_append, List.map_cons, join] at ih ⊢
      rw [ih]; simp

theorem split_last {α : Type} (l : List α) (h : l ≠ []) : ∃ i c, l = i ++ [c] :=
  ⟨l.dropLast, l.getLast h, (List.dropLast_concat_getLast h).symm⟩

/-- **C62**: printing the manipulator made from the text of any table gives exactly that table with its columns aligned. -/
theorem c62_align (lines : List (List (List Nat))) (h : IsTable lines) (size : Nat) (cont : List Nat)
    (hc : calculate (tableText lines) = some (size, cont)) : print (tableText lines) cont = some (aligned lines) := by
  obtain ⟨ls, l, rfl⟩ := split_last lines h.nonempty
  obtain ⟨init, c, rfl⟩ := split_last l (h.cells l (by simp))
  obtain ⟨cont', he, hw, hl1, hl2, _⟩ := calculate_spec ls init c h
  rw [he] at hc
  have hcont : cont' = cont := by
    cases hs : sumLoop cont' 1 with
    | none => simp [hs] at hc
    | some t =>
      simp only [hs, Option.bind_some] at hc
      cases ho : orDie (t * (ls.length + if c = [] then 0 else 1)) with
      | none => simp [ho] at hc
      | some s => simp [ho] at hc; exact hc.2
  subst hcont
  have hpl : ∀ l ∈ ls, ∀ c ∈ l, Plain c := fun l hl => h.plain l (by simp [hl])
  have hin : ∀ x ∈ init, Plain x := fun x hx => h.plain (init ++ [c]) (by simp) x (by simp [hx])
  have hcp : Plain c := h.plain (init ++ [c]) (by simp) c (by simp)
  generalize htext : tableText (ls ++ [init ++ [c]]) = text
  have ht := htext.symm
  rw [tableText_eq] at ht
  have hp := printLoop_lines text cont' ls [] (join 9 (init ++ [c])) [] (fun l hl => h.cells l (by simp [hl])) hpl
    (fun l hl => by have := hl1 l hl; omega) (by simpa using ht)
  obtain ⟨out', h1, h2⟩ := printLoop_last text cont' init c (ls.map fun l => join 9 l ++ [10]).flatten 0
    ((ls.map fun l => align (fun j => cont'.getD j 0) 0 l ++ [10]).flatten) hin hcp ht (by omega)
  simp only [List.nil_append, List.length_nil] at hp
  rw [← ht] at hp
  have hlen : c.length ≤ text.length := by
    rw [ht]
    have := join_length_line (init ++ [c]) (by simp) c (by simp)
    simp; omega
  have hcut : (text.drop (text.length - c.length)).take (text.length - (text.length - c.length)) = c := by
    obtain ⟨q, hq⟩ : ∃ q, text = q ++ c := by
      rw [ht]
      cases init with
      | nil => exact ⟨_, rfl⟩
      | cons a init =>
        refine ⟨(ls.map fun l => join 9 l ++ [10]).flatten ++ (join 9 (a :: init) ++ [9]), ?_⟩
        rw [join_append 9 (a :: init) c (by simp)]
        simp
    rw [hq]; simp
  unfold print
  rw [hp, h1]
  simp only [Option.map_some, Option.some.injEq]
  have hal : aligned (ls ++ [init ++ [c]]) = out' ++ c := by
    rw [h2]
    unfold aligned
    rw [aligned_eq]
    have : (fun j => cont'.getD j 0) = colWidth (ls ++ [init ++ [c]]) := funext hw
    rw [this]
  rw [hal, hcut]
  by_cases hce : c = []
  · subst hce; simp
  · have hpos : 0 < c.length := List.length_pos_iff.2 hce
    rw [if_pos (by omega)]

theorem sumLoop_eq : ∀ (cont : List Nat) (t s : Nat), sumLoop cont t = some s → s = t + (cont.map (· + 1)).sum
  | [], t, s, h => by simp [sumLoop] at h; simp [h]
  | e :: r, t, s, h => by
    unfold sumLoop orDie at h
    split at h
    · simp only [Option.bind_some] at h
      split at h
      · simp only [Option.bind_some] at h
        have := sumLoop_eq r _ _ h
        simp; omega
      · simp at h
    · simp at h

theorem align_length (cont : List Nat) : ∀ (cells : List (List Nat)) (pos : Nat), cells ≠ [] →
    (∀ i (hi : i < cells.length), cells[i].length ≤ cont.getD (pos + i) 0) →
    (pos + cells.length ≤ cont.length ∨ pos + cells.length ≤ cont.length + 1 ∧ cells.getLast? = some []) →
    (align (fun j => cont.getD j 0) pos cells).length ≤ ((cont.drop pos).map (· + 1)).sum
  | [], _, h, _, _ => absurd rfl h
  | [c], pos, _, h, hl => by
    have h0 := h 0 (by simp)
    simp only [align]
    rcases hl with hl | ⟨_, hl⟩
    · simp at hl
      have hp : pos < cont.length := by omega
      rw [List.drop_eq_getElem_cons hp]
      simp only [Nat.add_zero, List.getElem_cons_zero] at h0
      have e : cont.getD pos 0 = cont[pos] := by simp [hp]
      rw [e] at h0
      simp only [List.map_cons, List.sum_cons]
      omega
    · simp at hl; subst hl; simp
  | c :: d :: r, pos, _, h, hl => by
    have h0 := h 0 (by simp)
    have hp : pos < cont.length := by simp at hl; omega
    have ih := align_length cont (d :: r) (pos + 1) (by simp)
      (by intro i hi; have := h (i + 1) (by simp at hi ⊢; omega); simp at this; rw [show pos + 1 + i = pos + (i + 1) by omega]; simpa using this)
      (by simp at hl ⊢; rcases hl with hl | hl
          · left; omega
          · right; exact ⟨by omega, hl.2⟩)
    rw [List.drop_eq_getElem_cons hp]
    simp [hp] at h0
    simp only [align, List.length_append, List.length_cons, List.length_replicate, List.map_cons, List.sum_cons]
    simp [hp]
    simp at ih
    omega

theorem cell_le (lines : List (List (List Nat))) (l : List (List Nat)) (hl : l ∈ lines) (j : Nat) (hj : j < l.length) :
    l[j].length ≤ colWidth lines j := by
  induction lines with
  | nil => simp at hl
  | cons a ls ih =>
    simp only [colWidth, List.map_cons, List.foldr_cons] at ih ⊢
    rcases List.mem_cons.1 hl with rfl | hl
    · have : (l.getD j []).length = l[j].length := by simp [hj]
      omega
    · have := ih hl; omega

theorem flatten_length (f : List (List Nat) → List Nat) (n : Nat) : ∀ ls : List (List (List Nat)), (∀ l ∈ ls, (f l).length ≤ n) →
    ((ls.map f).flatten).length ≤ n * ls.length
  | [], _ => by simp
  | l :: ls, h => by
    have := flatten_length f n ls (fun x hx => h x (by simp [hx]))
    have := h l (by simp)
    simp only [List.map_cons, List.flatten_cons, List.length_append, List.length_cons, Nat.mul_add]
    omega

/-- **C62** (partial: not for a text that ends with a tab, see `c62_size_violated`): the announced size is enough. -/
theorem c62_size_partial (lines : List (List (List Nat))) (h : IsTable lines) (size : Nat) (cont : List Nat)
    (hc : calculate (tableText lines) = some (size, cont)) (hend : (tableText lines).getLast? ≠ some 9) :
    (aligned lines).length ≤ size := by
  obtain ⟨ls, l, rfl⟩ := split_last lines h.nonempty
  obtain ⟨init, c, rfl⟩ := split_last l (h.cells l (by simp))
  obtain ⟨cont', he, hw, hl1, hl2, hl3⟩ := calculate_spec ls init c h
  rw [he] at hc
  obtain ⟨t, hs, hc⟩ : ∃ t, sumLoop cont' 1 = some t ∧ t * (ls.length + if c = [] then 0 else 1) = size := by
    cases hs : sumLoop cont' 1 with
    | none => simp [hs] at hc
    | some t =>
      simp only [hs, Option.bind_some] at hc
      unfold orDie at hc
      by_cases hlt : t * (ls.length + if c = [] then 0 else 1) < 2 ^ 64
      · rw [if_pos hlt] at hc
        simp only [Option.map_some, Option.some.injEq, Prod.mk.injEq] at hc
        exact ⟨t, rfl, hc.1⟩
      · rw [if_neg hlt] at hc
        simp at hc
  have ht := sumLoop_eq _ _ _ hs
  have hfun : (fun j => cont'.getD j 0) = colWidth (ls ++ [init ++ [c]]) := funext hw
  have hline : ∀ l ∈ ls, (align (colWidth (ls ++ [init ++ [c]])) 0 l ++ [10]).length ≤ t := by
    intro l hl
    have := align_length cont' l 0 (h.cells l (by simp [hl]))
      (by intro i hi; rw [hw]; simpa using cell_le _ l (by simp [hl]) i hi)
      (by left; have := hl1 l hl; omega)
    rw [hfun] at this
    simp only [List.drop_zero] at this
    rw [List.length_append, List.length_singleton]; omega
  have hfl := flatten_length (fun l => align (colWidth (ls ++ [init ++ [c]])) 0 l ++ [10]) t ls hline
  unfold aligned
  rw [aligned_eq, List.length_append]
  have hlast : (align (colWidth (ls ++ [init ++ [c]])) 0 (init ++ [c])).length ≤ t * (if c = [] then 0 else 1) := by
    by_cases hce : c = []
    · subst hce
      cases init with
      | nil => simp [align]
      | cons a init =>
        exfalso
        apply hend
        rw [tableText_eq, join_append 9 (a :: init) [] (by simp)]
        simp
    · have := align_length cont' (init ++ [c]) 0 (by simp)
        (by intro i hi; rw [hw]; simpa using cell_le _ (init ++ [c]) (by simp) i hi)
        (by left; have := hl3 hce; simp; omega)
      rw [hfun] at this
      simp only [List.drop_zero] at this
      rw [if_neg hce]; omega
  rw [← hc, Nat.mul_add]
  omega

/-- A table of the examples: `ab⇥c⏎d⇥efg⏎`. -/
def sample : List (List (List Nat)) := [[[97, 98], [99]], [[100], [101, 102, 103]], [[]]]

example : IsTable sample := ⟨by decide, by decide, by decide⟩
example : calculate (tableText sample) = some (16, [2, 3]) := by decide +kernel
example : print (tableText sample) [2, 3] = some [97, 98, 9, 99, 10, 100, 32, 9, 101, 102, 103, 10] := by decide +kernel
example : (tableText sample).getLast? ≠ some 9 := by decide +kernel

/-- C62 violated: the text `a⇥` announces a size of 0 and then writes two characters. -/
theorem c62_size_violated : calculate [97, 9] = some (0, [1]) ∧ print [97, 9] [1] = some [97, 9] ∧
    IsTable [[[97], []]] ∧ tableText [[[97], []]] = [97, 9] :=
  ⟨by decide +kernel, by decide +kernel, ⟨by decide, by decide, by decide⟩, by decide +kernel⟩

/-- Every text is the text of a table. -/
theorem c62_every_text : ∀ text : List Nat, ∃ lines, IsTable lines ∧ tableText lines = text
  | [] => ⟨[[[]]], ⟨by decide, by decide, by decide⟩, rfl⟩
  | x :: r => by
    obtain ⟨lines, h, rfl⟩ := c62_every_text r
    obtain ⟨l, ls, rfl⟩ : ∃ l ls, lines = l :: ls := by
      cases lines with
      | nil => exact absurd rfl h.nonempty
      | cons l ls => exact ⟨l, ls, rfl⟩
    obtain ⟨c, cs, rfl⟩ : ∃ c cs, l = c :: cs := by
      cases l with
      | nil => exact absurd rfl (h.cells [] (by simp))
      | cons c cs => exact ⟨c, cs, rfl⟩
    by_cases h10 : x = 10
    · subst h10
      refine ⟨[[]] :: (c :: cs) :: ls, ⟨by simp, ?_, ?_⟩, ?_⟩
      · intro l hl
        rcases List.mem_cons.1 hl with rfl | hl
        · simp
        · exact h.cells l hl
      · intro l hl
        rcases List.mem_cons.1 hl with rfl | hl
        · simp
        · exact h.plain l hl
      · simp [tableText, join]
    · have hc := h.cells
      have hp := h.plain
      by_cases h9 : x = 9
      · subst h9
        refine ⟨([] :: c :: cs) :: ls, ⟨by simp, ?_, ?_⟩, ?_⟩
        · intro l hl
          rcases List.mem_cons.1 hl with rfl | hl
          · simp
          · exact h.cells l (by simp [hl])
        · intro l hl d hd
          rcases List.mem_cons.1 hl with rfl | hl
          · rcases List.mem_cons.1 hd with rfl | hd
            · simp
            · exact h.plain _ (by simp) d hd
          · exact h.plain l (by simp [hl]) d hd
        · cases ls <;> simp [tableText, join]
      · refine ⟨((x :: c) :: cs) :: ls, ⟨by simp, ?_, ?_⟩, ?_⟩
        · intro l hl
          rcases List.mem_cons.1 hl with rfl | hl
          · simp
          · exact h.cells l (by simp [hl])
        · intro l hl d hd
          rcases List.mem_cons.1 hl with rfl | hl
          · rcases List.mem_cons.1 hd with rfl | hd
            · intro y hy
              rcases List.mem_cons.1 hy with rfl | hy
              · exact ⟨h9, h10⟩
              · exact h.plain _ (List.mem_cons_self) c (by simp) y hy
            · exact h.plain _ (List.mem_cons_self) d (by simp [hd])
          · exact h.plain l (by simp [hl]) d hd
        · cases ls <;> cases cs <;> simp [tableText, join]

/-- In an aligned line the cell of column `j` begins at the same place whatever the line is. -/
theorem c62_columns (W : Nat → Nat) : ∀ (pre : List (List Nat)) (c : List Nat) (post : List (List Nat)) (j : Nat),
    (∀ i (hi : i < pre.length), pre[i].length ≤ W (j + i)) →
    ∃ p q, align W j (pre ++ c :: post) = p ++ c ++ q ∧ p.length = ((List.range pre.length).map fun i => W (j + i) + 1).sum
  | [], c, post, j, _ => by
    cases post with
    | nil => exact ⟨[], [], by simp [align]⟩
    | cons d post => exact ⟨[], List.replicate (W j - c.length) 32 ++ 9 :: align W (j + 1) (d :: post), by simp [align]⟩
  | a :: pre, c, post, j, h => by
    have h0 := h 0 (by simp)
    obtain ⟨p, q, h1, h2⟩ := c62_columns W pre c post (j + 1) (by
      intro i hi; have := h (i + 1) (by simp; omega)
      rw [show j + 1 + i = j + (i + 1) by omega]; simpa using this)
    refine ⟨a ++ List.replicate (W j - a.length) 32 ++ 9 :: p, q, ?_, ?_⟩
    · have : align W j (a :: pre ++ c :: post) = a ++ List.replicate (W j - a.length) 32 ++ 9 :: align W (j + 1) (pre ++ c :: post) := by
        cases pre <;> simp [align]
      rw [this, h1]; simp
    · simp only [List.length_append, List.length_cons, List.length_replicate, h2, List.range_succ_eq_map, List.map_cons,
        List.map_map, List.sum_cons]
      simp at h0
      have : ((List.range pre.length).map ((fun i => W (j + i) + 1) ∘ Nat.succ)) =
          (List.range pre.length).map fun i => W (j + 1 + i) + 1 := by
        apply List.map_congr_left
        intro i _
        simp only [Function.comp, Nat.succ_eq_add_one]
        rw [show j + (i + 1) = j + 1 + i by omega]
      rw [this]; simp; omega

end Verif.Indent
