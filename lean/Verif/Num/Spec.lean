/-!
# Specification of positional numerals

Independent of any algorithm: what it means for a list of digits / a text to be *the* numeral of a number.
-/
namespace Verif

/-- Value of a digit sequence, most significant digit first (Horner). -/
def digitsValue (b : Nat) (ds : List Nat) : Nat := ds.foldl (fun acc d => acc * b + d) 0

/-- `ds` is the canonical base-`b` digit sequence of `n`: its digits are below `b`, its value is `n`, it is not
empty and it has no superfluous leading zero. -/
structure IsNumeral (b : Nat) (ds : List Nat) (n : Nat) : Prop where
  digits_lt : ∀ d ∈ ds, d < b
  value : digitsValue b ds = n
  nonempty : ds ≠ []
  no_leading_zero : ds.head? = some 0 → ds = [0]

/-- The character of a digit: `0-9` then letters, in lower or upper case (ASCII). -/
def digitChar (upper : Bool) (d : Nat) : Nat :=
  if d < 10 then 48 + d else (if upper then 65 else 97) + (d - 10)

/-- `txt` is the canonical base-`b` numeral text of `n`. -/
def IsNumeralText (b : Nat) (upper : Bool) (txt : List Nat) (n : Nat) : Prop :=
  ∃ ds, IsNumeral b ds n ∧ txt = ds.map (digitChar upper)

/-- The canonical digits, computed by repeated division (used to *exhibit* the numeral; that it satisfies
`IsNumeral`, and that `IsNumeral` determines it, is proved in `Verif.Num.Lemmas`). -/
def numeral (b n : Nat) : List Nat :=
  if h : n < b ∨ b ≤ 1 then [n] else numeral b (n / b) ++ [n % b]
termination_by n
decreasing_by
  have : 0 < n := by omega
  exact Nat.div_lt_self this (by omega)

/-- Exactly `k` digits of `n`, zero-padded on the left (keeps only the low `k` digits). -/
def padded (b : Nat) : Nat → Nat → List Nat
  | 0, _ => []
  | k + 1, n => padded b k (n / b) ++ [n % b]

/-- Decimal text of a natural number. -/
def decText (n : Nat) : List Nat := (numeral 10 n).map (digitChar false)

end Verif
