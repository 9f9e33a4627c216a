import Verif.Float.Spec
/-!
# Specification: texts of complex numbers

`(re,im)`; with the comma as decimal point the parts are separated by a full stop.  The separator must not occur in a part,
so that the text can be taken apart again.
-/
namespace Verif.Cplx.Spec
open Verif

/-- The character between the parts: never the decimal point. -/
def separator (comma : Bool) : Nat := if comma then 46 else 44

/-- The text with the parts `a` and `b`. -/
def pairText (comma : Bool) (a b : List Nat) : List Nat := [40] ++ a ++ [separator comma] ++ b ++ [41]

/-- `txt` is the text of a pair whose parts have the texts described by `P` and `Q`, and it can be read as a pair in no
other way. -/
def IsPairText (comma : Bool) (P Q : List Nat → Prop) (txt : List Nat) : Prop :=
  ∃ a b, txt = pairText comma a b ∧ P a ∧ Q b ∧ ∀ a' b', txt = pairText comma a' b' → a' = a ∧ b' = b

end Verif.Cplx.Spec
