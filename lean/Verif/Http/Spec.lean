import Mathlib.Data.List.Basic
/-!
# Specification of HTTP header reading

A header is the text up to and including the first empty line, that is, up to the first CR LF CR LF.  It consists of a
status (or request) line with three parts separated by spaces, and field lines `key: value`.
-/
namespace Verif.Http

/-- CR LF. -/
def CRLF : List Nat := [13, 10]

/-- `h` ends at its first empty line: it ends with CR LF CR LF and no shorter prefix does. -/
def EndsFirst (h : List Nat) : Prop :=
  CRLF ++ CRLF <:+ h ∧ ∀ p s, h = p ++ s → s ≠ [] → ¬ (CRLF ++ CRLF <:+ p)

/-- Every CR of `h` is followed by LF. -/
def NoLoneCR (h : List Nat) : Prop := ∀ p c s, h = p ++ 13 :: c :: s → c = 10

/-- One field line: `indent` spaces, the key, and (if `colon`) `:`, `gap` spaces and the value. -/
structure Field where
  indent : Nat := 0
  key : List Nat
  colon : Bool := true
  gap : Nat := 1
  value : List Nat

/-- The text of a field line, without CR LF. -/
def Field.text (f : Field) : List Nat :=
  List.replicate f.indent 32 ++ f.key ++ if f.colon then 58 :: (List.replicate f.gap 32 ++ f.value) else []

/-- The conditions that make the parts of a field line identifiable: no CR, the key has no `:` and does not start with a
space, the value does not start with a space; without `:` there is no value; and the line is not empty. -/
structure Field.Valid (f : Field) : Prop where
  key : 13 ∉ f.key ∧ 58 ∉ f.key ∧ f.key.head? ≠ some 32
  value : 13 ∉ f.value ∧ f.value.head? ≠ some 32
  bare : f.colon = false → f.value = []
  nonempty : f.text ≠ []

/-- A header: the three parts of the status line, with `sp1 + 1` and `sp2 + 1` spaces between them, and the fields. -/
structure Header where
  request : List Nat
  sp1 : Nat := 0
  code : List Nat
  sp2 : Nat := 0
  reason : List Nat
  fields : List Field

/-- The status line. -/
def Header.status (h : Header) : List Nat :=
  h.request ++ List.replicate (h.sp1 + 1) 32 ++ h.code ++ List.replicate (h.sp2 + 1) 32 ++ h.reason

/-- The text of a header. -/
def Header.text (h : Header) : List Nat :=
  h.status ++ CRLF ++ h.fields.flatMap (fun f => f.text ++ CRLF) ++ CRLF

/-- The conditions that make the parts identifiable. -/
structure Header.Valid (h : Header) : Prop where
  request : h.request ≠ [] ∧ 32 ∉ h.request ∧ 13 ∉ h.request
  code : h.code ≠ [] ∧ 32 ∉ h.code ∧ 13 ∉ h.code
  reason : 13 ∉ h.reason ∧ h.reason.head? ≠ some 32
  fields : ∀ f ∈ h.fields, f.Valid

end Verif.Http
