import Verif.IntScan.Spec
/-!
# What `scan(in, args...)` should do

The rest of the input is a text; each argument takes a prefix of it. Independent of buffers, blocks and devices.
-/
namespace Verif.Scan
open Verif Verif.IntPrint Verif.IntScan

/-- A value stored in an argument. -/
inductive Val | num (i : Int) | str (s : List Nat)
deriving DecidableEq, Repr

/-- What scanning one argument yields: the rest of the input, the status, the value stored. -/
structure Out where
  rest : List Nat
  code : Code
  value : Option Val
deriving DecidableEq, Repr

/-- Kinds of arguments. -/
inductive What
  /-- a `std::string`: white space is skipped, then the longest run of other characters -/
  | word
  /-- the same without skipping white space -/
  | token
  /-- `line_get(str)`: up to and including the next line feed, which is not stored -/
  | line
  /-- `whole_get(str)`: everything -/
  | whole
  /-- `str_get_all(str,n)`: exactly `n` characters -/
  | chars (n : Nat)
  /-- an integer -/
  | int (bits : Nat) (signed noskipws skipzero : Bool) (base : Nat)
  /-- a value made of exactly `n` characters (binary integers, `le_get` and the like) -/
  | fixed (n : Nat) (f : List Nat → Val)

/-- `Reads w T o`: an argument of kind `w` takes a prefix of the text `T` with outcome `o`. -/
def Reads : What → List Nat → Out → Prop
  | .word, T, o =>
    ((∀ c ∈ T, IsSpace c) ∧ o = ⟨[], .eof, none⟩) ∨
    ∃ ws w r, T = ws ++ w ++ r ∧ (∀ c ∈ ws, IsSpace c) ∧ w ≠ [] ∧ (∀ c ∈ w, ¬ IsSpace c) ∧ (∀ c t, r = c :: t → IsSpace c) ∧
      o = ⟨r, .ok, some (.str w)⟩
  | .token, T, o =>
    (T = [] ∧ o = ⟨[], .eof, none⟩) ∨
    (T ≠ [] ∧ ∃ w r, T = w ++ r ∧ (∀ c ∈ w, ¬ IsSpace c) ∧ (∀ c t, r = c :: t → IsSpace c) ∧ o = ⟨r, .ok, some (.str w)⟩)
  | .line, T, o =>
    (T = [] ∧ o = ⟨[], .eof, none⟩) ∨
    (T ≠ [] ∧ 10 ∉ T ∧ o = ⟨[], .ok, some (.str T)⟩) ∨
    ∃ w r, T = w ++ 10 :: r ∧ 10 ∉ w ∧ o = ⟨r, .ok, some (.str w)⟩
  | .whole, T, o => o = ⟨[], .ok, some (.str T)⟩
  | .chars n, T, o => (T.length < n ∧ o = ⟨[], .eof, none⟩) ∨ ∃ w r, T = w ++ r ∧ w.length = n ∧ o = ⟨r, .ok, some (.str w)⟩
  | .int bits signed noskipws skipzero base, T, o =>
    ∃ p, ScanSpec bits signed noskipws skipzero base T p ∧ o = ⟨p.rest, p.code, p.value.map .num⟩
  | .fixed n f, T, o => (T.length < n ∧ o = ⟨[], .eof, none⟩) ∨ ∃ w r, T = w ++ r ∧ w.length = n ∧ o = ⟨r, .ok, some (f w)⟩

/-- `ReadAll ws T vs e r`: the arguments are read one after the other; `vs` are the values of those that were read, `e` is why it
stopped before the end (`none`: it did not), `r` is the rest of the input. -/
inductive ReadAll : List What → List Nat → List Val → Option Code → List Nat → Prop
  | done (T) : ReadAll [] T [] none T
  | more {w ws T r v vs e r'} : Reads w T ⟨r, .ok, some v⟩ → ReadAll ws r vs e r' → ReadAll (w :: ws) T (v :: vs) e r'
  | stop {w ws T r c v} : Reads w T ⟨r, c, v⟩ → c ≠ .ok → ReadAll (w :: ws) T [] (some c) r

/-- How `scan` reports why it stopped: it returns `true` when every argument was read, `false` at the end of the input, and throws any
other code. -/
def Ends (e : Option Code) (returned : Option Bool) (thrown : Option Code) : Prop :=
  (e = none ∧ returned = some true ∧ thrown = none) ∨ (e = some .eof ∧ returned = some false ∧ thrown = none) ∨
  ∃ c, e = some c ∧ c ≠ .eof ∧ returned = none ∧ thrown = some c

/-- What the caller of `scan(in,args...)` sees: the arguments in order read values off the text `T` and leave `rest`; those values are
in the variables, the variables behind the one that failed keep their old values (`before`). -/
def Scanned (ws : List What) (before : List Val) (T : List Nat) (vars : List Val) (rest : List Nat) (returned : Option Bool)
    (thrown : Option Code) : Prop :=
  ∃ vs e, ReadAll ws T vs e rest ∧ Ends e returned thrown ∧ vs <+: vars ∧ vars.length = before.length ∧
    vars.drop (vs.length + 1) = before.drop (vs.length + 1)

/-! ### Texts of numbers -/

/-- The decimal text of an integer. -/
def decimal (i : Int) : List Nat := signText false i ++ (numeral 10 i.natAbs).map (digitChar false)

/-- Numbers, each preceded by its separator, then a tail. -/
def numText : List (List Nat × Int) → List Nat → List Nat
  | [], tail => tail
  | (sep, i) :: items, tail => sep ++ (decimal i ++ numText items tail)

/-- The separators are white space, and none but the first is empty; the tail does not begin with a digit: it is empty or begins with
white space. -/
def Separated : List (List Nat × Int) → List Nat → Prop
  | [], tail => ∀ c ∈ tail, IsSpace c
  | (sep, _) :: items, tail => (∀ c ∈ sep, IsSpace c) ∧ (∀ p ∈ items, p.1 ≠ []) ∧ Separated items tail


end Verif.Scan
