import Verif.Print.Spec
/-!
# What printing with a locale is expected to write

`print(imbue(all,out),a,b,c)` prints every argument that knows about locales in the way of the locale, and every other
argument as `print(out,…)` would; one after the other, and `println` puts a line feed behind them. `lc_concat` returns
the same text as a string.
-/
namespace Verif.LcPrint
open Verif.Print

/-- An argument: how it is printed without a locale (`plain`), and the ways it has of being printed with the locale in question.

* `lcScatter`: the localised text is available as a range (`print_scatter_define(all,t)`);
* `lcDynamic = some n`: it announces that `n` characters suffice (`print_reserve_size(all,t)`) and writes its text into the
  space it is given;
* `lcCustom = some l`: it has a `print_define(all,out,t)` that makes the calls `l`.

`lcText` is the localised text, `lcJunk` what is left behind the end of it inside the announced space. -/
structure LcArg where
  plain : Item
  lcText : List Nat := []
  lcJunk : List Nat := []
  lcScatter : Bool := false
  lcDynamic : Option Nat := none
  lcCustom : Option (List Prim) := none
deriving DecidableEq, Repr

/-- The argument knows about locales. -/
def LcArg.localised (a : LcArg) : Bool := a.lcScatter || a.lcDynamic.isSome || a.lcCustom.isSome

/-- The text the argument stands for. -/
def LcArg.text (a : LcArg) : List Nat := if a.localised then a.lcText else a.plain.text

/-- The argument keeps the promises it makes. -/
structure LcArg.Honest (a : LcArg) : Prop where
  plain_ok : a.localised = false → a.plain.Honest
  dynamic_ok : ∀ n, a.lcDynamic = some n → a.lcText.length + a.lcJunk.length ≤ n ∧ n < 2 ^ 63 - 2
  custom_ok : ∀ l, a.lcCustom = some l → (l.map Prim.text).flatten = a.lcText

/-- What a `print` (`line = false`) or `println` with the locale has to write. -/
def lcExpected (line : Bool) (args : List LcArg) : List Nat :=
  (args.map LcArg.text).flatten ++ if line then [10] else []

/-- Whoever prints an argument as a range, or with an announced size, without a locale can do no less with a locale:
nothing that has a localised `print_define` only can be printed with an announced size or as a range without locale, and
nothing of which only the size is known with a locale is available as a range without. All argument types of the library
itself that are `std::chrono` or number types are of this kind. -/
def LcArg.Coherent (a : LcArg) : Prop :=
  (a.localised = true → a.lcScatter = false → a.lcDynamic = none → a.plain.scatter = false ∧ a.plain.reserve = none ∧ a.plain.dynamic = none) ∧
  (a.lcDynamic ≠ none → a.lcScatter = false → a.plain.scatter = false)

end Verif.LcPrint
