import Verif.IntScan.Spec
/-!
# Internet addresses as text

Dotted decimal IPv4 addresses, and the text forms of IPv6 addresses (RFC 4291 section 2.2, RFC 5952 section 4.2),
independent of the implementation.
-/
namespace Verif.Ip
open Verif Verif.IntPrint Verif.IntScan

/-- An IPv4 address: its four octets. -/
structure Addr4 where
  a : Nat
  b : Nat
  c : Nat
  d : Nat
deriving DecidableEq, Repr

/-- All four octets are in `0..255`. -/
def Addr4.Ok (x : Addr4) : Prop := x.a < 256 ∧ x.b < 256 ∧ x.c < 256 ∧ x.d < 256

/-- Dotted decimal, e.g. `192.168.0.1`: canonical decimal numerals separated by `.`. -/
def dotted (x : Addr4) : List Nat :=
  decText x.a ++ ascii "." ++ decText x.b ++ ascii "." ++ decText x.c ++ ascii "." ++ decText x.d

/-- The text begins with the dotted decimal of `x`; what follows is not a digit. -/
def StartsWithAddr (l : List Nat) (x : Addr4) (rest : List Nat) : Prop :=
  x.Ok ∧ l = dotted x ++ rest ∧ NoDigitFirst 10 rest

/-- The text begins with `address:port`. -/
def StartsWithAddrPort (l : List Nat) (x : Addr4) (port : Nat) (rest : List Nat) : Prop :=
  x.Ok ∧ port < 65536 ∧ l = dotted x ++ ascii ":" ++ decText port ++ rest ∧ NoDigitFirst 10 rest

/-! ## IPv6 -/

/-- The text of one 16-bit group: a canonical hexadecimal numeral, or exactly four digits if `full`. -/
def groupText (upper full : Bool) (g : Nat) : List Nat :=
  (if full then padded 16 4 g else numeral 16 g).map (digitChar upper)

/-- Texts joined by `:`. -/
def colons (ts : List (List Nat)) : List Nat := [58].intercalate ts

/-- `g[i], ..., g[i+n-1]` exist and are zero. -/
def ZeroRun (g : List Nat) (i n : Nat) : Prop := i + n ≤ g.length ∧ ∀ k < n, g[i + k]? = some 0

/-- The run that RFC 5952 replaces by `::`: at least two zero groups, as many as possible, the first of its length. -/
def BestRun (g : List Nat) (i n : Nat) : Prop :=
  2 ≤ n ∧ ZeroRun g i n ∧ ∀ j m, ZeroRun g j m → m ≤ n ∧ (m = n → i ≤ j)

/-- RFC 5952 text of the groups `g` (`shorten`), or the eight groups (not `shorten`). -/
def IsV6Text (shorten upper full : Bool) (g : List Nat) (txt : List Nat) : Prop :=
  if shorten then
    (∃ i n, BestRun g i n ∧
      txt = colons ((g.take i).map (groupText upper full)) ++ ascii "::" ++
        colons ((g.drop (i + n)).map (groupText upper full))) ∨
    ((∀ j, ¬ ZeroRun g j 2) ∧ txt = colons (g.map (groupText upper full)))
  else txt = colons (g.map (groupText upper full))

/-- One group as RFC 4291 reads it: one to four hexadecimal digits. -/
def ReadsGroup (txt : List Nat) (g : Nat) : Prop :=
  ∃ ds, DigitRun 16 txt ds ∧ 1 ≤ ds.length ∧ ds.length ≤ 4 ∧ digitsValue 16 ds = g

/-- RFC 4291 2.2: the text `txt` denotes the eight groups `g`: either all of them separated by `:`, or with one run
of at least one zero group replaced by `::`. -/
inductive Denotes : List Nat → List Nat → Prop
  | long (ts g) : List.Forall₂ ReadsGroup ts g → g.length = 8 → Denotes (colons ts) g
  | short (ts us g h n) : List.Forall₂ ReadsGroup ts g → List.Forall₂ ReadsGroup us h → 1 ≤ n →
      g.length + n + h.length = 8 → Denotes (colons ts ++ ascii "::" ++ colons us) (g ++ List.replicate n 0 ++ h)

/-- The native value of the 16-bit word whose two bytes in memory are the network (big-endian) bytes of group `g`. -/
def netWord (little : Bool) (g : Nat) : Nat := if little then g % 256 * 256 + g / 256 else g

end Verif.Ip
