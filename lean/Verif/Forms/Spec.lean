import Verif.Num.Spec
import Verif.IntPrint.Spec
import Verif.TsText.Spec
/-!
# What the fixed text forms of bytes, permissions, bit sets and file status are
-/
namespace Verif.Forms
open Verif Verif.IntPrint

/-- Two hexadecimal digits for every byte, the high half first. -/
def hexText (upper : Bool) (bs : List Nat) : List Nat := bs.flatMap fun b => [digitChar upper (b / 16), digitChar upper (b % 16)]

/-- The groups of 8, 4, 4, 4 and 12 digits of a UUID (RFC 9562). -/
def uuidText (upper : Bool) (bs : List Nat) : List Nat :=
  let h := hexText upper bs
  h.take 8 ++ [45] ++ (h.drop 8).take 4 ++ [45] ++ (h.drop 12).take 4 ++ [45] ++ (h.drop 16).take 4 ++ [45] ++ h.drop 20

/-- `rwxrwxrwx` with a dash for every permission that is not granted; the first letter stands for bit 8 (octal 400). -/
def permText (p : Nat) : List Nat :=
  (List.range 9).map fun i => if p.testBit (8 - i) then (ascii "rwx").getD (i % 3) 0 else 45

/-- `n` binary digits of `v`, the highest first, as `std::bitset<n>::to_string`. -/
def bitText (n v : Nat) : List Nat := (List.range n).map fun i => if v.testBit (n - 1 - i) then 49 else 48

/-- The number whose `w`-bit digits, lowest first, are `ws`. -/
def ofWords (w : Nat) : List Nat → Nat
  | [] => 0
  | x :: xs => x + 2 ^ w * ofWords w xs

/-- The enumerators of `file_type`. -/
inductive FileType where
  | none | not_found | regular | directory | symlink | block | character | fifo | socket | unknown | remote
deriving DecidableEq

/-- The names. -/
def FileType.name : FileType → String
  | .none => "none" | .not_found => "not_found" | .regular => "regular" | .directory => "directory" | .symlink => "symlink"
  | .block => "block" | .character => "character" | .fifo => "fifo" | .socket => "socket" | .unknown => "unknown" | .remote => "remote"

/-- Their values in the source. -/
def FileType.code : FileType → Int
  | .none => 0 | .not_found => -1 | .regular => 1 | .directory => 2 | .symlink => 3 | .block => 4 | .character => 5 | .fifo => 6
  | .socket => 7 | .unknown => 8 | .remote => 9

/-- A value in a file status. -/
inductive Value where
  | num (n : Nat) | perm (p : Nat) | type (t : FileType) | time (t : Time.TS)

/-- The text of a value. -/
def Value.Text : Value → List Nat → Prop
  | .num n, txt => txt = decText n
  | .perm p, txt => txt = permText p
  | .type t, txt => txt = ascii t.name
  | .time t, txt => TsText.DecimalText [46] txt t.val

/-- The range of a value. -/
def Value.Ok : Value → Prop
  | .num n => n < 2 ^ 64
  | .time t => t.Ok
  | _ => True

/-- Lines `label:value`, separated by line feeds. -/
inductive Lines : List (String × Value) → List Nat → Prop
  | one (l : String) (v : Value) (txt : List Nat) : v.Text txt → Lines [(l, v)] (ascii l ++ [58] ++ txt)
  | cons (l : String) (v : Value) (txt : List Nat) (rest : List (String × Value)) (more : List Nat) : v.Text txt → Lines rest more →
      Lines ((l, v) :: rest) (ascii l ++ [58] ++ txt ++ [10] ++ more)

end Verif.Forms
