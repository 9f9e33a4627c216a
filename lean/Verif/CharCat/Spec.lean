/-!
# Character classes of the "C" locale (C11 7.4, 5.2.1) on ASCII codes, independently of the library

A character value is an `Int`; values outside 0..127 belong to no class.
-/
namespace Verif.CharCat.Spec

def Upper (v : Int) : Prop := 65 ≤ v ∧ v ≤ 90
def Lower (v : Int) : Prop := 97 ≤ v ∧ v ≤ 122
def Digit (v : Int) : Prop := 48 ≤ v ∧ v ≤ 57
def Alpha (v : Int) : Prop := Upper v ∨ Lower v
def Alnum (v : Int) : Prop := Alpha v ∨ Digit v
def Xdigit (v : Int) : Prop := Digit v ∨ (65 ≤ v ∧ v ≤ 70) ∨ (97 ≤ v ∧ v ≤ 102)
/-- Every printing character except space (7.4.1.6). -/
def Graph (v : Int) : Prop := 33 ≤ v ∧ v ≤ 126
def Print (v : Int) : Prop := 32 ≤ v ∧ v ≤ 126
/-- Printing characters that are neither space nor alphanumeric (7.4.1.9). -/
def Punct (v : Int) : Prop := Graph v ∧ ¬ Alnum v
/-- space, `\t`, `\n`, `\v`, `\f`, `\r` (7.4.1.10). -/
def Space (v : Int) : Prop := v = 32 ∨ v = 9 ∨ v = 10 ∨ v = 11 ∨ v = 12 ∨ v = 13
/-- ASCII whitespace of HTML: TAB, LF, FF, CR, SPACE. -/
def HtmlSpace (v : Int) : Prop := v = 32 ∨ v = 9 ∨ v = 10 ∨ v = 12 ∨ v = 13
/-- Fullwidth ASCII variants of Unicode: U+FF01 to U+FF5E, for U+0021 to U+007E. -/
def Fullwidth (v : Int) : Prop := 0xFF01 ≤ v ∧ v ≤ 0xFF5E
def Halfwidth (v : Int) : Prop := 0x21 ≤ v ∧ v ≤ 0x7E

/-- `r` is the lower-case character of `v`, or `v` if it is not an upper-case letter. -/
def IsLowerOf (v r : Int) : Prop := (Upper v → r = v + (97 - 65)) ∧ (¬ Upper v → r = v)
def IsUpperOf (v r : Int) : Prop := (Lower v → r = v - (97 - 65)) ∧ (¬ Lower v → r = v)
def IsHalfOf (v r : Int) : Prop := (Fullwidth v → r = v - 0xFEE0) ∧ (¬ Fullwidth v → r = v)

end Verif.CharCat.Spec
