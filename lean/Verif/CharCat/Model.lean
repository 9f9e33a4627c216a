import Verif.CharCat.Spec
/-!
# Model of `include/fast_io_core_impl/char_category.h`

For an ASCII based execution character set (not EBCDIC, `wchar_t` in native byte order). A character type has `w` bits
and may be signed; its values are integers in its range.
-/
namespace Verif.CharCat

/-- A `std::integral` character type. -/
structure CT where
  w : Nat
  signed : Bool

/-- The values of the type. -/
def CT.Ok (t : CT) (v : Int) : Prop :=
  if t.signed then -(2 ^ (t.w - 1) : Int) ≤ v ∧ v < (2 ^ (t.w - 1) : Int) else 0 ≤ v ∧ v < (2 ^ t.w : Int)

/-- `static_cast` to an unsigned type of `w` bits. -/
def toU (w : Nat) (v : Int) : Nat := (v % (2 ^ w : Int)).toNat
/-- `static_cast<char_type>`. -/
def CT.cast (t : CT) (v : Int) : Int :=
  let u := v % (2 ^ t.w : Int)
  if t.signed ∧ (2 ^ (t.w - 1) : Int) ≤ u then u - (2 ^ t.w : Int) else u

/-- `switch(ch){case …:return true;default:return false;}`. -/
def switchB (tab : List Nat) (v : Int) : Bool := tab.any fun c => decide ((c : Int) = v)

/-- The cases of `is_c_alnum` (char_category.h:6-15; the three copies for `char`, `wchar_t` and the other types have the
same characters). -/
def alnumTab : List Nat := [
  48, 49, 50, 51, 52, 53, 54, 55, 56, 57, 65, 66, 67, 68, 69, 70, 71, 72, 73, 74, 75, 76, 77, 78,
  79, 80, 81, 82, 83, 84, 85, 86, 87, 88, 89, 90, 97, 98, 99, 100, 101, 102, 103, 104, 105, 106, 107, 108,
  109, 110, 111, 112, 113, 114, 115, 116, 117, 118, 119, 120, 121, 122]
/-- `is_c_alnum` (char_category.h:6-15). -/
def alnum (v : Int) : Bool := switchB alnumTab v

/-- The cases of `is_c_alpha` (char_category.h:17-26; the three copies for `char`, `wchar_t` and the other types have the
same characters). -/
def alphaTab : List Nat := [
  65, 66, 67, 68, 69, 70, 71, 72, 73, 74, 75, 76, 77, 78, 79, 80, 81, 82, 83, 84, 85, 86, 87, 88,
  89, 90, 97, 98, 99, 100, 101, 102, 103, 104, 105, 106, 107, 108, 109, 110, 111, 112, 113, 114, 115, 116, 117, 118,
  119, 120, 121, 122]
/-- `is_c_alpha` (char_category.h:17-26). -/
def alpha (v : Int) : Bool := switchB alphaTab v

/-- The cases of `is_c_lower` (char_category.h:28-37; the three copies for `char`, `wchar_t` and the other types have the
same characters). -/
def lowerTab : List Nat := [
  97, 98, 99, 100, 101, 102, 103, 104, 105, 106, 107, 108, 109, 110, 111, 112, 113, 114, 115, 116, 117, 118, 119, 120,
  121, 122]
/-- `is_c_lower` (char_category.h:28-37). -/
def lower (v : Int) : Bool := switchB lowerTab v

/-- The cases of `is_c_upper` (char_category.h:39-48; the three copies for `char`, `wchar_t` and the other types have the
same characters). -/
def upperTab : List Nat := [
  65, 66, 67, 68, 69, 70, 71, 72, 73, 74, 75, 76, 77, 78, 79, 80, 81, 82, 83, 84, 85, 86, 87, 88,
  89, 90]
/-- `is_c_upper` (char_category.h:39-48). -/
def upper (v : Int) : Bool := switchB upperTab v

/-- The cases of `is_c_digit` (char_category.h:50-59; the three copies for `char`, `wchar_t` and the other types have the
same characters). -/
def digitTab : List Nat := [
  48, 49, 50, 51, 52, 53, 54, 55, 56, 57]
/-- `is_c_digit` (char_category.h:50-59). -/
def digit (v : Int) : Bool := switchB digitTab v

/-- The cases of `is_c_xdigit` (char_category.h:61-70; the three copies for `char`, `wchar_t` and the other types have the
same characters). -/
def xdigitTab : List Nat := [
  48, 49, 50, 51, 52, 53, 54, 55, 56, 57, 97, 98, 99, 100, 101, 102, 65, 66, 67, 68, 69, 70]
/-- `is_c_xdigit` (char_category.h:61-70). -/
def xdigit (v : Int) : Bool := switchB xdigitTab v

/-- The cases of `is_c_punct` (char_category.h:72-81; the three copies for `char`, `wchar_t` and the other types have the
same characters). -/
def punctTab : List Nat := [
  33, 34, 35, 36, 37, 38, 39, 40, 41, 42, 43, 44, 45, 46, 47, 58, 59, 60, 61, 62, 63, 64, 91, 92,
  93, 94, 95, 96, 123, 124, 125, 126]
/-- `is_c_punct` (char_category.h:72-81). -/
def punct (v : Int) : Bool := switchB punctTab v

/-- The cases of `is_c_graph` (char_category.h:83-92; the three copies for `char`, `wchar_t` and the other types have the
same characters). -/
def graphTab : List Nat := [
  48, 49, 50, 51, 52, 53, 54, 55, 56, 57, 65, 66, 67, 68, 69, 70, 71, 72, 73, 74, 75, 76, 77, 78,
  79, 80, 81, 82, 83, 84, 85, 86, 87, 88, 89, 90, 97, 98, 99, 100, 101, 102, 103, 104, 105, 106, 107, 108,
  109, 110, 111, 112, 113, 114, 115, 116, 117, 118, 119, 120, 121, 122, 33, 34, 35, 36, 37, 38, 39, 40, 41, 42,
  43, 44, 45, 46, 47, 58, 59, 60, 61, 62, 63, 64, 91, 92, 93, 94, 95, 96, 123, 124, 125, 126]
/-- `is_c_graph` (char_category.h:83-92). -/
def graph (v : Int) : Bool := switchB graphTab v

/-- The cases of `is_c_print` (char_category.h:94-103; the three copies for `char`, `wchar_t` and the other types have the
same characters). -/
def printTab : List Nat := [
  48, 49, 50, 51, 52, 53, 54, 55, 56, 57, 65, 66, 67, 68, 69, 70, 71, 72, 73, 74, 75, 76, 77, 78,
  79, 80, 81, 82, 83, 84, 85, 86, 87, 88, 89, 90, 97, 98, 99, 100, 101, 102, 103, 104, 105, 106, 107, 108,
  109, 110, 111, 112, 113, 114, 115, 116, 117, 118, 119, 120, 121, 122, 33, 34, 35, 36, 37, 38, 39, 40, 41, 42,
  43, 44, 45, 46, 47, 58, 59, 60, 61, 62, 63, 64, 91, 92, 93, 94, 95, 96, 123, 124, 125, 126, 32]
/-- `is_c_print` (char_category.h:94-103). -/
def print (v : Int) : Bool := switchB printTab v

/-- `to_c_upper_ascii_impl` (char_category.h:106-113) on `char32_t`. -/
def toUpper32 (ch : Nat) : Nat :=
  let res := toU 32 ((ch : Int) - 97)
  if res < 26 then toU 32 (res + 65) else ch
/-- `to_c_lower_ascii_impl` (char_category.h:115-122). -/
def toLower32 (ch : Nat) : Nat :=
  let res := toU 32 ((ch : Int) - 65)
  if res < 26 then toU 32 (res + 97) else ch

/-- `to_c_lower` (char_category.h:126-137): the unsigned value is converted to `char32_t` by the call. -/
def toLower (t : CT) (v : Int) : Int := t.cast (toU t.w (toLower32 (toU 32 (toU t.w v))))
/-- `to_c_upper` (char_category.h:139-150). -/
def toUpper (t : CT) (v : Int) : Int := t.cast (toU t.w (toUpper32 (toU 32 (toU t.w v))))

/-- `is_c_space_impl<false>` (char_category.h:198-211) on an unsigned value of `w` bits. -/
def spaceImpl (w : Nat) (e : Nat) : Bool := decide (e = 0x20) || decide (toU w ((e : Int) - 0x9) < 0x5)
/-- `is_c_space_tb_impl<false,char8_t>` (char_category.h:214-221). -/
def spaceTb : List Bool := (List.range 256).map fun (i : Nat) => spaceImpl 8 (toU 8 i)
/-- `is_c_space` (char_category.h:228-249). -/
def space (t : CT) (v : Int) : Bool :=
  if t.w = 8 then spaceTb.getD (toU 8 v) false else spaceImpl 32 (toU 32 (toU t.w v))

/-- `is_html_whitespace_ascii_impl` (char_category.h:267-275). -/
def htmlTab : List Nat := [0x0009, 0x000A, 0x000C, 0x000D, 0x0020]
/-- `is_html_whitespace` (char_category.h:309-328). -/
def html (t : CT) (v : Int) : Bool :=
  if t.w ≤ 32 then switchB htmlTab (toU 32 (toU t.w v)) else switchB htmlTab (toU t.w v)

/-- `is_c_halfwidth` (char_category.h:330-360): below 32 bits the character itself, converted to `bool`. -/
def halfwidth (t : CT) (v : Int) : Bool :=
  if t.w < 32 then decide (v ≠ 0)
  else if t.w = 32 then decide (toU 32 ((toU 32 v : Int) - 0x21) < 94)
  else decide (toU t.w ((toU t.w v : Int) - 0x21) < 94)

/-- `is_c_fullwidth` (char_category.h:362-392). -/
def fullwidth (t : CT) (v : Int) : Bool :=
  if t.w < 32 then decide (v ≠ 0)
  else if t.w = 32 then decide (toU 32 ((toU 32 v : Int) - 0xFF01) < 94)
  else decide (toU t.w ((toU t.w v : Int) - 0xFF01) < 94)

/-- `to_c_halfwidth` (char_category.h:399-442). -/
def toHalf (t : CT) (v : Int) : Int :=
  if t.w < 32 then v
  else
    let u := toU t.w v
    let umav := toU t.w ((u : Int) - 0xFF01)
    t.cast (if umav < 94 then toU t.w (umav + 0x21) else u)

end Verif.CharCat
