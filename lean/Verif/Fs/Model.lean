import Verif.Fs.Spec
/-!
# Model of `fast_io_hosted/filesystem/fsutils.h`

A name is an array of characters; pointers are indices.  `none` is a read outside the name.
-/
namespace Verif.Fs

/-- `my_rfind_dot` (fsutils.h:6-17): the loop going down from `last`; the result is the position after the last period, 0 (`first`) if there is none. -/
def rfindDot (nm : List Nat) : Nat → Option Nat
  | 0 => some 0
  | last + 1 => do
    let c ← nm[last]?
    if c = 46 then some (last + 1) else rfindDot nm last

/-- A view `{pointer, length}` into the name (`basic_os_str_known_size_without_null_terminated`, `basic_os_c_str_with_known_size`). -/
structure View where
  pos : Nat
  len : Nat
deriving Repr, DecidableEq

/-- What the caller sees through the view; `none` when the view leaves the name. -/
def View.text (v : View) (nm : List Nat) : Option (List Nat) :=
  if v.pos + v.len ≤ nm.length then some ((nm.drop v.pos).take v.len) else none

/-- The condition of fsutils.h:31; `*beg_ptr` is read only when `diff` is 2. -/
def noExt (nm : List Nat) (diff : Nat) : Option Bool :=
  if diff < 2 then some true
  else if diff = 2 ∧ 2 < nm.length then do
    let c ← nm[0]?
    some (c = 46)
  else some false

/-- `find_dot_and_sep<true>` (fsutils.h:19-66), the stem; the branch for another `return_char_type` only casts the pointer. -/
def stem (nm : List Nat) : Option View := do
  let f ← rfindDot nm nm.length
  let diff := f
  if ← noExt nm diff then some ⟨0, nm.length⟩
  else some ⟨0, diff - 2⟩

/-- `find_dot_and_sep<false>` (fsutils.h:19-66), the extension. -/
def extension (nm : List Nat) : Option View := do
  let f ← rfindDot nm nm.length
  let diff := f
  if ← noExt nm diff then some ⟨nm.length, 0⟩
  else
    let f' := f - 1
    some ⟨f', nm.length - f'⟩

end Verif.Fs
