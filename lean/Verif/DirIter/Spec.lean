/-!
# Directory iteration (specification)

A directory as the operating system lists it, and the order in which a recursive iteration is to deliver its files. This file does not mention the
implementation.
-/
namespace Verif.DirIter

/-- A file name: its bytes. -/
abbrev Name := List Nat

/-- The listing of a directory, in the order in which the system delivers it: files, subdirectories with their own listings, and the
entries "." and "..". `t` is the type the system reports with the entry (4 is a directory, 0 unknown). -/
inductive Listing where
  | done
  | file (name : Name) (t : Nat) (rest : Listing)
  | dir (name : Name) (t : Nat) (sub rest : Listing)
  | dot (name : Name) (t : Nat) (rest : Listing)

/-- The names in a listing. -/
def Listing.names : Listing → List Name
  | .done => []
  | .file n _ r => n :: r.names
  | .dir n _ _ r => n :: r.names
  | .dot n _ r => n :: r.names

/-- "." and "..". -/
def IsDot (n : Name) : Prop := n = [46] ∨ n = [46, 46]

instance (n : Name) : Decidable (IsDot n) := by unfold IsDot; infer_instance

/-- What holds of every directory: no two entries have the same name, names have no NUL and are not empty, only "." and ".." are called so;
the same in subdirectories. -/
def Listing.Ok : Listing → Prop
  | .done => True
  | .file n _ r => n ∉ r.names ∧ 0 ∉ n ∧ n ≠ [] ∧ ¬ IsDot n ∧ r.Ok
  | .dir n _ s r => n ∉ r.names ∧ 0 ∉ n ∧ n ≠ [] ∧ ¬ IsDot n ∧ s.Ok ∧ r.Ok
  | .dot n _ r => n ∉ r.names ∧ IsDot n ∧ r.Ok

/-- The system reports the types of directories, and of nothing else, as "directory". -/
def Listing.Typed : Listing → Prop
  | .done => True
  | .file _ t r => t ≠ 4 ∧ r.Typed
  | .dir _ t s r => t = 4 ∧ s.Typed ∧ r.Typed
  | .dot _ t r => t = 4 ∧ r.Typed

/-- A file met on the way: its path, beginning at the directory iterated over, and whether it is a directory. -/
structure Visit where
  path : List Name
  isDir : Bool
deriving DecidableEq

/-- The files below a directory whose path is `pre`, every directory before its contents. Where `leave` says so the user calls `pop`:
behind a directory this passes over its contents, behind another file it leaves the directory the file is in. With `leave` never
true, every file is met exactly once. -/
def walk (leave : Visit → Bool) (pre : List Name) : Listing → List Visit
  | .done => []
  | .file n _ r =>
    if leave ⟨pre ++ [n], false⟩ then [⟨pre ++ [n], false⟩] else ⟨pre ++ [n], false⟩ :: walk leave pre r
  | .dir n _ s r =>
    if leave ⟨pre ++ [n], true⟩ then ⟨pre ++ [n], true⟩ :: walk leave pre r
    else ⟨pre ++ [n], true⟩ :: (walk leave (pre ++ [n]) s ++ walk leave pre r)
  | .dot _ _ r => walk leave pre r

/-- The file at a path below a listing: `some true` a directory, `some false` another file. -/
def find : List Name → Listing → Option Bool
  | _, .done => none
  | [], _ => none
  | [n], .file m _ r => if n = m then some false else find [n] r
  | [n], .dir m _ _ r => if n = m then some true else find [n] r
  | n :: p, .file _ _ r => find (n :: p) r
  | n :: p, .dir m _ s r => if n = m then find p s else find (n :: p) r
  | p, .dot _ _ r => find p r

end Verif.DirIter
