/-!
# What threads sharing streams may expect

Streams are numbered; `S` is the state of one stream (its buffer, its pointers and its device), `R` what a call returns.
A call seen from the inside is a sequence of single accesses to such states; between two accesses anything may happen in other
threads.  The specification knows only what a call does *when nothing disturbs it* (`Body.exec`), and asks that a parallel
execution look like the calls made one after another.
-/
namespace Verif.Conc

/-- The store with stream `i` changed to `x`. -/
def set {S : Type} (st : Nat → S) (i : Nat) (x : S) : Nat → S := fun j => if j = i then x else st j

/-- The inside of a call: it returns, or accesses stream `i` once — changing it by `f` and continuing with what it saw. -/
inductive Body (S R : Type)
  | ret (r : R)
  | act (i : Nat) (f : S → S) (k : S → Body S R)

/-- What a call does when nothing disturbs it. -/
def Body.exec {S R : Type} : Body S R → (Nat → S) → (Nat → S) × R
  | .ret r, st => (st, r)
  | .act i f k, st => (k (st i)).exec (set st i (f (st i)))

/-- Every access of the call is to a stream satisfying `P`. -/
def Body.Only {S R : Type} (P : Nat → Prop) : Body S R → Prop
  | .ret _ => True
  | .act i _ k => P i ∧ ∀ s, (k s).Only P

/-- Calls made one after another, each undisturbed: `Serial st l st'` says that the calls of `l`, in this order, return the
results noted in `l` and lead from `st` to `st'`. -/
inductive Serial {A S R : Type} : (Nat → S) → List (A × Body S R × R) → (Nat → S) → Prop
  | nil (st) : Serial st [] st
  | cons {st st1 st2 a b r l} : b.exec st = (st1, r) → Serial st1 l st2 → Serial st ((a, b, r) :: l) st2

/-- The texts of the calls in the order `l`, one after the other. -/
def texts {A B : Type} (text : B → List Nat) (l : List (A × B)) : List Nat := (l.map fun p => text p.2).flatten

/-- `l` is an interleaving of the lists `f t`: what `l` contains of `t` is exactly `f t`, in its order. -/
def Interleaves {n : Nat} {B : Type} (f : Fin n → List B) (l : List (Fin n × B)) : Prop :=
  ∀ t, (l.filter fun p => p.1 = t).map Prod.snd = f t

end Verif.Conc
