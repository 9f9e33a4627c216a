/-!
# Random numbers from the system (specification)

The system has an endless sequence of random bytes, numbered 0, 1, 2, ...; it gives them out in order, each once. What matters about memory is
which of these bytes each byte of it is.
-/
namespace Verif.Rand

/-- Memory: for each address the number of the random byte that is there, `none`: something else. -/
abbrev Mem := Nat → Option Nat

/-- The `n` bytes at address `a` are random bytes with numbers from `lo` to before `hi`, all different, and in order. -/
def Fresh (m : Mem) (a n lo hi : Nat) : Prop :=
  ∃ f : Nat → Nat, (∀ i < n, m (a + i) = some (f i) ∧ lo ≤ f i ∧ f i < hi) ∧ ∀ i j, i < j → j < n → f i < f j

/-- The request `RNDGETENTCNT` of the Linux interface, `_IOR('R',0,int)`: direction 2, size 4, type `R`, number 0. -/
def RNDGETENTCNT : Nat := 2 * 2 ^ 30 + 4 * 2 ^ 16 + 0x52 * 2 ^ 8 + 0

end Verif.Rand
