import Verif.Float.RtModel
import Verif.Float.Cert32
import Verif.Float.Cert64
/-!
# Kernel-checked facts about the tables of powers of ten

The scaled unit in the last place of a number with exponent `e2` is `2α` with `α = 2^(e2-1)·10^k = 2^u·5^k`,
`u = e2-1+k`.  The program uses the approximation `φ/2^(2w-β)` of `α`.  `chk` checks for one exponent that `α` and its
approximation lie between two neighbouring fractions `a/b ≤ · < c/d` with `b+d` above every multiplier that occurs;
no fraction with a smaller denominator lies in between, so `n·α` and `n·φ/2^(2w-β)` have the same integer part for
*every* multiplier `n` (`floor_same` in `RtCore`).  The check runs over all exponents of the format.
-/
namespace Verif.Float

/-- The table entry for `10^k`. -/
def phiOf (d : DB) (k : Int) : Option Nat :=
  if d.w = 64 then
    if k + 292 < 0 then none else (pow10Tb64[(k + 292).toNat]?).map fun p => p.1 * 2 ^ 64 + p.2
  else
    if k + 31 < 0 then none else pow10Tb32[(k + 31).toNat]?

/-- `minus_k` as computed by the program. -/
def minusKOf (d : DB) (e2 : Int) : Int := mulLn2DivLn10 e2 - d.kappa

/-- `beta_minus_1` as computed by the program. -/
def betaOf (d : DB) (e2 : Int) : Int := e2 + mulLn10DivLn2 (-minusKOf d e2)

/-- The exponent of two of `α`. -/
def uOf (d : DB) (e2 : Int) : Int := e2 - 1 - minusKOf d e2

/-- Numerator of `α`. -/
def numA (d : DB) (e2 : Int) : Nat := 2 ^ (uOf d e2).toNat * 5 ^ (-minusKOf d e2).toNat

/-- Denominator of `α`. -/
def denB (d : DB) (e2 : Int) : Nat := 2 ^ (-uOf d e2).toNat * 5 ^ (minusKOf d e2).toNat

/-- The check for one exponent. -/
def chk (d : DB) (e2 : Int) (c : Nat × Nat) : Bool :=
  let mk := minusKOf d e2
  let u := uOf d e2
  let A := numA d e2
  let B := denB d e2
  let b := c.1
  let dd := c.2
  match phiOf d (-mk) with
  | none => false
  | some φ =>
    let T := 2 ^ (2 * d.w - (betaOf d e2).toNat)
    let a := A * b / B
    let cc := A * dd / B + 1
    decide (1 ≤ betaOf d e2) && decide (betaOf d e2 ≤ (d.w : Int) - d.mbits - 3) && decide (φ < 2 ^ (2 * d.w)) &&
    decide (φ / 2 ^ (2 * d.w - 1 - (betaOf d e2).toNat) = 2 * A / B) &&
    (decide (d.small * B < 2 * A) || decide (e2 = 0)) && decide (2 * A < d.big * B) &&
    decide (cc * b = a * dd + 1) && decide (2 ^ (d.mbits + 2) < b + dd) &&
    decide (a * T ≤ φ * b) && decide (φ * dd < cc * T) &&
    (if e2 ≤ d.hi1 then
      decide (mk ≤ 0) && (decide (d.endLo ≤ e2) == decide (0 ≤ u)) && (decide (d.midLo ≤ e2) == decide (-1 ≤ u))
     else
      decide (0 < mk) && decide (0 ≤ u) && decide (d.midLo ≤ e2) && decide (d.endLo ≤ e2) &&
      (if e2 ≤ d.hi2 then decide (mk < (if d.w = 64 then 24 else 11)) else decide (2 ^ (d.mbits + 2) < 5 ^ mk.toNat)))

/-- The check along a list of certificates. -/
def chkAll (d : DB) : Int → List (Nat × Nat) → Bool
  | _, [] => true
  | e2, c :: cs => chk d e2 c && chkAll d (e2 + 1) cs

theorem chkAll_get (d : DB) (e2 : Int) (cs : List (Nat × Nat)) (h : chkAll d e2 cs = true) (i : Nat)
    (hi : i < cs.length) : ∃ c, chk d (e2 + i) c = true := by
  induction cs generalizing e2 i with
  | nil => simp at hi
  | cons c cs ih =>
    simp only [chkAll, Bool.and_eq_true] at h
    cases i with
    | zero => exact ⟨c, by simpa using h.1⟩
    | succ i =>
      obtain ⟨c', h'⟩ := ih (e2 + 1) h.2 i (by simpa using hi)
      refine ⟨c', ?_⟩
      have : e2 + ((i + 1 : Nat) : Int) = e2 + 1 + (i : Int) := by push_cast; omega
      rw [this]; exact h'

theorem chkAll32 : chkAll db32 (-149) certs32 = true := by decide +kernel
theorem chkAll64 : chkAll db64 (-1074) certs64 = true := by decide +kernel

theorem certs32_length : certs32.length = 254 := by decide +kernel
theorem certs64_length : certs64.length = 2046 := by decide +kernel

/-- Every exponent of a `float` passes. -/
theorem chk32 (e2 : Int) (h1 : -149 ≤ e2) (h2 : e2 ≤ 104) : ∃ c, chk db32 e2 c = true := by
  obtain ⟨c, h⟩ := chkAll_get db32 (-149) certs32 chkAll32 (e2 + 149).toNat (by rw [certs32_length]; omega)
  refine ⟨c, ?_⟩
  have : (-149 : Int) + ((e2 + 149).toNat : Int) = e2 := by omega
  rwa [this] at h

/-- Every exponent of a `double` passes. -/
theorem chk64 (e2 : Int) (h1 : -1074 ≤ e2) (h2 : e2 ≤ 971) : ∃ c, chk db64 e2 c = true := by
  obtain ⟨c, h⟩ := chkAll_get db64 (-1074) certs64 chkAll64 (e2 + 1074).toNat (by rw [certs64_length]; omega)
  refine ⟨c, ?_⟩
  have : (-1074 : Int) + ((e2 + 1074).toNat : Int) = e2 := by omega
  rwa [this] at h

/-- The inverse table for `double` (`float64_mod5_tb`). -/
def chkMod5 (w : Nat) : Nat → List (Nat × Nat) → Bool
  | _, [] => true
  | j, t :: ts => decide (t.1 * 5 ^ j % 2 ^ w = 1) && decide (t.2 = (2 ^ w - 1) / 5 ^ j) && chkMod5 w (j + 1) ts

theorem chkMod5_64 : chkMod5 64 0 mod5Tb64 = true := by decide +kernel
theorem chkMod5_32 : chkMod5 32 0 mod5Tb32 = true := by decide +kernel

theorem chkMod5_get (w j : Nat) (ts : List (Nat × Nat)) (h : chkMod5 w j ts = true) (i : Nat) (t : Nat × Nat)
    (hi : ts[i]? = some t) : t.1 * 5 ^ (j + i) % 2 ^ w = 1 ∧ t.2 = (2 ^ w - 1) / 5 ^ (j + i) := by
  induction ts generalizing j i with
  | nil => simp at hi
  | cons x xs ih =>
    simp only [chkMod5, Bool.and_eq_true, decide_eq_true_eq] at h
    cases i with
    | zero =>
      simp only [List.getElem?_cons_zero, Option.some.injEq] at hi
      subst hi
      exact h.1
    | succ i =>
      have := ih (j + 1) h.2 i (by simpa using hi)
      rwa [show j + 1 + i = j + (i + 1) by omega] at this

theorem mod5Tb64_length : mod5Tb64.length = 24 := by decide
theorem mod5Tb32_length : mod5Tb32.length = 11 := by decide

end Verif.Float
