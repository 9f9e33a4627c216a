import Verif.Hash.CtxLemmas
/-!
# The two-word message counter

`pesudo_uint_least128_t` (md5_sha_hash_context.h:6-16) replaces `__uint128_t` on compilers without it. Here: its updates
are the updates of a 128-bit counter.
-/
namespace Verif.Hash.Counter
open Verif

/-- `add_carry_naive` (intrinsics.h:66-74) on 64-bit words: carry out and result. -/
def addCarry (carry : Bool) (a b : Nat) : Bool × Nat :=
  let temp := (carry.toNat + a) % 2 ^ 64
  let out := (temp + b) % 2 ^ 64
  (decide (out < b) || decide (temp < a), out)

/-- The pair of members. -/
structure Two where
  low : Nat
  high : Nat

/-- `add_carry(add_carry(false,low,al,low),high,ah,high)` (md5_sha_hash_context.h:44,80-83). -/
def add2 (c : Two) (al ah : Nat) : Two :=
  let l := addCarry false c.low al
  let h := addCarry l.1 c.high ah
  ⟨l.2, h.2⟩

/-- `update_impl`'s counter update (md5_sha_hash_context.h:38-46). -/
def advance (c : Two) (bytes : Nat) : Two := add2 c bytes 0

/-- `append_sentinal`'s `ct` (md5_sha_hash_context.h:76-84): add, then double three times. -/
def bits (c : Two) (val : Nat) : Two :=
  let ct := add2 c val 0
  let ct := add2 ct ct.low ct.high
  let ct := add2 ct ct.low ct.high
  add2 ct ct.low ct.high

/-- `if constexpr(std::endian::native!=hash_endian)` (md5_sha_hash_context.h:90-97) and the object representation of the
pair (md5_sha_hash_context.h:6-16,104: low word first on a little-endian host, high word first on a big-endian one). -/
def store (native big : Bool) (ct : Two) : List Nat :=
  let ct := if native = big then ⟨byteSwap 8 ct.high, byteSwap 8 ct.low⟩ else ct
  if native then Lebe.repr native 8 ct.low ++ Lebe.repr native 8 ct.high
  else Lebe.repr native 8 ct.high ++ Lebe.repr native 8 ct.low

/-- The 128-bit number. -/
def Two.val (c : Two) : Nat := c.low + 2 ^ 64 * c.high

def Two.Ok (c : Two) : Prop := c.low < 2 ^ 64 ∧ c.high < 2 ^ 64

theorem addCarry_spec (carry : Bool) (a b : Nat) (ha : a < 2 ^ 64) (hb : b < 2 ^ 64) :
    (addCarry carry a b).2 + 2 ^ 64 * (addCarry carry a b).1.toNat = a + b + carry.toNat ∧ (addCarry carry a b).2 < 2 ^ 64 := by
  unfold addCarry
  have hc : carry.toNat ≤ 1 := by cases carry <;> simp
  generalize carry.toNat = c at *
  simp only
  constructor
  · by_cases h1 : c + a < 2 ^ 64
    · rw [Nat.mod_eq_of_lt h1]
      have : decide (c + a < a) = false := by simp
      rw [this, Bool.or_false]
      by_cases h2 : c + a + b < 2 ^ 64
      · rw [Nat.mod_eq_of_lt h2]
        have : decide (c + a + b < b) = false := by simp
        rw [this]; simp; omega
      · rw [Nat.mod_eq_sub_mod (by omega), Nat.mod_eq_of_lt (by omega)]
        have : decide (c + a + b - 2 ^ 64 < b) = true := by simp; omega
        rw [this]; simp; omega
    · have h0 : c + a = 2 ^ 64 := by omega
      rw [h0, Nat.mod_self, Nat.zero_add, Nat.mod_eq_of_lt hb]
      have : decide (0 < a) = true := by simp; omega
      rw [this]; simp; omega
  · exact Nat.mod_lt _ (by decide)

theorem add2_spec (c : Two) (al ah : Nat) (hc : c.Ok) (h1 : al < 2 ^ 64) (h2 : ah < 2 ^ 64) :
    (add2 c al ah).val = (c.val + (al + 2 ^ 64 * ah)) % 2 ^ 128 ∧ (add2 c al ah).Ok := by
  obtain ⟨e1, b1⟩ := addCarry_spec false c.low al hc.1 h1
  obtain ⟨e2, b2⟩ := addCarry_spec (addCarry false c.low al).1 c.high ah hc.2 h2
  refine ⟨?_, b1, b2⟩
  unfold add2 Two.val
  simp only
  generalize (addCarry (addCarry false c.low al).1 c.high ah).2 = y at *
  generalize (addCarry (addCarry false c.low al).1 c.high ah).1 = z at *
  generalize (addCarry false c.low al).2 = x at *
  generalize (addCarry false c.low al).1 = w at *
  have e : c.low + 2 ^ 64 * c.high + (al + 2 ^ 64 * ah) = x + 2 ^ 64 * y + 2 ^ 128 * z.toNat := by
    simp only [Bool.toNat_false] at e1
    omega
  rw [e, Nat.add_mul_mod_self_left, Nat.mod_eq_of_lt (by omega)]

theorem advance_spec (c : Two) (n : Nat) (hc : c.Ok) (hn : n < 2 ^ 64) :
    (advance c n).val = (c.val + n) % 2 ^ 128 ∧ (advance c n).Ok := by
  simpa [advance] using add2_spec c n 0 hc hn (by decide)

theorem bits_spec (c : Two) (n : Nat) (hc : c.Ok) (hn : n < 2 ^ 64) :
    (bits c n).val = (c.val + n) % 2 ^ 128 * 8 % 2 ^ 128 ∧ (bits c n).Ok := by
  obtain ⟨e0, h0⟩ := advance_spec c n hc hn
  unfold bits
  rw [show add2 c n 0 = advance c n from rfl]
  generalize advance c n = d at *
  have dbl : ∀ d : Two, d.Ok → (add2 d d.low d.high).val = 2 * d.val % 2 ^ 128 ∧ (add2 d d.low d.high).Ok := by
    intro d hd
    obtain ⟨e, h⟩ := add2_spec d d.low d.high hd hd.1 hd.2
    refine ⟨?_, h⟩
    rw [e, two_mul]; rfl
  obtain ⟨e1, h1⟩ := dbl d h0
  obtain ⟨e2, h2⟩ := dbl _ h1
  obtain ⟨e3, h3⟩ := dbl _ h2
  refine ⟨?_, h3⟩
  simp only
  rw [e3, e2, e1, e0]
  omega

theorem leBytes_add (n m a b : Nat) (ha : a < 256 ^ n) : leBytes (n + m) (a + 256 ^ n * b) = leBytes n a ++ leBytes m b := by
  induction n generalizing a with
  | zero => simp at ha; subst ha; simp [leBytes]
  | succ n ih =>
    rw [show n + 1 + m = (n + m) + 1 by omega, leBytes, leBytes, List.cons_append]
    rw [pow_succ] at ha
    have h1 : (a + 256 ^ (n + 1) * b) % 256 = a % 256 := by
      rw [pow_succ, Nat.mul_comm (256 ^ n), Nat.mul_assoc, Nat.add_mul_mod_self_left]
    have h2 : (a + 256 ^ (n + 1) * b) / 256 = a / 256 + 256 ^ n * b := by
      rw [pow_succ, Nat.mul_comm (256 ^ n), Nat.mul_assoc, Nat.add_mul_div_left _ _ (by decide)]
    rw [h1, h2, ih _ (by omega)]

theorem store_spec (native big : Bool) (ct : Two) (h : ct.Ok) :
    store native big ct = if big then beBytes 16 ct.val else leBytes 16 ct.val := by
  have e : leBytes 16 ct.val = leBytes 8 ct.low ++ leBytes 8 ct.high :=
    leBytes_add 8 8 ct.low ct.high (by have := h.1; omega)
  have e' : beBytes 16 ct.val = beBytes 8 ct.high ++ beBytes 8 ct.low := by
    rw [beBytes, e, List.reverse_append]; rfl
  rw [e, e']
  unfold store
  cases native <;> cases big <;> simp [Lebe.repr, leBytes_byteSwap, beBytes_byteSwap]

end Verif.Hash.Counter
