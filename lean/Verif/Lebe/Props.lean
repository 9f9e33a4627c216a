import Verif.Lebe.Model
import Mathlib.Tactic.Linarith
/-!
# Property C14: fixed-width little and big endian integers
-/
namespace Verif.Lebe
open Verif Verif.IntPrint

/-- The bytes of `u` in the requested order (specification). -/
def bytes (le : Bool) (n u : Nat) : List Nat := if le then leBytes n u else beBytes n u

/-- The number with the given bytes in the requested order (specification). -/
def number (le : Bool) (l : List Nat) : Nat := if le then ofLe l else ofBe l

theorem bytes_length (le : Bool) (n u : Nat) : (bytes le n u).length = n := by cases le <;> simp [bytes]

theorem bytes_lt (le : Bool) (n u : Nat) : ∀ b ∈ bytes le n u, b < 256 := by
  cases le
  · exact beBytes_lt n u
  · exact leBytes_lt n u

theorem number_bytes (le : Bool) {n u : Nat} (h : u < 256 ^ n) : number le (bytes le n u) = u := by
  cases le
  · exact ofBe_beBytes_of_lt h
  · exact ofLe_leBytes_of_lt h

/-- The specification determines the bytes. -/
theorem bytes_number (le : Bool) {l : List Nat} (h : ∀ b ∈ l, b < 256) : bytes le l.length (number le l) = l := by
  cases le
  · have := leBytes_ofLe l.reverse (by simpa using h)
    simp only [bytes, number, beBytes, ofBe, Bool.false_eq_true, if_false]
    rw [List.length_reverse] at this
    rw [this, List.reverse_reverse]
  · exact leBytes_ofLe l h

theorem number_lt (le : Bool) {l : List Nat} (h : ∀ b ∈ l, b < 256) : number le l < 256 ^ l.length := by
  cases le
  · have := ofLe_lt l.reverse (by simpa using h)
    simpa [number, ofBe] using this
  · exact ofLe_lt l h

/-- The supported sizes. -/
def Size (sz : Nat) : Prop := sz = 8 ∨ sz = 16 ∨ sz = 32 ∨ sz = 64 ∨ sz = 128

theorem size_pow {sz : Nat} (h : Size sz) : (256 : Nat) ^ (sz / 8) = 2 ^ sz ∧ 1 ≤ sz / 8 ∧ (sz / 8 = 1 → sz = 8) := by
  rcases h with h | h | h | h | h <;> subst h <;> norm_num

theorem repr_swap (native le : Bool) (n u : Nat) :
    repr native n (if native ≠ le then byteSwap n u else u) = bytes le n u := by
  cases native <;> cases le <;> simp [repr, bytes, leBytes_byteSwap, beBytes]

theorem ofRepr_swap (native le : Bool) {l : List Nat} (h : ∀ b ∈ l, b < 256) :
    (if native ≠ le then byteSwap l.length (ofRepr native l) else ofRepr native l) = number le l := by
  cases native <;> cases le <;> simp only [ne_eq, not_true_eq_false, if_false, ofRepr, number, if_true, Bool.false_eq_true,
    not_false_eq_true, reduceCtorEq]
  · rw [byteSwap_eq, ofBe, beBytes]
    have := leBytes_ofLe l.reverse (by simpa using h)
    rw [List.length_reverse] at this
    rw [this, List.reverse_reverse]
  · rw [byteSwap_eq, beBytes, leBytes_ofLe l h]; rfl

/-- The unsigned image of a value of a type: the value itself when it is not negative. -/
def image (bits : Nat) (t : Int) : Nat := (t % 2 ^ bits).toNat

theorem image_eq {bits : Nat} {signed : Bool} {t : Int} (h : InRange bits signed t) (hw : Width bits) :
    (0 ≤ t → (image bits t : Int) = t) ∧ (t < 0 → (image bits t : Int) = t + 2 ^ bits) ∧ image bits t < 2 ^ bits := by
  unfold InRange at h
  have hp : (2 : Int) ^ bits = 2 * 2 ^ (bits - 1) := by
    rcases hw with h | h | h | h | h <;> subst h <;> norm_num
  have hpos : (0 : Int) < 2 ^ (bits - 1) := by positivity
  have hlt : (image bits t : Int) = t % 2 ^ bits := by
    unfold image; rw [Int.toNat_of_nonneg (Int.emod_nonneg _ (by positivity))]
  refine ⟨fun h0 => ?_, fun h0 => ?_, ?_⟩
  · rw [hlt, Int.emod_eq_of_lt h0]; split at h <;> omega
  · rw [hlt, ← Int.add_emod_right, Int.emod_eq_of_lt] <;> split at h <;> omega
  · have := Int.emod_lt_of_pos t (show (0 : Int) < 2 ^ bits by positivity)
    rw [← hlt] at this
    exact_mod_cast this

theorem lebePut_eq {sz bits : Nat} (hs : Size sz) (hw : Width bits) (t : Int) :
    lebePut sz bits t = if image bits t < 2 ^ sz then some (image bits t) else none := by
  unfold lebePut
  dsimp only
  change (if sz < bits then if _ < image bits t then none else some (image bits t % 2 ^ sz) else some (image bits t % 2 ^ sz)) = _
  have hlt : image bits t < 2 ^ bits := by
    have := Int.emod_lt_of_pos t (show (0 : Int) < 2 ^ bits by positivity)
    have h0 := Int.emod_nonneg t (show (2 : Int) ^ bits ≠ 0 by positivity)
    have : ((image bits t : Nat) : Int) < ((2 ^ bits : Nat) : Int) := by
      unfold image; rw [Int.toNat_of_nonneg h0]; push_cast; exact this
    exact_mod_cast this
  split
  · next h =>
    have hmx : ((1 * 2 ^ (sz - 1) % 2 ^ bits + (2 ^ bits - 1)) % 2 ^ bits + 1 * 2 ^ (sz - 1) % 2 ^ bits) % 2 ^ bits = 2 ^ sz - 1 := by
      rcases hs with h' | h' | h' | h' | h' <;> rcases hw with h'' | h'' | h'' | h'' | h'' <;> subst h' h'' <;>
        first | omega | norm_num
    rw [hmx]
    have := Nat.one_le_two_pow (n := sz)
    by_cases h2 : image bits t < 2 ^ sz
    · rw [if_neg (by omega), if_pos h2, Nat.mod_eq_of_lt h2]
    · rw [if_pos (by omega), if_neg h2]
  · next h =>
    have hle : 2 ^ bits ≤ 2 ^ sz := Nat.pow_le_pow_right (by norm_num) (by omega)
    rw [if_pos (by omega), Nat.mod_eq_of_lt (by omega)]

/-- **C14 (put).** On every host, `le_put<sz>`/`be_put<sz>` of a value of a type writes exactly the `sz/8` bytes, in the
requested order, of the value (of its two's complement image if it is negative), and raises the error exactly when that
image does not fit in `sz` bits. Partial: excludes a single byte written to a stream of wider characters. -/
theorem c14_put_partial {sz bits cw : Nat} (hs : Size sz) (hw : Width bits) (hcw : cw = 8 ∨ 8 < sz) (native le : Bool)
    (signed : Bool) {t : Int} (ht : InRange bits signed t) :
    ∃ u : Nat, (u : Int) = (if t < 0 then t + 2 ^ bits else t) ∧
      (u < 2 ^ sz → ∃ p, lebePut sz bits t = some p ∧
        ∀ old, old.length = sz / 8 → printLebe native le sz cw p old = bytes le (sz / 8) u) ∧
      (2 ^ sz ≤ u → lebePut sz bits t = none) := by
  obtain ⟨h1, h2, h3⟩ := image_eq ht hw
  refine ⟨image bits t, by split <;> [exact h2 (by omega); exact h1 (by omega)], ?_, ?_⟩
  · intro hlt
    refine ⟨_, by rw [lebePut_eq hs hw, if_pos hlt], ?_⟩
    intro old ho
    obtain ⟨hp, hn, h8⟩ := size_pow hs
    unfold printLebe
    dsimp only
    split
    · exact repr_swap native le _ _
    · next hn1 =>
      have hs8 : sz = 8 := h8 (by omega)
      subst hs8
      have hcw8 : cw = 8 := by omega
      subst hcw8
      obtain ⟨o, rfl⟩ : ∃ o, old = [o] := by
        match old, ho with
        | [o], _ => exact ⟨o, rfl⟩
      have himg : image bits t < 256 := by simpa using hlt
      have hsw : (if native ≠ le then byteSwap (8 / 8) (image bits t) else image bits t) = image bits t := by
        split
        · rw [byteSwap_eq]
          simp [beBytes, leBytes, ofLe]; omega
        · rfl
      rw [hsw]
      generalize image bits t = x at *
      cases native <;> cases le <;>
        simp [bytes, beBytes, leBytes, pokeByte, ofRepr, repr, ofBe, ofLe] <;> omega
  · intro hge
    rw [lebePut_eq hs hw, if_neg (by omega)]

/-- **C14 violated.** Writing one byte to a stream of wider characters leaves the other bytes of the character as they
were in the (uninitialised) buffer: the character written is not the byte. -/
theorem c14_wide_byte_violated :
    ∃ p, lebePut 8 8 0x41 = some p ∧ printLebe true true 8 16 p [0x1234] = [0x1241] ∧
      printLebe true true 8 16 p [0x1234] ≠ bytes true 1 0x41 := by
  refine ⟨0x41, ?_, ?_, ?_⟩ <;> decide +kernel

/-- **C14 (get).** Reading `n/8` bytes stores the integer whose bytes in the requested order they are, when it fits the
unsigned image of the target type, and reports invalid otherwise. -/
theorem c14_get {n bits cw : Nat} (hs : Size n) (native le signed : Bool) {l : List Nat}
    (hl : l.length = n / 8) (hb : ∀ b ∈ l, b < 256) :
    (number le l < 2 ^ bits → getLebe native le n bits signed cw l = (.ok, some (fromBits bits signed (number le l)))) ∧
    (2 ^ bits ≤ number le l → getLebe native le n bits signed cw l = (.invalid, none)) := by
  have hr : readLebe native le cw l = some (number le l) := by
    unfold readLebe
    rw [if_neg]
    · rw [← ofRepr_swap native le hb]
    · rintro ⟨_, h⟩
      obtain ⟨c, hc, h'⟩ := List.any_eq_true.mp h
      have := hb c hc; simp at h'; omega
  unfold getLebe
  rw [hr]
  have := Nat.one_le_two_pow (n := bits)
  refine ⟨fun h => ?_, fun h => ?_⟩
  · dsimp only
    rw [Nat.mod_eq_of_lt h]
    split
    · rw [if_neg (by omega)]
    · rfl
  · have hlt := number_lt le hb
    rw [hl, (size_pow hs).1] at hlt
    dsimp only
    rw [if_pos, if_pos (by omega)]
    by_contra h'
    have : 2 ^ n ≤ 2 ^ bits := Nat.pow_le_pow_right (by norm_num) (by omega)
    omega

/-- **C14 (get).** A wide character that is not a byte is reported as invalid. -/
theorem c14_get_wide {n bits cw : Nat} (native le signed : Bool) {l : List Nat} (hcw : 8 < cw) (hb : ∃ b ∈ l, 256 ≤ b) :
    getLebe native le n bits signed cw l = (.invalid, none) := by
  have hr : readLebe native le cw l = none := by
    unfold readLebe
    rw [if_pos]
    refine ⟨hcw, ?_⟩
    obtain ⟨b, hb, h⟩ := hb
    exact List.any_eq_true.mpr ⟨b, hb, by simp; omega⟩
  unfold getLebe; rw [hr]

/-- **C14 (round trip).** What is written for a value of a type is read back as that value. -/
theorem c14_round_trip_partial {sz bits cw : Nat} (hs : Size sz) (hw : Width bits) (hcw : cw = 8 ∨ 8 < sz) (native le : Bool)
    (signed : Bool) {t : Int} (ht : InRange bits signed t) {p : Nat} (hp : lebePut sz bits t = some p) (old : List Nat)
    (ho : old.length = sz / 8) :
    getLebe native le sz bits signed cw (printLebe native le sz cw p old) = (.ok, some t) := by
  obtain ⟨u, h1, h2, h3⟩ := c14_put_partial hs hw hcw native le signed ht
  have hlt : u < 2 ^ sz := by
    by_contra h; rw [h3 (by omega)] at hp; simp at hp
  obtain ⟨p', hp', hpr⟩ := h2 hlt
  obtain rfl : p = p' := by rw [hp] at hp'; simpa using hp'
  rw [hpr old ho]
  have hub : (u : Int) < 2 ^ bits := by
    rw [h1]; unfold InRange at ht
    have hpp : (2 : Int) ^ bits = 2 * 2 ^ (bits - 1) := by
      rcases hw with h | h | h | h | h <;> subst h <;> norm_num
    have hpos : (0 : Int) < 2 ^ (bits - 1) := by positivity
    split <;> split at ht <;> omega
  have hub' : u < 2 ^ bits := by exact_mod_cast hub
  have hnum : number le (bytes le (sz / 8) u) = u := number_bytes le (by rw [(size_pow hs).1]; exact hlt)
  obtain ⟨g1, _⟩ := c14_get (bits := bits) (cw := cw) hs native le signed (bytes_length le (sz / 8) u) (bytes_lt le _ u)
  rw [hnum] at g1
  rw [g1 hub']
  congr 2
  unfold fromBits
  unfold InRange at ht
  have hpp : (2 : Int) ^ bits = 2 * 2 ^ (bits - 1) := by
    rcases hw with h | h | h | h | h <;> subst h <;> norm_num
  have hpos : (0 : Int) < 2 ^ (bits - 1) := by positivity
  have hc : (2 ^ (bits - 1) ≤ u) ↔ ((2 : Int) ^ (bits - 1) ≤ u) := by
    constructor
    · intro h; exact_mod_cast h
    · intro h; exact_mod_cast h
  simp only [hc, h1]
  cases signed <;> simp only [Bool.false_eq_true, false_and, if_false, if_true, true_and] at * <;> split <;> (try split) <;> omega

example : lebePut 16 32 (-1) = none ∧ lebePut 16 32 0x1234 = some 0x1234 ∧
    printLebe true false 16 8 0x1234 [0, 0] = [0x12, 0x34] ∧ printLebe true true 16 8 0x1234 [0, 0] = [0x34, 0x12] := by
  decide +kernel
example : getLebe true false 32 16 true 16 [0, 0, 0xff, 0xfe] = (.ok, some (-2)) ∧
    getLebe true false 32 16 true 16 [0, 1, 0xff, 0xfe] = (.invalid, none) := by decide +kernel
example : Size 16 ∧ Width 32 ∧ InRange 32 true 0x1234 := ⟨by unfold Size; omega, by unfold Width; omega, by unfold InRange; decide⟩

end Verif.Lebe
