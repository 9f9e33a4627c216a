import Verif.Ip.Model
import Verif.IntScan.Props
/-! Printing addresses. -/
namespace Verif.Ip
open Verif Verif.IntPrint Verif.IntScan

/-- `f` writes exactly `txt` at the current position. -/
def Writes (f : Mem × Nat → Option (Mem × Nat)) (txt : List Nat) : Prop :=
  ∀ m p, f (m, p) = some (store m p txt, p + txt.length)

theorem writes_nil : Writes some [] := by intro m p; simp

theorem Writes.bind {f g : Mem × Nat → Option (Mem × Nat)} {a b : List Nat} (hf : Writes f a) (hg : Writes g b) :
    Writes (fun s => (f s).bind g) (a ++ b) := by
  intro m p
  simp only [hf m p, Option.bind_some]
  rw [hg, store_store_append]; simp [Nat.add_assoc]

theorem writes_put (c : Nat) : Writes (fun s => some (put c s)) [c] := by intro m p; rfl

theorem Writes.congr {f g : Mem × Nat → Option (Mem × Nat)} {a b : List Nat} (hf : Writes f a) (h : ∀ s, g s = f s) (e : a = b) :
    Writes g b := by
  subst e; intro m p; rw [h]; exact hf m p

theorem writes_dec (bits : Nat) (hw : Width bits) (n : Nat) (hn : n < 2 ^ bits) :
    Writes (fun s => printInt bits false {} s.1 s.2 n) (decText n) := by
  intro m p
  simp only
  rw [printInt_eq bits hw false {} rfl (by decide) (by decide) (by intro; simp) (n : Int)
    (by simp only [InRange, Bool.false_eq_true, if_false]; exact ⟨by omega, by exact_mod_cast hn⟩) m p]
  have : ¬ ((n : Int) < 0) := by omega
  simp [signText, this, ascii, decText]

theorem writes_oct (n : Nat) (hn : n < 256) : Writes (fun s => printInt 8 false {} s.1 s.2 n) (decText n) :=
  writes_dec 8 (by simp [Width]) n hn

theorem writes_octets (os : List Nat) (ho : ∀ o ∈ os, o < 256) :
    Writes (prtInaddr false os) (os.flatMap fun o => 46 :: decText o) := by
  induction os with
  | nil => exact writes_nil
  | cons o os ih =>
    have h1 := (writes_put 46).bind ((writes_oct o (ho o (by simp))).bind (ih fun x hx => ho x (by simp [hx])))
    exact h1.congr (by intro s; simp [prtInaddr]) (by simp)

theorem writes_inaddr (x : Addr4) (hx : x.Ok) : Writes (prtInaddr true [x.a, x.b, x.c, x.d]) (dotted x) := by
  obtain ⟨h1, h2, h3, h4⟩ := hx
  have h := (writes_oct x.a h1).bind (writes_octets [x.b, x.c, x.d] (by simp; omega))
  exact h.congr (by intro s; simp [prtInaddr]) (by simp [dotted, ascii])

theorem writes_port (n : Nat) (hn : n < 65536) : Writes (fun s => prtPort s n) (ascii ":" ++ decText n) := by
  have h := (writes_put 58).bind (writes_dec 16 (by simp [Width]) n hn)
  exact h.congr (by intro s; simp [prtPort]) (by simp [ascii])

theorem writes_portZero : Writes (fun s => some (prtPortZero s)) (ascii ":0") := by
  intro m p; simp [prtPortZero, ascii]

/-! ## IPv6 groups -/

theorem digits_unique {b : Nat} : ∀ (n : Nat) {ds es : List Nat}, ds.length = n → es.length = n → (∀ d ∈ ds, d < b) →
    (∀ d ∈ es, d < b) → digitsValue b ds = digitsValue b es → ds = es := by
  intro n
  induction n with
  | zero => intro ds es h1 h2 _ _ _; rw [List.length_eq_zero_iff.mp h1, List.length_eq_zero_iff.mp h2]
  | succ n ih =>
    intro ds es h1 h2 hd he hv
    obtain ⟨ds', d, rfl⟩ : ∃ t d, ds = t ++ [d] := ⟨ds.dropLast, ds.getLast (by rintro rfl; simp at h1), (List.dropLast_append_getLast _).symm⟩
    obtain ⟨es', e, rfl⟩ : ∃ t d, es = t ++ [d] := ⟨es.dropLast, es.getLast (by rintro rfl; simp at h2), (List.dropLast_append_getLast _).symm⟩
    rw [digitsValue_append_singleton, digitsValue_append_singleton] at hv
    have h3 := hd d (by simp)
    have h4 := he e (by simp)
    have h5 : digitsValue b ds' = digitsValue b es' := by
      have := congrArg (· / b) hv
      simpa [Nat.mul_add_div, Nat.add_div, Nat.div_eq_of_lt h3, Nat.div_eq_of_lt h4, Nat.mul_comm, Nat.mul_add_div (show b > 0 by omega)] using this
    rw [ih (by simpa using h1) (by simpa using h2) (fun x hx => hd x (by simp [hx])) (fun x hx => he x (by simp [hx])) h5]
    rw [h5] at hv
    simp; omega

theorem byteSwap2 (g : Nat) : byteSwap 2 g = g % 256 * 256 + g / 256 % 256 := by
  rw [byteSwap_eq]
  simp [beBytes, leBytes, ofLe]; omega

theorem bigEndian_netWord (little : Bool) (g : Nat) (hg : g < 65536) : bigEndian little (netWord little g) = g := by
  cases little
  · rfl
  · simp only [bigEndian, netWord, if_true, byteSwap2]
    obtain ⟨h, l, e1, e2⟩ : ∃ h l, g / 256 = h ∧ g % 256 = l := ⟨_, _, rfl, rfl⟩
    rw [e1, e2]
    have h1 : (l * 256 + h) % 256 = h := by omega
    have h2 : (l * 256 + h) / 256 = l := by omega
    rw [h1, h2]; omega

theorem netWord_lt (little : Bool) (g : Nat) (hg : g < 65536) : netWord little g < 65536 := by
  cases little
  · exact hg
  · simp only [netWord, if_true]; omega

theorem netWord_zero (little : Bool) (g : Nat) (hg : g < 65536) : netWord little g = 0 ↔ g = 0 := by
  cases little
  · simp [netWord]
  · simp only [netWord, if_true]; omega

theorem maxIntSize16 : maxIntSize 16 false 16 = 4 := by decide +kernel

theorem writes_group (little upper full : Bool) (g : Nat) (hg : g < 65536) :
    Writes (fun s => printInt 16 false (groupFmt upper full) s.1 s.2 (bigEndian little (netWord little g)))
      (groupText upper full g) := by
  intro m p
  rw [bigEndian_netWord little g hg]
  have hr : InRange 16 false (g : Int) := by
    simp only [InRange, Bool.false_eq_true, if_false]; exact ⟨by omega, by exact_mod_cast hg⟩
  have hng : ¬ ((g : Int) < 0) := by omega
  cases full
  · simp only
    rw [printInt_eq 16 (by simp [Width]) false (groupFmt upper false) rfl (by simp [groupFmt]) (by simp [groupFmt])
      (by intro h; simp at h) (g : Int) hr m p]
    simp [signText, hng, ascii, groupText, groupFmt]
  · obtain ⟨ds, h1, h2, h3, h4⟩ := c03_full_partial 16 (by simp [Width]) (groupFmt upper true) rfl (by simp [groupFmt])
      (by simp [groupFmt]) (by simp) false (g : Int) hr m p
    have hl : ds.length = 4 := by
      have := h3 (numeral 16 65535) (numeral_isNumeral (b := 16) (by omega) _)
      rw [this]; decide +kernel
    have hds : ds = padded 16 4 g := by
      apply digits_unique (b := 16) 4 hl (by simp) h1 (padded_lt 16 4 g (by omega))
      rw [padded_value 16 4 g (by norm_num; omega)]; simpa [groupFmt] using h2
    simp only [h4]
    simp [signText, hng, ascii, groupText, groupFmt, hds]

end Verif.Ip
