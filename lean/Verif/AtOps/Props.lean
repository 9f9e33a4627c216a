import Verif.AtOps.Lemmas
/-!
# C80: operations on files by name
-/
namespace Verif.AtOps
open Verif Verif.Utf

/-- Whatever the form in which a name is written - array, pointer, string, view, of characters of any width - what the system reads is the
name, in UTF-8, and it is terminated within memory that may be read. -/
theorem c80_name (c : Conf) (p : PathArg) (b : List Nat) (h : Writes p b) : ∃ l, posixApiCommon c p = some l ∧ cstring l = some b :=
  path_ok c p b h

/-- Every call reaches the system as the request it stands for, exactly once; nothing else happens. The system's refusal is thrown with its
number. Missing: `posix_fchmodat` with flags, and `posix_faccessat` with flags on systems without `faccessat2`
(`c80_chmod_nofollow_violated`, `c80_access_flags_violated`). -/
theorem c80_request_partial {σ : Type} (c : Conf) (os : Os σ) (ho : os.Sound) (call : Call) (r : Request) (h : Asks call r)
    (hm : ∀ d p mode fl, call = .chmod d p mode fl → fl = []) (ha : ∀ d p how fl, call = .access d p how fl → fl = [] ∨ c.access2 = true)
    (s : σ) : run c os call s = carriedOut os r s := by
  cases h with
  | rename d p b d' p' b' hp hp' =>
    obtain ⟨l, h1, h2⟩ := path_ok c p b hp
    obtain ⟨l', h1', h2'⟩ := path_ok c p' b' hp'
    simp only [run]
    rw [withPath_ok c p l h1, withPath_ok c p' l' h1']
    exact checked_ok os ho _ _ _ (by simp [decode, withName, h2, h2']) s
  | access d p b how fl hp hh hf =>
    obtain ⟨l, h1, h2⟩ := path_ok c p b hp
    simp only [run]
    rw [withPath_ok c p l h1, faccessatImpl]
    rcases ha d p how fl rfl with rfl | ha
    · split
      · exact checked_ok os ho _ _ _ (by simp [decode, withName, h2, flagWord, bit]; omega) s
      · exact checked_ok os ho _ _ _ (by simp [decode, withName, h2]; omega) s
    · rw [if_pos ha]
      refine checked_ok os ho _ _ _ ?_ s
      have hna : (.noAutomount ∈ fl) = False := eq_false fun hm => by simpa using hf _ hm
      have hrm : (.removedir ∈ fl) = False := eq_false fun hm => by simpa using hf _ hm
      simp only [decode, flagWord_eq, wordOf, hna, hrm, decide_false, withName, h2]
      rw [if_neg]
      · generalize decide (AtFlag.eaccess ∈ fl) = x, decide (AtFlag.symlinkNofollow ∈ fl) = y, decide (AtFlag.emptyPath ∈ fl) = z
        have : ∀ x y z : Bool, bit (word x y false false z : Nat) 0x200 = x ∧ bit (word x y false false z : Nat) 0x100 = y ∧
          bit (word x y false false z : Nat) 0x1000 = z := by decide
        obtain ⟨e1, e2, e3⟩ := this x y z
        rw [e1, e2, e3]; rfl
      · generalize decide (AtFlag.eaccess ∈ fl) = x, decide (AtFlag.symlinkNofollow ∈ fl) = y, decide (AtFlag.emptyPath ∈ fl) = z
        have : ∀ x y z : Bool, (word x y false false z : Int).toNat &&& 0x1300 = (word x y false false z : Int).toNat := by decide
        rw [this x y z]
        omega
  | chmod d p b mode fl hp hh hf =>
    obtain ⟨l, h1, h2⟩ := path_ok c p b hp
    have := hm d p mode fl rfl
    subst this
    simp only [run]
    rw [withPath_ok c p l h1]
    refine checked_ok os ho _ _ _ ?_ s
    simp only [decode, withName, h2, Int.toNat_natCast, Nat.mod_eq_of_lt hh]
    rfl
  | chown d p b o g fl hp ho' hg hf =>
    obtain ⟨l, h1, h2⟩ := path_ok c p b hp
    simp only [run]
    rw [withPath_ok c p l h1, fchownatImpl, if_neg (by omega), if_neg (by omega)]
    refine checked_ok os ho _ _ _ ?_ s
    have hea : (.eaccess ∈ fl) = False := eq_false fun hm => by simpa using hf _ hm
    have hna : (.noAutomount ∈ fl) = False := eq_false fun hm => by simpa using hf _ hm
    have hrm : (.removedir ∈ fl) = False := eq_false fun hm => by simpa using hf _ hm
    simp only [decode, flagWord_eq, wordOf, hea, hna, hrm, decide_false, withName, h2, Int.toNat_natCast, Nat.mod_eq_of_lt ho',
      Nat.mod_eq_of_lt hg]
    generalize decide (AtFlag.symlinkNofollow ∈ fl) = y, decide (AtFlag.emptyPath ∈ fl) = z
    have : ∀ y z : Bool, ¬ (word false y false false z &&& 0x1100 ≠ word false y false false z ∨ (word false y false false z : Int) < 0) ∧
        bit (word false y false false z : Nat) 0x100 = y ∧ bit (word false y false false z : Nat) 0x1000 = z := by decide
    obtain ⟨e1, e2, e3⟩ := this y z
    rw [if_neg e1, e2, e3]
  | mkdir d p b mode hp hh =>
    obtain ⟨l, h1, h2⟩ := path_ok c p b hp
    simp only [run]
    rw [withPath_ok c p l h1]
    exact checked_ok os ho _ _ _ (by simp [decode, withName, h2]; omega) s
  | unlink d p b fl hp hf =>
    obtain ⟨l, h1, h2⟩ := path_ok c p b hp
    simp only [run]
    rw [withPath_ok c p l h1]
    refine checked_ok os ho _ _ _ ?_ s
    have hea : (.eaccess ∈ fl) = False := eq_false fun hm => by simpa using hf _ hm
    have hna : (.noAutomount ∈ fl) = False := eq_false fun hm => by simpa using hf _ hm
    have hnf : (.symlinkNofollow ∈ fl) = False := eq_false fun hm => by simpa using hf _ hm
    have hem : (.emptyPath ∈ fl) = False := eq_false fun hm => by simpa using hf _ hm
    simp only [decode, flagWord_eq, wordOf, hea, hna, hnf, hem, decide_false, withName, h2, Int.toNat_natCast]
    generalize decide (AtFlag.removedir ∈ fl) = y
    have : ∀ y : Bool, ¬ (word false false false y false &&& 0x200 ≠ word false false false y false ∨ (word false false false y false : Int) < 0) ∧
        bit (word false false false y false : Nat) 0x200 = y := by decide
    obtain ⟨e1, e2⟩ := this y
    rw [if_neg e1, e2]
  | utimens d p b a m a' m' fl hp hta htm hf =>
    obtain ⟨l, h1, h2⟩ := path_ok c p b hp
    simp only [run]
    rw [withPath_ok c p l h1, utimensatImpl, if_neg (by simp [isOmit])]
    refine checked_ok os ho _ _ _ ?_ s
    have hea : (.eaccess ∈ fl) = False := eq_false fun hm => by simpa using hf _ hm
    have hna : (.noAutomount ∈ fl) = False := eq_false fun hm => by simpa using hf _ hm
    have hrm : (.removedir ∈ fl) = False := eq_false fun hm => by simpa using hf _ hm
    simp only [decode, flagWord_eq, wordOf, hea, hna, hrm, decide_false, withName, h2, Int.toNat_natCast, time_ok _ _ hta, time_ok _ _ htm]
    generalize decide (AtFlag.symlinkNofollow ∈ fl) = y, decide (AtFlag.emptyPath ∈ fl) = z
    have : ∀ y z : Bool, ¬ (word false y false false z &&& 0x1100 ≠ word false y false false z ∨ (word false y false false z : Int) < 0) ∧
        bit (word false y false false z : Nat) 0x100 = y ∧ bit (word false y false false z : Nat) 0x1000 = z := by decide
    obtain ⟨e1, e2, e3⟩ := this y z
    rw [if_neg e1, e2, e3]

/-- The small file system is an operating system in this sense. -/
theorem small_sound : small.Sound := by
  intro r s e h
  cases r <;> simp only [small] at h <;> repeat' split at h
  all_goals first | (cases h; omega) | simp at h

/-- "ü€" in UTF-16, in an array of eight elements, and in UTF-8. -/
example : Writes (.array .u16 [0xFC, 0x20AC, 0, 0, 0, 0, 0, 0]) [0xC3, 0xBC, 0xE2, 0x82, 0xAC] :=
  Writes.arrayText .u16 [0xFC, 0x20AC] 5 (Or.inl rfl) (by decide) (by decide) (by decide)

/-- Setting the modification time of "ü€", named by a view of UTF-32, to 7.25 s after the epoch, not following links. -/
example : Asks (.utimens (-100) (.view .u32 [0xFC, 0x20AC]) .omit .now (.at ⟨7, 2500000000900000000⟩) [.symlinkNofollow])
    (.utimens (-100) [0xC3, 0xBC, 0xE2, 0x82, 0xAC] .now (.at 7 250000000) true false) ∧
    run ⟨true, false, fun _ => 1⟩ small (.utimens (-100) (.view .u32 [0xFC, 0x20AC]) .omit .now (.at ⟨7, 2500000000900000000⟩) [.symlinkNofollow])
      [([0xC3, 0xBC, 0xE2, 0x82, 0xAC], ⟨none, 0, 0, 0, 0⟩)] = (.returns, [([0xC3, 0xBC, 0xE2, 0x82, 0xAC], ⟨none, 0, 0, 0, 7⟩)]) := by
  refine ⟨?_, by decide +kernel⟩
  exact Asks.utimens (-100) _ _ _ _ _ _ _ (Writes.viewText .u32 [0xFC, 0x20AC] (Or.inr rfl) (by decide) (by decide) (by decide)) .now
    (AsksTime.at ⟨7, 2500000000900000000⟩ 250000000 (by decide) (by decide) (by decide)) (by simp)

/-- A refused request: removing a file that is not there. -/
example : run ⟨true, false, fun _ => 1⟩ small (.unlink (-100) (.str .u8 [120]) []) [] = (.throws 2, []) := by decide +kernel

/-- Two calls that stand for the same request are interchangeable, whatever the form in which they write the name: they do the same to the
same file. Restricted as `c80_request_partial`. -/
theorem c80_same_name_partial {σ : Type} (c : Conf) (os : Os σ) (ho : os.Sound) (call call' : Call) (r : Request) (h : Asks call r) (h' : Asks call' r)
    (hm : ∀ d p mode fl, call = .chmod d p mode fl ∨ call' = .chmod d p mode fl → fl = [])
    (ha : ∀ d p how fl, call = .access d p how fl ∨ call' = .access d p how fl → fl = [] ∨ c.access2 = true) (s : σ) :
    run c os call s = run c os call' s := by
  rw [c80_request_partial c os ho _ _ h (fun d p m fl e => hm d p m fl (Or.inl e)) (fun d p m fl e => ha d p m fl (Or.inl e)) s,
    c80_request_partial c os ho _ _ h' (fun d p m fl e => hm d p m fl (Or.inr e)) (fun d p m fl e => ha d p m fl (Or.inr e)) s]

example : Writes (.str .u16 [0xFC]) [0xC3, 0xBC] ∧ Writes (.array .u8 [0xC3, 0xBC, 0]) [0xC3, 0xBC] :=
  ⟨Writes.strText .u16 [0xFC] (Or.inl rfl) (by decide) (by decide) (by decide), Writes.arrayBytes [0xC3, 0xBC] [] (by decide)⟩

/-- An owner that is no user identifier is refused; nothing is requested. -/
theorem c80_owner_refused {σ : Type} (c : Conf) (os : Os σ) (d : Int) (p : PathArg) (b : List Nat) (hp : Writes p b) (owner group : Nat)
    (h : 2 ^ 32 ≤ owner) (fl : List AtFlag) (s : σ) : run c os (.chown d p owner group fl) s = (.throws 75, s) := by
  obtain ⟨l, h1, h2⟩ := path_ok c p b hp
  simp only [run]
  rw [withPath_ok c p l h1, fchownatImpl, if_pos (by omega)]
  rfl

/-- Asking to set the creation time is refused; nothing is requested, also not for the other times. -/
theorem c80_creation_refused {σ : Type} (c : Conf) (os : Os σ) (d : Int) (p : PathArg) (b : List Nat) (hp : Writes p b) (cr a m : TimeOpt)
    (h : cr ≠ .omit) (fl : List AtFlag) (s : σ) : run c os (.utimens d p cr a m fl) s = (.throws 22, s) := by
  obtain ⟨l, h1, h2⟩ := path_ok c p b hp
  have : isOmit cr = false := by cases cr <;> first | rfl | exact absurd rfl h
  simp only [run]
  rw [withPath_ok c p l h1, utimensatImpl, this]
  rfl

example : (TimeOpt.now ≠ .omit) ∧ Writes (.pointer .u8 [97, 0, 98]) [97] := ⟨by simp, Writes.pointerBytes [97] [98] (by decide)⟩

/-! ## Violations -/

/-- With its default flags `posix_fchmodat` is to act on a symbolic link itself (and where links have no permissions, to be refused).
It returns normally, having changed the file the link points to: "l" is a link to "f". -/
theorem c80_chmod_nofollow_violated : ∀ c : Conf,
    Asks (.chmod (-100) (.str .u8 [108]) 0 defaultFlags) (.chmod (-100) [108] 0 true) ∧
    carriedOut small (.chmod (-100) [108] 0 true) [([102], ⟨none, 436, 1, 1, 0⟩), ([108], ⟨some [102], 511, 1, 1, 0⟩)] =
      (.throws 95, [([102], ⟨none, 436, 1, 1, 0⟩), ([108], ⟨some [102], 511, 1, 1, 0⟩)]) ∧
    run c small (.chmod (-100) (.str .u8 [108]) 0 defaultFlags) [([102], ⟨none, 436, 1, 1, 0⟩), ([108], ⟨some [102], 511, 1, 1, 0⟩)] =
      (.returns, [([102], ⟨none, 0, 1, 1, 0⟩), ([108], ⟨some [102], 511, 1, 1, 0⟩)]) := by
  intro c
  refine ⟨Asks.chmod _ _ _ _ _ (Writes.strBytes [108] (by decide)) (by decide) (by decide), by decide +kernel, ?_⟩
  simp only [run, withPath, posixApiCommon, Enc.bytes, if_true]
  decide +kernel

/-- Where `faccessat2` is not known, `posix_faccessat` with its default flags asks about the target of a link: the dangling link "l" is there,
the call says it is not. -/
theorem c80_access_flags_violated : ∀ c : Conf, c.access2 = false →
    Asks (.access (-100) (.str .u8 [108]) 0 defaultFlags) (.access (-100) [108] 0 false true false) ∧
    carriedOut small (.access (-100) [108] 0 false true false) [([108], ⟨some [102], 511, 1, 1, 0⟩)] =
      (.returns, [([108], ⟨some [102], 511, 1, 1, 0⟩)]) ∧
    run c small (.access (-100) (.str .u8 [108]) 0 defaultFlags) [([108], ⟨some [102], 511, 1, 1, 0⟩)] =
      (.throws 2, [([108], ⟨some [102], 511, 1, 1, 0⟩)]) := by
  intro c hc
  refine ⟨Asks.access _ _ _ _ _ (Writes.strBytes [108] (by decide)) (by decide) (by decide), by decide +kernel, ?_⟩
  simp only [run, withPath, posixApiCommon, Enc.bytes, if_true, faccessatImpl, hc]
  decide +kernel

/-- A group that is no group identifier is not refused: group 2^32 makes the file belong to group 0. -/
theorem c80_group_violated : ∀ c : Conf,
    run c small (.chown (-100) (.str .u8 [102]) 1000 (2 ^ 32) defaultFlags) [([102], ⟨none, 436, 1000, 1000, 0⟩)] =
      (.returns, [([102], ⟨none, 436, 1000, 0, 0⟩)]) := by
  intro c
  simp only [run, withPath, posixApiCommon, Enc.bytes, if_true]
  decide +kernel

/-- A string with a NUL character in it is no name, but the call is not refused: it acts on another file, the one named by what is before
the NUL. Here `posix_unlinkat` of "a\0b" removes "a". -/
theorem c80_nul_violated : ∀ c : Conf,
    run c small (.unlink (-100) (.str .u8 [97, 0, 98]) []) [([97], ⟨none, 436, 1, 1, 0⟩)] = (.returns, []) := by
  intro c
  simp only [run, withPath, posixApiCommon, Enc.bytes, if_true]
  decide +kernel

/-- A directory made by `posix_mkdirat` with its default permissions cannot be searched, not even by its owner: no bit of 0111 is set. -/
theorem c80_mkdir_default_violated : ∀ c : Conf,
    run c small (.mkdir (-100) (.str .u8 [100]) defaultPerms) [] = (.returns, [([100], ⟨none, 436, 0, 0, 0⟩)]) ∧ 436 &&& 73 = 0 := by
  intro c
  refine ⟨?_, by decide⟩
  simp only [run, withPath, posixApiCommon, Enc.bytes, if_true]
  decide +kernel

/-- A timestamp whose fraction is not below one second is not refused either: this one is taken for "leave the time as it is", and the call
returns normally. (Most others are refused by the system.) -/
theorem c80_fraction_violated : ∀ c : Conf,
    run c small (.utimens (-100) (.str .u8 [102]) .omit .omit (.at ⟨7, 10737418220000000000⟩) defaultFlags) [([102], ⟨none, 436, 1, 1, 3⟩)] =
      (.returns, [([102], ⟨none, 436, 1, 1, 3⟩)]) := by
  intro c
  simp only [run, withPath, posixApiCommon, Enc.bytes, if_true]
  decide +kernel

end Verif.AtOps
