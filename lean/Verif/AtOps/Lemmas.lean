import Verif.AtOps.Model
import Verif.Utf.Props
/-!
# Operations on files by name: lemmas
-/
namespace Verif.AtOps
open Verif Verif.Utf

/-! ## Flags -/

def word (ea nf na rm em : Bool) : Nat :=
  (if ea then 0x200 else 0) ||| (if nf then 0x100 else 0) ||| (if na then 0x800 else 0) ||| (if rm then 0x200 else 0) |||
    (if em then 0x1000 else 0)

theorem word_step (f : AtFlag) (ea nf na rm em : Bool) : flagValue f ||| word ea nf na rm em =
    word (ea || f = .eaccess) (nf || f = .symlinkNofollow) (na || f = .noAutomount) (rm || f = .removedir) (em || f = .emptyPath) := by
  cases f <;> revert ea nf na rm em <;> decide

def wordOf (fl : List AtFlag) : Nat :=
  word (.eaccess ∈ fl) (.symlinkNofollow ∈ fl) (.noAutomount ∈ fl) (.removedir ∈ fl) (.emptyPath ∈ fl)

theorem mem_cons_bool (a f : AtFlag) (fl : List AtFlag) : (decide (a ∈ f :: fl)) = (decide (a ∈ fl) || decide (f = a)) := by
  by_cases h : f = a
  · simp [h]
  · have : ¬ a = f := fun e => h e.symm
    simp [h, this]

theorem flagWord_foldl (fl : List AtFlag) : ∀ w, fl.foldl (fun w f => w ||| flagValue f) w = w ||| wordOf fl := by
  induction fl with
  | nil => intro w; simp [wordOf, word]
  | cons f fl ih =>
    intro w
    rw [List.foldl_cons, ih, Nat.or_assoc]
    congr 1
    simp only [wordOf, word_step, mem_cons_bool]

theorem flagWord_eq (fl : List AtFlag) : flagWord fl = wordOf fl := by
  rw [flagWord, flagWord_foldl]; simp

/-! ## Strings -/

theorem cstring_app (b rest : List Nat) (h : 0 ∉ b) : cstring (b ++ 0 :: rest) = some b := by
  have h2 : (b ++ 0 :: rest).takeWhile (fun x => decide (x ≠ 0)) = b := by
    induction b with
    | nil => simp
    | cons x b ih =>
      have hx : x ≠ 0 := fun e => h (by simp [e])
      have hb : 0 ∉ b := fun e => h (by simp [e])
      simp only [List.cons_append, List.takeWhile_cons, hx, ne_eq, not_false_eq_true, decide_true, if_true]
      rw [ih hb]
  rw [cstring, if_pos (by simp)]
  exact congrArg some h2

theorem take_cstrLen (b rest : List Nat) (h : 0 ∉ b) : (b ++ 0 :: rest).take (cstrLen (b ++ 0 :: rest)) = b := by
  have := cstring_app b rest h
  rw [cstring, if_pos (by simp)] at this
  have h2 := Option.some.inj this
  rw [cstrLen, h2]; simp

theorem enc_no_zero {e : Enc} (he : e ≠ .ebcdic) {c : Nat} (hs : Scalar c) (h : c ≠ 0) : 0 ∉ enc e c := by
  intro hm
  obtain ⟨h1, h2⟩ := hs
  cases e with
  | ebcdic => exact he rfl
  | u32 => simp [enc] at hm; omega
  | u16 =>
    simp only [enc, enc16] at hm
    split at hm <;> simp at hm <;> omega
  | u8 =>
    simp only [enc, enc8] at hm
    split at hm
    · simp at hm; omega
    · split at hm
      · simp at hm; try omega
      · split at hm <;> simp at hm <;> try omega

theorem encText_no_zero {e : Enc} (he : e ≠ .ebcdic) (cs : List Nat) (hs : ∀ c ∈ cs, Scalar c) (h : 0 ∉ cs) : 0 ∉ encText e cs := by
  intro hm
  obtain ⟨c, hc, hm⟩ := List.mem_flatMap.mp hm
  exact enc_no_zero he (hs c hc) (fun e => h (e ▸ hc)) hm

theorem encText_append (e : Enc) (a b : List Nat) : encText e (a ++ b) = encText e a ++ encText e b := by
  simp [encText]

theorem encText_zeros (e : Enc) (he : e ≠ .ebcdic) (k : Nat) : encText e (List.replicate k 0) = List.replicate k 0 := by
  induction k with
  | zero => rfl
  | succ k ih =>
    rw [List.replicate_succ, encText, List.flatMap_cons]
    rw [encText] at ih
    rw [ih]
    cases e <;> simp_all [enc, enc8, enc16]

theorem load_append (m : Mem) (p a b : Nat) : load m p (a + b) = load m p a ++ load m (p + a) b := by
  simp only [load, List.range_add, List.map_append, List.map_map]
  congr 1
  apply List.map_congr_left
  intro i _
  simp [Nat.add_assoc]

theorem load_store_end (m : Mem) (l : List Nat) (h : load m 0 l.length = l) (cap : Nat) (hc : l.length ≤ cap) :
    ∃ r, load (store m l.length [0]) 0 (cap + 1) = l ++ 0 :: r := by
  obtain ⟨j, rfl⟩ := Nat.exists_eq_add_of_le hc
  refine ⟨load (store m l.length [0]) (l.length + 1) j, ?_⟩
  rw [show l.length + j + 1 = l.length + (1 + j) by omega, load_append, load_append]
  congr 1
  · conv_rhs => rw [← h]
    apply List.map_congr_left
    intro i hi
    have : i < l.length := List.mem_range.mp hi
    simp only [store]
    rw [if_neg (by omega)]
  · simp [load, store]

/-! ## The converter -/

/-- Texts in wide characters are converted to UTF-8 and terminated. -/
theorem convert_ok (c : Conf) (e : Enc) (he : e = .u16 ∨ e = .u32) (cs : List Nat) (h : ∀ x ∈ cs, Scalar x)
    (hl : (encText e cs).length < 2 ^ 60) : ∃ r, convert c e (encText e cs) = some (encText .u8 cs ++ 0 :: r) := by
  have hb : ∀ u ∈ encText e cs, u < 2 ^ (8 * e.bytes) := by
    intro u hu
    obtain ⟨x, hx, hu⟩ := List.mem_flatMap.mp hu
    have := h x hx
    unfold Scalar at this
    rcases he with rfl | rfl
    · simp only [enc, enc16, Enc.bytes] at hu ⊢
      split at hu <;> simp at hu <;> omega
    · simp only [enc, Enc.bytes] at hu ⊢
      simp at hu; omega
  have hf : fullReserve e .u8 (encText e cs).length = some (8 * (encText e cs).length) := by
    rcases he with rfl | rfl <;> simp only [fullReserve, Enc.bytes] <;> norm_num <;> omega
  obtain ⟨cap, hcap, hge, hlt⟩ : ∃ cap, decoReserve e .u8 (encText e cs).length = some cap ∧ 8 * (encText e cs).length ≤ cap ∧ cap < 2 ^ 63 + 16 := by
    rcases he with rfl | rfl
    · refine ⟨(encText .u16 cs).length * 8 + 8, ?_, by omega, by omega⟩
      simp only [decoReserve, Enc.bytes]; norm_num; omega
    · refine ⟨8 * (encText .u32 cs).length, ?_, by omega, by omega⟩
      simp only [decoReserve, Enc.bytes]; simp only [if_true]; exact hf
  obtain ⟨o', e1, e2, e3⟩ := c15_text e .u8 c.sse cs h (c.fresh, 0)
  obtain ⟨o2, f1, f2, f3, _⟩ := c59_full e .u8 c.sse _ hb _ hf (c.fresh, 0)
  rw [e1] at f1
  cases f1
  simp only [Nat.zero_add] at e2 f3 e3
  obtain ⟨r, hr⟩ := load_store_end o'.1 (encText .u8 cs) e3 cap (by omega)
  refine ⟨r, ?_⟩
  rw [convert, hcap]
  simp only
  rw [if_neg (by unfold sizeMax; omega), e1]
  simp only
  rw [e2, hr]

theorem copyAppend0_ok (c : Conf) (l : List Nat) (hl : l.length < 2 ^ 60) : ∃ r, copyAppend0 c l = some (l ++ 0 :: r) := by
  have h : load (store c.fresh 0 l) 0 l.length = l := by
    apply List.ext_getElem
    · simp [load]
    · intro i h1 h2
      simp [load, store, h2]
  obtain ⟨r, hr⟩ := load_store_end (store c.fresh 0 l) l h l.length (le_refl _)
  exact ⟨r, by rw [copyAppend0, if_neg (by unfold sizeMax; omega), hr]⟩

/-- The name given to the system is the name written. -/
theorem path_ok (c : Conf) (p : PathArg) (b : List Nat) (h : Writes p b) :
    ∃ l, posixApiCommon c p = some l ∧ cstring l = some b := by
  have hne : ∀ {e : Enc}, e = .u16 ∨ e = .u32 → e ≠ .ebcdic ∧ ¬ e.bytes = 1 := by
    intro e he; rcases he with rfl | rfl <;> decide
  cases h with
  | arrayBytes b rest h0 => exact ⟨_, by simp [posixApiCommon, Enc.bytes], cstring_app b rest h0⟩
  | arrayText e cs k he hs h0 hl =>
    have hz : ∀ x ∈ cs ++ List.replicate k 0, Scalar x := by
      intro x hx
      rcases List.mem_append.mp hx with hx | hx
      · exact hs x hx
      · rw [(List.mem_replicate.mp hx).2]; decide
    have ht : (encText e cs ++ List.replicate (k + 1) 0).take ((encText e cs ++ List.replicate (k + 1) 0).length - 1) =
        encText e (cs ++ List.replicate k 0) := by
      rw [encText_append, encText_zeros e (hne he).1, ← List.dropLast_eq_take, List.replicate_succ', ← List.append_assoc, List.dropLast_concat]
    obtain ⟨r, hr⟩ := convert_ok c e he _ hz (by rw [encText_append, encText_zeros e (hne he).1]; simpa using hl)
    refine ⟨_, by rw [posixApiCommon, if_neg (hne he).2, ht]; exact hr, ?_⟩
    rw [encText_append, encText_zeros _ (by decide), List.append_assoc]
    cases k with
    | zero => exact cstring_app _ _ (encText_no_zero (by decide) cs hs h0)
    | succ k =>
      rw [List.replicate_succ, List.cons_append]
      exact cstring_app _ _ (encText_no_zero (by decide) cs hs h0)
  | pointerBytes b rest h0 => exact ⟨_, by simp [posixApiCommon, Enc.bytes], cstring_app b rest h0⟩
  | pointerText e cs rest he hs h0 hl =>
    obtain ⟨r, hr⟩ := convert_ok c e he cs hs hl
    refine ⟨_, ?_, cstring_app _ r (encText_no_zero (by decide) cs hs h0)⟩
    rw [posixApiCommon, if_neg (hne he).2, take_cstrLen _ _ (encText_no_zero (hne he).1 cs hs h0)]
    exact hr
  | strBytes b h0 => exact ⟨_, by simp [posixApiCommon, Enc.bytes], cstring_app _ [] h0⟩
  | strText e cs he hs h0 hl =>
    obtain ⟨r, hr⟩ := convert_ok c e he cs hs hl
    exact ⟨_, by rw [posixApiCommon, if_neg (hne he).2]; exact hr, cstring_app _ r (encText_no_zero (by decide) cs hs h0)⟩
  | viewBytes b h0 hl =>
    obtain ⟨r, hr⟩ := copyAppend0_ok c b hl
    exact ⟨_, by rw [posixApiCommon, if_pos (by decide)]; exact hr, cstring_app _ r h0⟩
  | viewText e cs he hs h0 hl =>
    obtain ⟨r, hr⟩ := convert_ok c e he cs hs hl
    exact ⟨_, by rw [posixApiCommon, if_neg (hne he).2]; exact hr, cstring_app _ r (encText_no_zero (by decide) cs hs h0)⟩

/-! ## System calls -/

theorem checked_ok {σ : Type} (os : Os σ) (ho : os.Sound) (nr : Nat) (args : List Arg) (r : Request) (h : decode nr args = .request r) (s : σ) :
    checked os nr args s = carriedOut os r s := by
  simp only [checked, systemCall, h, carriedOut]
  rcases hs : (os r s).1 with _ | e
  · simp [throwIfError]
  · have := ho r s e hs
    simp only [throwIfError]
    rw [if_pos (by omega)]
    simp

theorem withPath_ok {σ : Type} (c : Conf) (p : PathArg) (l : List Nat) (h : posixApiCommon c p = some l) (s : σ) (k : List Nat → σ → Outcome × σ) :
    withPath c p s k = k l s := by
  rw [withPath, h]

theorem time_ok (t : TimeOpt) (r : TimeReq) (h : AsksTime t r) : decodeTime (timespecOpt t) = some r := by
  cases h with
  | now => rfl
  | «omit» => rfl
  | «at» t ns h1 h2 h3 =>
    have hn : t.subseconds / (10 ^ 19 / 1000000000) = ns := by
      rw [show (10 : Nat) ^ 19 / 1000000000 = 10 ^ 10 by norm_num]
      exact Nat.div_eq_of_lt_le h2 h3
    have : ns < 1000000000 := by omega
    simp only [timespecOpt, timespec64, hn, decodeTime]
    rw [if_neg (by omega), if_neg (by omega), if_pos (by omega)]
    simp

end Verif.AtOps
