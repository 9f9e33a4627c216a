import Verif.Leb.Lemmas
/-! Whole LEB128 sequences, chunks and the encoder. -/
namespace Verif.Leb
open Verif Verif.IntPrint

theorem groupBytes_cons {g : Nat} {t : List Nat} (h : t ≠ []) : groupBytes (g :: t) = (g + 128) :: groupBytes t := by
  cases t with
  | nil => exact absurd rfl h
  | cons a b => rfl

theorem value_cons (s : Bool) {g : Nat} {t : List Nat} (h : t ≠ []) : value s (g :: t) = g + 128 * value s t := by
  cases t with
  | nil => exact absurd rfl h
  | cons a b => cases s <;> rfl

theorem loop_groups {cfg : Cfg} (hw : Width cfg.bits) (hcw : 8 ≤ cfg.cw) (l : List Nat) :
    ∀ (gs : List Nat) (i tmp : Nat), Groups gs → i + gs.length ≤ maxGroups cfg.bits → tmp < 2 ^ (7 * i) →
    ∃ s, loop cfg (7 * i) tmp (groupBytes gs ++ l) = some s ∧ s.rest = l ∧
      (InRange cfg.bits cfg.signed (tmp + 2 ^ (7 * i) * value cfg.signed gs) →
        s.code = .ok ∧ fromBits cfg s.tmp = tmp + 2 ^ (7 * i) * value cfg.signed gs) ∧
      (¬ InRange cfg.bits cfg.signed (tmp + 2 ^ (7 * i) * value cfg.signed gs) → s.code = .overflow) := by
  intro gs
  induction gs with
  | nil => intro i tmp hg; exact absurd rfl hg.1
  | cons g t ih =>
    intro i tmp hg hlen ht
    have hg0 : g < 128 := hg.2 g (by simp)
    by_cases htn : t = []
    · subst htn
      simp only [List.length_cons, List.length_nil] at hlen
      rcases Nat.lt_or_ge (i + 1) (maxGroups cfg.bits) with h | h
      · obtain ⟨s, h1, h2, h3, h4, h5⟩ := loop_last_early hw l hg0 h ht
        exact ⟨s, h1, h2, fun _ => ⟨h3, h4⟩, fun h' => absurd h5 h'⟩
      · exact loop_last_top hw l hg0 (by omega) ht
    · have hlt : t.length ≠ 0 := by simpa using htn
      simp only [List.length_cons] at hlen
      obtain ⟨e1, e2⟩ := loop_step hw hcw (groupBytes t ++ l) hg0 (show i + 1 < maxGroups cfg.bits by omega) ht
      rw [groupBytes_cons htn, List.cons_append, e1]
      have hv : ((tmp + g * 2 ^ (7 * i) : Nat) : Int) + 2 ^ (7 * (i + 1)) * value cfg.signed t =
          tmp + 2 ^ (7 * i) * value cfg.signed (g :: t) := by
        rw [value_cons _ htn, Nat.mul_add, pow_add]
        push_cast; ring
      rw [← hv]
      exact ih (i + 1) _ ⟨htn, fun x hx => hg.2 x (by simp [hx])⟩ (by omega) e2

/-- Continued bytes up to the limit always overflow. -/
theorem loop_long {cfg : Cfg} (hw : Width cfg.bits) (hcw : 8 ≤ cfg.cw) :
    ∀ (l : List Nat) (i tmp : Nat), tmp < 2 ^ (7 * i) → i < maxGroups cfg.bits →
    (∀ c ∈ l, c < 256) → (∀ k (hk : k < l.length), i + k < maxGroups cfg.bits → 128 ≤ l[k]) →
    maxGroups cfg.bits < i + l.length →
    ∃ s, loop cfg (7 * i) tmp l = some s ∧ s.code = .overflow ∧ s.rest <:+ l := by
  intro l
  induction l with
  | nil => intro i tmp _ h1 _ _ h2; simp at h2; omega
  | cons c t ih =>
    intro i tmp ht hi hc hm hl
    have hc0 := hc c (by simp)
    have hc1 : 128 ≤ c := hm 0 (by simp) (by omega)
    obtain ⟨g, rfl⟩ : ∃ g, c = g + 128 := ⟨c - 128, by omega⟩
    have hg : g < 128 := by omega
    simp only [List.length_cons] at hl
    rcases Nat.lt_or_ge (i + 1) (maxGroups cfg.bits) with h | h
    · obtain ⟨e1, e2⟩ := loop_step hw hcw t hg h ht
      obtain ⟨s, a, b, d⟩ := ih (i + 1) _ e2 h (fun x hx => hc x (by simp [hx])) (fun k hk h' => by
        have := hm (k + 1) (by simp; omega) (by omega)
        simpa using this) (by omega)
      exact ⟨s, by rw [e1, a], b, d.trans (List.suffix_cons _ _)⟩
    · obtain ⟨b1, b2, _⟩ := low_bits g hg
      rw [loop]
      rw [if_neg (by omega)]
      simp only [b1]
      by_cases hbig : tooBig cfg (7 * i) g = true
      · rw [if_pos hbig]; exact ⟨_, rfl, rfl, List.suffix_cons _ _⟩
      · have hwm := width_maxGroups hw
        rw [if_neg hbig, if_neg (by omega), if_pos b2]
        cases t with
        | nil => simp at hl; omega
        | cons d t =>
          have hd := hc d (by simp)
          rw [loop, if_neg (by omega), show 7 * i + 7 = 7 * (i + 1) by ring, if_pos (tooBig_late hw (by omega))]
          exact ⟨_, rfl, rfl, (List.suffix_cons _ _).trans (List.suffix_cons _ _)⟩

/-- Every character sequence is a complete group sequence and a remainder, or continued characters ending at the end of
the input or at a character that is not a byte. -/
theorem decompose : ∀ l : List Nat,
    (∃ gs rest, Groups gs ∧ l = groupBytes gs ++ rest) ∨
    (∃ cs rest, l = cs ++ rest ∧ (∀ c ∈ cs, 128 ≤ c ∧ c < 256) ∧ (rest = [] ∨ ∃ c t, rest = c :: t ∧ 256 ≤ c))
  | [] => .inr ⟨[], [], rfl, by simp, .inl rfl⟩
  | c :: l => by
    rcases Nat.lt_or_ge c 128 with h | h
    · exact .inl ⟨[c], l, ⟨by simp, by simpa using h⟩, by simp [groupBytes]⟩
    · rcases Nat.lt_or_ge c 256 with h' | h'
      · rcases decompose l with ⟨gs, rest, hg, e⟩ | ⟨cs, rest, e, hc, hr⟩
        · refine .inl ⟨(c - 128) :: gs, rest, ⟨by simp, ?_⟩, ?_⟩
          · intro x hx
            rcases List.mem_cons.mp hx with hx0 | hx
            · omega
            · exact hg.2 x hx
          · rw [groupBytes_cons hg.1, e, show c - 128 + 128 = c by omega]; rfl
        · refine .inr ⟨c :: cs, rest, by rw [e]; rfl, ?_, hr⟩
          intro x hx
          rcases List.mem_cons.mp hx with hx0 | hx
          · omega
          · exact hc x hx
      · exact .inr ⟨[], c :: l, rfl, by simp, .inr ⟨c, l, rfl, h'⟩⟩

theorem loop_cont {cfg : Cfg} (hw : Width cfg.bits) (hcw : 8 ≤ cfg.cw) (rest : List Nat) :
    ∀ (cs : List Nat) (i tmp : Nat), tmp < 2 ^ (7 * i) → i + cs.length < maxGroups cfg.bits →
    (∀ c ∈ cs, 128 ≤ c ∧ c < 256) →
    ∃ tmp', loop cfg (7 * i) tmp (cs ++ rest) = loop cfg (7 * (i + cs.length)) tmp' rest ∧ tmp' < 2 ^ (7 * (i + cs.length)) := by
  intro cs
  induction cs with
  | nil => intro i tmp ht _ _; exact ⟨tmp, rfl, ht⟩
  | cons c t ih =>
    intro i tmp ht hl hc
    have hc0 := hc c (by simp)
    obtain ⟨g, rfl⟩ : ∃ g, c = g + 128 := ⟨c - 128, by omega⟩
    simp only [List.length_cons] at hl
    obtain ⟨e1, e2⟩ := loop_step hw hcw (t ++ rest) (show g < 128 by omega) (show i + 1 < maxGroups cfg.bits by omega) ht
    obtain ⟨t', a, b⟩ := ih (i + 1) _ e2 (by omega) (fun x hx => hc x (by simp [hx]))
    refine ⟨t', ?_, ?_⟩
    · rw [List.cons_append, e1, a, List.length_cons, Nat.add_assoc, Nat.add_comm 1]
    · rw [List.length_cons, Nat.add_comm t.length, ← Nat.add_assoc]; exact b

theorem groupBytes_length : ∀ gs, (groupBytes gs).length = gs.length
  | [] => rfl
  | [_] => rfl
  | _ :: h :: t => by simp [groupBytes, groupBytes_length (h :: t)]

theorem groupBytes_lt : ∀ gs, (∀ g ∈ gs, g < 128) → ∀ c ∈ groupBytes gs, c < 256
  | [], _ => by simp [groupBytes]
  | [g], h => by intro c hc; simp [groupBytes] at hc; have := h g (by simp); omega
  | g :: a :: t, h => by
    intro c hc
    simp only [groupBytes, List.mem_cons] at hc
    rcases hc with rfl | hc
    · have := h g (by simp); omega
    · exact groupBytes_lt (a :: t) (fun x hx => h x (by simp [hx])) c (by simpa using hc)

theorem groupBytes_cont : ∀ gs (k : Nat) (hk : k < (groupBytes gs).length), k + 1 < gs.length → 128 ≤ (groupBytes gs)[k]
  | [], k, hk, h => by simp at h
  | [g], k, hk, h => by simp at h
  | g :: a :: t, 0, hk, h => by simp [groupBytes]
  | g :: a :: t, k + 1, hk, h => by
    have h' : k + 1 < (a :: t).length := by simp at h ⊢; omega
    have := groupBytes_cont (a :: t) k (by rw [groupBytes_length]; omega) h'
    simpa [groupBytes] using this

/-! ## chunks -/

theorem signExtend_or (cfg : Cfg) (cnt byte a tmp : Nat) : signExtend cfg cnt byte (a ||| tmp) = a ||| signExtend cfg cnt byte tmp := by
  unfold signExtend; split
  · rw [Nat.or_assoc]
  · rfl

theorem loop_or (cfg : Cfg) (a : Nat) : ∀ (l : List Nat) (cnt tmp : Nat),
    loop cfg cnt (a ||| tmp) l = (loop cfg cnt tmp l).map fun s => { s with tmp := a ||| s.tmp } := by
  intro l
  induction l with
  | nil => intro cnt tmp; rfl
  | cons c l ih =>
    intro cnt tmp
    rw [loop, loop]
    split
    · rfl
    · dsimp only
      split
      · rfl
      · split
        · rfl
        · split
          · rw [Nat.or_assoc, ih]
          · rw [Nat.or_assoc, signExtend_or]; rfl

theorem loop_append (cfg : Cfg) (l2 : List Nat) : ∀ (l1 : List Nat) (cnt tmp : Nat),
    loop cfg cnt tmp (l1 ++ l2) = (loop cfg cnt tmp l1).bind fun s =>
      if s.code = .part then loop cfg s.cnt s.tmp l2 else some { s with rest := s.rest ++ l2 } := by
  intro l1
  induction l1 with
  | nil => intro cnt tmp; rfl
  | cons c l ih =>
    intro cnt tmp
    rw [List.cons_append, loop, loop]
    split
    · rfl
    · dsimp only
      split
      · rfl
      · split
        · rfl
        · split
          · rw [ih]
          · rfl

theorem loop_code (cfg : Cfg) : ∀ (l : List Nat) (cnt tmp : Nat) (s : Stop), loop cfg cnt tmp l = some s →
    s.code ≠ .eof ∧ (s.code = .part → s.rest = []) ∧ s.rest <:+ l := by
  intro l
  induction l with
  | nil => intro cnt tmp s h; cases h; simp
  | cons c l ih =>
    intro cnt tmp s h
    rw [loop] at h
    split at h
    · cases h; simp
    · dsimp only at h
      split at h
      · cases h; simp
      · split at h
        · cases h
        · split at h
          · obtain ⟨a, b, d⟩ := ih _ _ _ h
            exact ⟨a, b, d.trans (List.suffix_cons _ _)⟩
          · cases h; simp

theorem loop_part (cfg : Cfg) : ∀ (l : List Nat) (cnt tmp : Nat) (s : Stop), loop cfg cnt tmp l = some s →
    s.code = .part → ∀ c ∈ l, c &&& 0x80 ≠ 0 := by
  intro l
  induction l with
  | nil => simp
  | cons c l ih =>
    intro cnt tmp s h hp
    rw [loop] at h
    split at h
    · cases h; simp at hp
    · dsimp only at h
      split at h
      · cases h; simp at hp
      · split at h
        · cases h
        · split at h
          · next hm =>
            intro x hx
            rcases List.mem_cons.mp hx with rfl | hx
            · exact hm
            · exact ih _ _ _ h hp x hx
          · cases h; simp at hp

theorem groups_stop : ∀ (gs : List Nat), Groups gs → ∀ rest, ¬ ∀ c ∈ groupBytes gs ++ rest, c &&& 0x80 ≠ 0
  | [], h, _ => absurd rfl h.1
  | [g], h, rest => fun hc => (hc g (by simp [groupBytes])) (low_bits g (h.2 g (by simp))).2.2.2.1
  | g :: a :: t, h, rest => fun hc => groups_stop (a :: t) ⟨by simp, fun x hx => h.2 x (by simp [hx])⟩ rest
      (fun c hcm => hc c (by simp only [groupBytes]; exact List.mem_cons_of_mem _ hcm))

theorem loop_cnt_pos (cfg : Cfg) : ∀ (l : List Nat) (cnt tmp : Nat) (s : Stop), loop cfg cnt tmp l = some s →
    s.code = .part → (s.cnt = 0 → cnt = 0 ∧ l = []) := by
  intro l
  induction l with
  | nil => intro cnt tmp s h; cases h; simp
  | cons c l ih =>
    intro cnt tmp s h hp h0
    rw [loop] at h
    split at h
    · cases h; simp at hp
    · dsimp only at h
      split at h
      · cases h; simp at hp
      · split at h
        · cases h
        · split at h
          · have := ih _ _ _ h hp h0; omega
          · cases h; simp at hp

/-- The stream driver is the loop over the concatenation. -/
theorem getChunks_eq (cfg : Cfg) : ∀ (ls : List (List Nat)) (cnt t : Nat), (cnt = 0 → t = 0) →
    getChunks cfg cnt t ls = (loop cfg cnt t ls.flatten).map fun s =>
      match s.code with
      | .ok => ⟨s.rest, .ok, some (fromBits cfg s.tmp)⟩
      | .part => ⟨[], .eof, none⟩
      | c => ⟨s.rest, c, none⟩ := by
  intro ls
  induction ls with
  | nil => intro cnt t _; rfl
  | cons l ls ih =>
    intro cnt t h0
    have hor := loop_or cfg t l cnt 0
    rw [Nat.or_zero] at hor
    rw [getChunks, List.flatten_cons, loop_append, hor]
    cases hl : loop cfg cnt 0 l with
    | none => rfl
    | some s =>
      simp only [Option.bind_some, Option.map_some]
      have ht : (if cnt = 0 then 0 else t) = t := by split <;> simp_all
      rw [ht]
      cases hc : s.code with
      | part =>
        simp only [if_true]
        exact ih _ _ (fun hz => by
          obtain ⟨a, b⟩ := loop_cnt_pos cfg l cnt 0 s hl hc hz
          subst b
          rw [loop] at hl
          cases hl
          simp [h0 a])
      | ok => simp [hc]
      | eof => exact absurd hc (loop_code cfg l cnt 0 s hl).1
      | invalid => simp [hc]
      | overflow => simp [hc]

/-! ## the encoder -/

theorem putU_spec : ∀ n : Nat, ∃ gs, Groups gs ∧ putU n = groupBytes gs ∧ unsignedValue gs = n ∧
    ∀ k, 0 < k → n < 2 ^ (7 * k) → gs.length ≤ k := by
  intro n
  induction n using Nat.strong_induction_on with
  | _ n ih =>
    have hand : n &&& 0x7f = n % 128 := Nat.and_two_pow_sub_one_eq_mod n 7
    have hsh : n >>> 7 = n / 128 := Nat.shiftRight_eq_div_pow n 7
    rw [putU]
    simp only [hand, hsh]
    split
    · next h =>
      refine ⟨[n % 128], ⟨by simp, by simp; omega⟩, rfl, ?_, ?_⟩
      · simp only [unsignedValue]; omega
      · intro k hk _; simp; omega
    · next h =>
      obtain ⟨gs, h1, h2, h3, h4⟩ := ih (n / 128) (by omega)
      obtain ⟨_, _, _, _, b, _⟩ := low_bits (n % 128) (by omega)
      refine ⟨n % 128 :: gs, ⟨by simp, ?_⟩, ?_, ?_, ?_⟩
      · intro x hx
        rcases List.mem_cons.mp hx with hx0 | hx
        · omega
        · exact h1.2 x hx
      · rw [groupBytes_cons h1.1, h2, b]
      · simp only [unsignedValue, h3]; omega
      · intro k hk hn
        rcases Nat.lt_or_ge k 2 with h' | h'
        · have : k = 1 := by omega
          subst this; norm_num at hn; omega
        · have : gs.length ≤ k - 1 := h4 (k - 1) (by omega) (by
            rw [Nat.div_lt_iff_lt_mul (by omega)]
            calc n < _ := hn
              _ = _ := by
                rw [show 7 * k = 7 * (k - 1) + 7 by omega, pow_add]; norm_num)
          simp; omega

theorem putS_spec : ∀ (m : Nat) (v : Int), v.natAbs = m → ∃ gs, Groups gs ∧ putS v = groupBytes gs ∧ signedValue gs = v ∧
    ∀ k, 0 < k → -2 ^ (7 * k - 1) ≤ v → v < 2 ^ (7 * k - 1) → gs.length ≤ k := by
  intro m
  induction m using Nat.strong_induction_on with
  | _ m ih =>
    intro v hv
    have ht : (v % 128).toNat < 128 := by omega
    obtain ⟨_, _, _, _, b, b6⟩ := low_bits _ ht
    have hm : ((v % 128).toNat : Int) = v % 128 := by omega
    rw [putS]
    split
    · next h =>
      refine ⟨[(v % 128).toNat], ⟨by simp, by simp; omega⟩, rfl, ?_, ?_⟩
      · obtain ⟨h1, h2⟩ := h
        replace h2 : ¬ ((v / 128 = 0) ↔ 64 ≤ (v % 128).toNat) := fun e => h2 (decide_eq_decide.mpr (e.trans b6.symm))
        simp only [signedValue]
        rcases h1 with h1 | h1
        · have : ¬ 64 ≤ (v % 128).toNat := fun h' => h2 ⟨fun _ => h', fun _ => h1⟩
          rw [if_pos (by omega)]; omega
        · have : 64 ≤ (v % 128).toNat := by
            by_contra h'; exact h2 ⟨fun h => by omega, fun h => absurd h h'⟩
          rw [if_neg (by omega)]; omega
      · intro k hk _ _; simp; omega
    · next h =>
      have hcond : ¬ ((v / 128 = 0 ∧ v % 128 < 64) ∨ (v / 128 = -1 ∧ 64 ≤ v % 128)) := by
        intro h'
        apply h
        suffices hs : (v / 128 = 0 ∨ v / 128 = -1) ∧ ¬ ((v / 128 = 0) ↔ 64 ≤ (v % 128).toNat) from
          ⟨hs.1, fun e => hs.2 ((decide_eq_decide.mp e).trans b6)⟩
        rcases h' with ⟨a, c⟩ | ⟨a, c⟩
        · exact ⟨.inl a, fun hh => by have := hh.mp a; omega⟩
        · exact ⟨.inr a, fun hh => by have := hh.mpr (by omega); omega⟩
      obtain ⟨gs, h1, h2, h3, h4⟩ := ih (v / 128).natAbs (by omega) (v / 128) rfl
      refine ⟨(v % 128).toNat :: gs, ⟨by simp, ?_⟩, ?_, ?_, ?_⟩
      · intro x hx
        rcases List.mem_cons.mp hx with hx0 | hx
        · omega
        · exact h1.2 x hx
      · rw [groupBytes_cons h1.1, h2, b]
      · have := value_cons true (g := (v % 128).toNat) h1.1
        simp only [value, if_true] at this
        rw [this, h3]; omega
      · intro k hk hlo hhi
        rcases Nat.lt_or_ge k 2 with h' | h'
        · have : k = 1 := by omega
          subst this; norm_num at hlo hhi; omega
        · have hp : (2 : Int) ^ (7 * k - 1) = 128 * 2 ^ (7 * (k - 1) - 1) := by
            rw [show 7 * k - 1 = (7 * (k - 1) - 1) + 7 by omega, pow_add]; ring
          rw [hp] at hlo hhi
          have : gs.length ≤ k - 1 := h4 (k - 1) (by omega) (by omega) (by omega)
          simp; omega

end Verif.Leb
