import Verif.Load.Model
/-!
# C75: loading a whole file
-/
namespace Verif.Load

@[simp] theorem upd_same {α : Type} (f : Nat → α) (x : Nat) (v : α) : upd f x v x = v := by simp [upd]
theorem upd_ne {α : Type} (f : Nat → α) {x y : Nat} (v : α) (h : y ≠ x) : upd f x v y = f y := by simp [upd, h]
theorem upd_upd {α : Type} (f : Nat → α) (x : Nat) (v w : α) : upd (upd f x v) x w = upd f x w := by
  funext y
  by_cases e : y = x
  · subst e; simp
  · rw [upd_ne _ _ e, upd_ne _ _ e, upd_ne _ _ e]
theorem upd_self {α : Type} {f : Nat → α} {x : Nat} {v : α} (h : f x = v) : upd f x v = f := by
  funext y
  by_cases e : y = x
  · subst e; simp [h]
  · rw [upd_ne _ _ e]

/-- What one `read` does. -/
theorem sysRead_spec (f : File) (s : Sys) (n : Nat) :
    (∃ s', sysRead f s n = (s', none) ∧ s'.heap = s.heap ∧ s'.fd = s.fd ∧ none ∈ s.script) ∨
    ∃ s' m, sysRead f s n = (s', some ((f.data.drop s.pos).take m)) ∧ m ≤ n ∧ (m = 0 → n = 0 ∨ f.data.drop s.pos = []) ∧
      m ≤ (f.data.drop s.pos).length ∧ s'.pos = s.pos + m ∧ s'.heap = s.heap ∧ s'.fd = s.fd ∧ (∀ e, e ∈ s'.script → e ∈ s.script) := by
  have tk : ∀ n, (f.data.drop s.pos).take n = (f.data.drop s.pos).take (min n (f.data.drop s.pos).length) := fun n => List.take_eq_take_min
  rcases e : s.script with _ | ⟨_ | k, t⟩
  · right
    refine ⟨{ s with pos := s.pos + ((f.data.drop s.pos).take n).length }, min n (f.data.drop s.pos).length, ?_, by omega, ?_, by omega, ?_, rfl, rfl, ?_⟩
    · rw [← tk]; simp only [sysRead, e]
    · intro h
      rcases Nat.eq_zero_or_pos n with h1 | h1
      · exact Or.inl h1
      · right; apply List.length_eq_zero_iff.1; omega
    · simp only [List.length_take]
    · intro x hx; rw [e] at hx; exact hx
  · left
    exact ⟨{ s with script := t }, by simp only [sysRead, e], rfl, rfl, by simp⟩
  · right
    refine ⟨{ s with script := t, pos := s.pos + (((f.data.drop s.pos).take n).take (k + 1)).length },
      min (min (k + 1) n) (f.data.drop s.pos).length, ?_, by omega, ?_, by omega, ?_, rfl, rfl, ?_⟩
    · rw [← tk]; simp only [sysRead, e, List.take_take]
    · intro h
      rcases Nat.eq_zero_or_pos n with h1 | h1
      · exact Or.inl h1
      · right; apply List.length_eq_zero_iff.1; omega
    · simp only [List.length_take, List.take_take]
    · intro x hx; exact List.mem_cons_of_mem _ hx

/-- The loop: it ends, stores inside the block, and fills it with the file from the position on. -/
theorem fill_spec (f : File) (b size : Nat) (rest : List (Option Nat)) : ∀ (fuel : Nat) (s : Sys) (i : Nat) (p : List Nat),
    p.length = i → i ≤ size → size - i < fuel → s.heap b = some (p.map some ++ List.replicate (size - i) none ++ rest) →
    ∃ s' ok, fill f b size fuel s i = some (s', ok) ∧ s'.fd = s.fd ∧
      (ok = true → s'.heap = upd s.heap b (some ((p ++ (f.data.drop s.pos).take (size - i)).map some ++ rest)) ∧
        size - i ≤ (f.data.drop s.pos).length) ∧
      (ok = false → (∃ m, s'.heap = upd s.heap b (some m)) ∧ (none ∈ s.script ∨ (f.data.drop s.pos).length < size - i)) := by
  intro fuel
  induction fuel with
  | zero => intro s i p _ _ h; omega
  | succ fuel ih =>
    intro s i p hp hi hfu hb
    by_cases he : i = size
    · subst he
      refine ⟨s, true, by simp [fill], rfl, fun _ => ⟨?_, by omega⟩, by simp⟩
      rw [Nat.sub_self] at hb ⊢
      simp only [List.replicate_zero, List.append_nil, List.take_zero] at hb ⊢
      exact (upd_self hb).symm
    · rcases sysRead_spec f s (size - i) with ⟨s1, h1, h2, h3, h4⟩ | ⟨s1, m, h1, h2, h3, h4, h5, h6, h7, h8⟩
      · exact ⟨s1, false, by simp [fill, he, h1], h3, by simp, fun _ => ⟨⟨_, by rw [h2]; exact (upd_self hb).symm⟩, Or.inl h4⟩⟩
      · have hl : ((f.data.drop s.pos).take m).length = m := by rw [List.length_take]; omega
        have hst : store s1 b i ((f.data.drop s.pos).take m) =
            some { s1 with heap := upd s.heap b (some ((p ++ (f.data.drop s.pos).take m).map some ++ List.replicate (size - (i + m)) none ++ rest)) } := by
          simp only [store, h6, hb]
          rw [if_neg (by simp only [List.length_append, List.length_map, List.length_replicate, hp, hl]; omega)]
          congr 3
          have e1 : (p.map some ++ List.replicate (size - i) none ++ rest).take i = p.map some := by
            rw [List.append_assoc, List.take_append_of_le_length (by simp [hp]), List.take_of_length_le (by simp [hp])]
          have e2 : (p.map some ++ List.replicate (size - i) (none : Option Nat) ++ rest).drop (i + ((f.data.drop s.pos).take m).length) =
              List.replicate (size - (i + m)) none ++ rest := by
            rw [hl, List.append_assoc, ← List.drop_drop, List.drop_append_of_le_length (by simp [hp]), List.drop_of_length_le (l := p.map some) (by simp [hp]),
              List.nil_append, List.drop_append_of_le_length (by simp; omega), List.drop_replicate]
            congr 2
            omega
          rw [e1, e2]; simp only [List.map_append, List.append_assoc]
        by_cases hm : m = 0
        · refine ⟨{ s1 with heap := upd s.heap b (some ((p ++ (f.data.drop s.pos).take m).map some ++ List.replicate (size - (i + m)) none ++ rest)) },
            false, ?_, ?_, fun h => absurd h (by decide), ?_⟩
          · simp only [fill, if_neg he, h1, hst, Option.bind_some]
            rw [if_pos (by rw [hm]; rfl)]
          · exact h7
          · intro _
            refine ⟨⟨_, rfl⟩, Or.inr ?_⟩
            rcases h3 hm with h | h
            · omega
            · rw [h]; simp; omega
        · obtain ⟨s', ok, h9, h10, h11, h12⟩ := ih
            { s1 with heap := upd s.heap b (some ((p ++ (f.data.drop s.pos).take m).map some ++ List.replicate (size - (i + m)) none ++ rest)) }
            (i + m) (p ++ (f.data.drop s.pos).take m) (by rw [List.length_append, hl, hp]) (by omega) (by omega) (by simp)
          refine ⟨s', ok, ?_, by rw [h10]; exact h7, ?_, ?_⟩
          · simp only [fill, if_neg he, h1, hst, Option.bind_some]
            rw [if_neg (by intro h; rw [h] at hl; simp at hl; omega), hl]
            exact h9
          · intro hok
            obtain ⟨a, c⟩ := h11 hok
            simp only [h5, upd_upd] at a c
            rw [a]
            have e3 : (f.data.drop s.pos).take m ++ (f.data.drop (s.pos + m)).take (size - (i + m)) = (f.data.drop s.pos).take (size - i) := by
              rw [show size - i = m + (size - (i + m)) by omega, List.take_add, List.drop_drop]
            refine ⟨by rw [List.append_assoc, e3], ?_⟩
            simp only [List.length_drop] at c h4 ⊢
            omega
          · intro hok
            obtain ⟨⟨x, a⟩, c⟩ := h12 hok
            refine ⟨⟨x, by rw [a]; exact upd_upd _ _ _ _⟩, ?_⟩
            rcases c with c | c
            · exact Or.inl (h8 _ c)
            · right
              simp only [h5, List.length_drop] at c h4 ⊢
              omega

/-- The size of a block: a number that `malloc` can be asked for, and the text is not longer than the memory. -/
def Fits (exb : Option Nat) (f : File) : Prop := f.reported + exb.getD 0 < 2 ^ 64

/-- The text between the file position and the reported size. -/
def text (f : File) (pos : Nat) : List Nat := (f.data.drop pos).take f.reported

/-- Everything a loader needs is there: `statx`, the memory, no error from `read`, and the file is as long as reported. -/
def Granted (exb : Option Nat) (f : File) (pos : Nat) (stat : Bool) (ans : Option Nat) (s : Sys) : Prop :=
  stat = true ∧ Fits exb f ∧ (exb = none ∧ f.reported = 0 ∨ ∃ b, ans = some b ∧ s.heap b = none) ∧ none ∉ s.script ∧
    f.reported ≤ (f.data.drop pos).length

theorem malloc_some {s : Sys} {n : Nat} {ans : Option Nat} {r : Sys × Nat} (h : malloc s n ans = some r) :
    ans = some r.2 ∧ s.heap r.2 = none ∧ r.1 = { s with heap := upd s.heap r.2 (some (List.replicate n none)) } := by
  rcases ans with _ | b
  · simp [malloc] at h
  · simp only [malloc] at h
    by_cases e : s.heap b = none
    · rw [if_pos e] at h; cases h; exact ⟨rfl, e, rfl⟩
    · rw [if_neg e] at h; exact absurd h (by simp)

theorem malloc_none {s : Sys} {n : Nat} {ans : Option Nat} (h : malloc s n ans = none) : ¬∃ b, ans = some b ∧ s.heap b = none := by
  rintro ⟨b, rfl, e⟩
  simp [malloc, e] at h

/-- The allocation, the loop and the guard. -/
theorem guarded (f : File) (size exsz : Nat) (s : Sys) (b : Nat) (hb : s.heap b = none) :
    ∃ s' ok, fill f b size (size + 1) { s with heap := upd s.heap b (some (List.replicate (size + exsz) none)) } 0 = some (s', ok) ∧ s'.fd = s.fd ∧
      (ok = true → ∃ s'', store s' b size (List.replicate exsz 0) = some s'' ∧ s''.fd = s.fd ∧
        s''.heap = upd s.heap b (some (((f.data.drop s.pos).take size ++ List.replicate exsz 0).map some)) ∧ size ≤ (f.data.drop s.pos).length) ∧
      (ok = false → (∃ s'', free s' (some b) = some s'' ∧ s''.fd = s.fd ∧ s''.heap = s.heap) ∧
        (none ∈ s.script ∨ (f.data.drop s.pos).length < size)) := by
  obtain ⟨s', ok, h1, h2, h3, h4⟩ := fill_spec f b size (List.replicate exsz none) (size + 1)
    { s with heap := upd s.heap b (some (List.replicate (size + exsz) none)) } 0 [] rfl (by omega) (by omega)
    (by simp [List.replicate_append_replicate])
  refine ⟨s', ok, h1, h2, ?_, ?_⟩
  · intro hok
    obtain ⟨a, c⟩ := h3 hok
    simp only [upd_upd, Nat.sub_zero, List.nil_append] at a c
    have hl : ((f.data.drop s.pos).take size).length = size := by rw [List.length_take]; omega
    refine ⟨{ s' with heap := upd s'.heap b (some (((f.data.drop s.pos).take size ++ List.replicate exsz 0).map some)) }, ?_, h2, ?_, c⟩
    · simp only [store]
      rw [a]
      simp only [upd_same]
      rw [if_neg (by simp only [List.length_append, List.length_map, hl, List.length_replicate]; omega)]
      have key : ∀ t : List Nat, t.length = size → (t.map some ++ List.replicate exsz (none : Option Nat)).take size ++ (List.replicate exsz 0).map some ++
          (t.map some ++ List.replicate exsz (none : Option Nat)).drop (size + (List.replicate exsz 0).length) =
          (t ++ List.replicate exsz 0).map some := by
        intro t ht
        rw [List.take_append_of_le_length (by simp [ht]), List.take_of_length_le (by simp [ht]), List.drop_of_length_le (by simp [ht])]
        simp
      rw [key _ hl]
    · show upd s'.heap b _ = _
      rw [a, upd_upd]
  · intro hok
    obtain ⟨⟨m, a⟩, c⟩ := h4 hok
    simp only [Nat.sub_zero] at c
    refine ⟨⟨{ s' with heap := upd s'.heap b none }, ?_, h2, ?_⟩, c⟩
    · simp [free, a]
    · show upd s'.heap b none = _
      rw [a, upd_upd, upd_upd, upd_self hb]

theorem loadFd_spec (exb : Option Nat) (he : exb.getD 0 < 2 ^ 64) (f : File) (stat : Bool) (ans : Option Nat) (s : Sys) :
    ∃ s' r, loadFd exb f stat ans s = some (s', r) ∧ s'.fd = s.fd ∧
      match r with
      | none => s'.heap = s.heap ∧ ¬Granted exb f s.pos stat ans s
      | some ld => Holds s.heap s'.heap (text f s.pos) (exb.getD 0) ld ∧ f.reported ≤ (f.data.drop s.pos).length := by
  unfold loadFd
  cases stat
  · exact ⟨s, none, rfl, rfl, rfl, fun h => absurd h.1 (by decide)⟩
  simp only [if_true]
  rcases exb with _ | e
  · simp only [loadAddress]
    by_cases h0 : f.reported = 0
    · rw [if_pos h0]
      exact ⟨s, some (none, f.reported), rfl, rfl, ⟨by simp [text, h0], by simp [text, h0]⟩, by omega⟩
    · rw [if_neg h0]
      rcases hm : malloc s f.reported ans with _ | ⟨s1, b⟩
      · refine ⟨s, none, rfl, rfl, rfl, ?_⟩
        rintro ⟨_, _, h | h, _⟩
        · exact h0 h.2
        · exact malloc_none hm h
      · obtain ⟨h1, h2, h3⟩ := malloc_some hm
        simp only [] at h1 h2 h3
        obtain ⟨s', ok, g1, g2, g3, g4⟩ := guarded f f.reported 0 s b h2
        simp only [Nat.add_zero] at g1
        simp only [h3, g1, Option.bind_some]
        cases ok
        · obtain ⟨⟨s'', a, c, d⟩, g⟩ := g4 rfl
          refine ⟨s'', none, by simp [a], c, d, ?_⟩
          rintro ⟨_, _, _, i, j⟩
          rcases g with g | g
          · exact i g
          · omega
        · obtain ⟨s'', a, c, d, g⟩ := g3 rfl
          have : s''.heap = s'.heap := by
            have hh := (fill_spec f b f.reported [] (f.reported + 1) { s with heap := upd s.heap b (some (List.replicate f.reported none)) } 0 []
              rfl (by omega) (by omega) (by simp))
            obtain ⟨s3, ok3, k1, k2, k3, k4⟩ := hh
            rw [g1] at k1
            cases k1
            rw [(k3 rfl).1, d]
            simp [upd_upd]
          refine ⟨s', some (some b, f.reported), by simp, g2, ⟨?_, h2, ?_⟩, g⟩
          · simp only [text, List.length_take]; omega
          · rw [← this, d]; rfl
  · simp only [loadExtra]
    by_cases h0 : 2 ^ 64 - 1 - e < f.reported
    · rw [if_pos h0]
      refine ⟨s, none, rfl, rfl, rfl, ?_⟩
      rintro ⟨_, h, _⟩
      have h : f.reported + e < 2 ^ 64 := h
      omega
    · rw [if_neg h0]
      have he : e < 2 ^ 64 := he
      have h01 : f.reported + e < 2 ^ 64 := by omega
      · rw [Nat.mod_eq_of_lt h01]
        rcases hm : malloc s (f.reported + e) ans with _ | ⟨s1, b⟩
        · refine ⟨s, none, rfl, rfl, rfl, ?_⟩
          rintro ⟨_, _, h | h, _⟩
          · exact absurd h.1 (by simp)
          · exact malloc_none hm h
        · obtain ⟨h1, h2, h3⟩ := malloc_some hm
          simp only [] at h1 h2 h3
          obtain ⟨s', ok, g1, g2, g3, g4⟩ := guarded f f.reported e s b h2
          simp only [h3, g1, Option.bind_some]
          cases ok
          · obtain ⟨⟨s'', a, c, d⟩, g⟩ := g4 rfl
            refine ⟨s'', none, by simp [a], c, d, ?_⟩
            rintro ⟨_, _, _, i, j⟩
            rcases g with g | g
            · exact i g
            · omega
          · obtain ⟨s'', a, c, d, g⟩ := g3 rfl
            refine ⟨s'', some (some b, f.reported), by simp [a], c, ⟨?_, h2, ?_⟩, g⟩
            · simp only [text, List.length_take]; omega
            · exact d

/-! ## The theorems -/

/-- **C75, loading through a descriptor.** Whatever the size of the file, the fragmentation of the reads and the errors: the constructor ends and
stores only into its own block. If it throws, no memory is lost and something was refused or the file is shorter than reported; otherwise
the loader holds the text from the file position on, as long as the reported size, followed by the zeros asked for. -/
theorem c75_descriptor (exb : Option Nat) (he : exb.getD 0 < 2 ^ 64) (f : File) (stat : Bool) (ans : Option Nat) (s : Sys) :
    ∃ s' r, loadFd exb f stat ans s = some (s', r) ∧ s'.fd = s.fd ∧
      match r with
      | none => s'.heap = s.heap ∧ ¬Granted exb f s.pos stat ans s
      | some ld => Holds s.heap s'.heap ((f.data.drop s.pos).take f.reported) (exb.getD 0) ld ∧ f.reported ≤ (f.data.drop s.pos).length :=
  loadFd_spec exb he f stat ans s

/-- **C75, loading a file by its name.** As above from the beginning of the file; the descriptor is closed in every case. -/
theorem c75_named (exb : Option Nat) (he : exb.getD 0 < 2 ^ 64) (f : File) (op stat : Bool) (ans : Option Nat) (s : Sys) (hs : s.fd = false) :
    ∃ s' r, loadName exb f op stat ans s = some (s', r) ∧ s'.fd = false ∧
      match r with
      | none => s'.heap = s.heap ∧ ¬(op = true ∧ Granted exb f 0 stat ans s)
      | some ld => Holds s.heap s'.heap (f.data.take f.reported) (exb.getD 0) ld ∧ f.reported ≤ f.data.length := by
  unfold loadName
  cases op
  · exact ⟨s, none, rfl, hs, rfl, fun h => absurd h.1 (by decide)⟩
  · obtain ⟨s', r, h1, h2, h3⟩ := loadFd_spec exb he f stat ans { s with pos := 0, fd := true }
    refine ⟨{ s' with fd := false }, r, by simp [h1], rfl, ?_⟩
    rcases r with _ | ld
    · exact ⟨h3.1, fun h => h3.2 h.2⟩
    · exact h3

/-- **C75, the content.** A loader for a file whose reported size is its size holds exactly the file (and the zeros asked for), if the operating
system grants what is needed and however it fragments the reads. -/
theorem c75_content (exb : Option Nat) (f : File) (hf : f.reported = f.data.length) (ans : Option Nat) (s : Sys) (hs : s.fd = false)
    (hsz : f.data.length + exb.getD 0 < 2 ^ 64) (hm : exb = none ∧ f.data = [] ∨ ∃ b, ans = some b ∧ s.heap b = none) (hr : none ∉ s.script) :
    ∃ s' ld, loadName exb f true true ans s = some (s', some ld) ∧ s'.fd = false ∧ Holds s.heap s'.heap f.data (exb.getD 0) ld := by
  obtain ⟨s', r, h1, h2, h3⟩ := c75_named exb (by omega) f true true ans s hs
  rcases r with _ | ld
  · refine absurd ⟨rfl, rfl, ?_, ?_, hr, ?_⟩ h3.2
    · show f.reported + exb.getD 0 < 2 ^ 64
      omega
    · rcases hm with ⟨a, c⟩ | hm
      · exact Or.inl ⟨a, by rw [hf, c]; rfl⟩
      · exact Or.inr hm
    · rw [hf, List.drop_zero]; exact Nat.le_refl _
  · refine ⟨s', ld, h1, h2, ?_⟩
    have := h3.1
    rwa [hf, List.take_of_length_le (by omega)] at this

/-- **C75, unloading.** Destroying or closing a loader frees its block, and nothing else. -/
theorem c75_unload (s : Sys) (before : Nat → Option (List (Option Nat))) (t : List Nat) (extra : Nat) (ld : Option Nat × Nat)
    (h : Holds before s.heap t extra ld) : ∃ s', unload s ld = some s' ∧ s'.heap = before := by
  obtain ⟨a, n⟩ := ld
  rcases a with _ | b
  · exact ⟨s, rfl, h.2.2.2⟩
  · obtain ⟨_, h1, h2⟩ := h
    refine ⟨{ s with heap := upd s.heap b none }, by simp [unload, free, h2], ?_⟩
    show upd s.heap b none = before
    rw [h2, upd_upd, upd_self h1]

/-- **C75, mapped files.** The mapping loader holds the file wherever the file position is. -/
theorem c75_mmap (f : File) (hf : f.reported = f.data.length) : loadMmap f true true = some f.data := by
  unfold loadMmap
  simp only [if_true, hf]
  split
  · rename_i h; rw [List.length_eq_zero_iff.1 h]
  · simp

/-! ## Where it fails -/

/-- **C75, the file position: violated.** A loader made from a descriptor that is not at its beginning throws although everything is granted: it asks
for as many bytes as the file has, but reads from the position on. The mapping loader does not. -/
theorem c75_position_violated (f : File) (hf : f.reported = f.data.length) (h0 : f.data ≠ []) (exb : Option Nat) (he : exb.getD 0 < 2 ^ 64)
    (ans : Option Nat) (s : Sys) (hp : 0 < s.pos) : (∃ s', loadFd exb f true ans s = some (s', none)) ∧ loadMmap f true true = some f.data := by
  refine ⟨?_, c75_mmap f hf⟩
  obtain ⟨s', r, h1, _, h3⟩ := loadFd_spec exb he f true ans s
  rcases r with _ | ld
  · exact ⟨s', h1⟩
  · have := h3.2
    have hl : f.data.length ≠ 0 := fun h => h0 (List.length_eq_zero_iff.1 h)
    rw [hf, List.length_drop] at this
    omega

/-- **C75, files of the kernel: violated.** A file that reports the size 0, as those in `/proc` do, is loaded as an empty one. -/
theorem c75_reported_violated (f : File) (hf : f.reported = 0) (ans : Option Nat) (s : Sys) :
    loadName none f true true ans s = some ({ s with pos := 0, fd := false }, some (none, 0)) := by
  simp [loadName, loadFd, loadAddress, hf]

/-- **C75, no extra bytes for an empty file: violated.** It throws on systems whose `malloc(0)` is null, although no memory is needed. -/
theorem c75_extra_violated (s : Sys) : loadFd (some 0) ⟨[], 0⟩ true none s = some (s, none) := by
  simp [loadFd, loadExtra, malloc]

/-! ## Examples -/

/-- A world in which block 4 is taken and reads come in pieces. -/
def world : Sys := ⟨fun b => if b = 4 then some [some 9] else none, [some 0, some 1, some 0], 3, false⟩

example : (loadName (some 2) ⟨[10, 20, 30, 40, 50], 5⟩ true true (some 7) world).map (fun r => (r.1.heap 7, r.1.heap 4, r.1.fd, r.2)) =
    some (some [some 10, some 20, some 30, some 40, some 50, some 0, some 0], some [some 9], false, some (some 7, 5)) := rfl
example : (loadName none ⟨[10, 20, 30], 5⟩ true true (some 7) world).map (fun r => (r.1.heap 7, r.1.fd, r.2)) = some (none, false, none) := by
  decide +kernel
example : (loadFd none ⟨[10, 20, 30, 40, 50], 2⟩ true (some 7) world).map (fun r => (r.1.heap 7, r.1.pos, r.2)) =
    some (some [some 40, some 50], 5, some (some 7, 2)) := by decide +kernel

end Verif.Load
