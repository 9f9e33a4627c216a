import Verif.Http.Lemmas3
/-! # C36: reading HTTP headers -/
namespace Verif.Http
open Verif.Line (FindCfg findCh findCh_eq)

theorem slice_congr {b1 b2 : HB} {t : List Nat} (h1 : Holds b1 t) (h2 : Holds b2 t) (i j : Nat) (hj : j ≤ t.length) :
    b1.slice i j = b2.slice i j := by
  by_cases hij : i ≤ j
  · rw [slice_text h1 i j hij hj, slice_text h2 i j hij hj]
  · rw [HB.slice, HB.slice, if_neg (by omega), if_neg (by omega)]

theorem determine_congr {cfg : FindCfg} {b1 b2 b1' b2' : HB} {c1 c2 : Code} {t : List Nat} (h1 : Holds b1 t) (h2 : Holds b2 t)
    (e1 : determine cfg b1 = some (b1', c1)) (e2 : determine cfg b2 = some (b2', c2)) :
    c1 = c2 ∧ (c1 = .ok → b1'.text = b2'.text ∧ b1'.request = b2'.request ∧ b1'.code = b2'.code ∧ b1'.reason = b2'.reason) := by
  have s1 := slice_text h1 0 b1.len (Nat.zero_le _) (le_of_eq h1.1)
  have s2 := slice_text h2 0 b2.len (Nat.zero_le _) (le_of_eq h2.1)
  rw [determine, s1] at e1
  rw [determine, s2] at e2
  rw [h1.1] at e1
  rw [h2.1] at e2
  simp only [Option.bind_some] at e1 e2
  have hsl : ∀ i j, j ≤ t.length → b1.slice i j = b2.slice i j := slice_congr h1 h2
  by_cases g1 : ((t.drop 0).take (t.length - 0)).head? = some 32
  · rw [if_pos g1] at e1 e2
    simp at e1 e2
    exact ⟨e1.2.symm.trans e2.2, fun h => by rw [← e1.2] at h; simp at h⟩
  rw [if_neg g1] at e1 e2
  generalize findCh cfg 32 false ((t.drop 0).take (t.length - 0)) = ff at e1 e2
  rcases ff with _ | ⟨c, i⟩
  · simp at e1 e2
    exact ⟨e1.2.symm.trans e2.2, fun h => by rw [← e1.2] at h; simp at h⟩
  simp only at e1 e2
  by_cases g2 : findCh cfg 32 true i = []
  · rw [if_pos g2] at e1 e2
    simp at e1 e2
    exact ⟨e1.2.symm.trans e2.2, fun h => by rw [← e1.2] at h; simp at h⟩
  rw [if_neg g2] at e1 e2
  by_cases g3 : findCh cfg 32 false (findCh cfg 32 true i) = []
  · rw [if_pos g3] at e1 e2
    simp at e1 e2
    exact ⟨e1.2.symm.trans e2.2, fun h => by rw [← e1.2] at h; simp at h⟩
  rw [if_neg g3] at e1 e2
  by_cases g4 : findCh cfg 32 true (findCh cfg 32 false (findCh cfg 32 true i)) = []
  · rw [if_pos g4] at e1 e2
    simp at e1 e2
    exact ⟨e1.2.symm.trans e2.2, fun h => by rw [← e1.2] at h; simp at h⟩
  rw [if_neg g4] at e1 e2
  by_cases g5 : findCh cfg 13 false (findCh cfg 32 true (findCh cfg 32 false (findCh cfg 32 true i))) = []
  · rw [if_pos g5] at e1 e2
    simp at e1 e2
    exact ⟨e1.2.symm.trans e2.2, fun h => by rw [← e1.2] at h; simp at h⟩
  rw [if_neg g5] at e1 e2
  simp only [Option.some.injEq, Prod.mk.injEq] at e1 e2
  obtain ⟨rfl, rfl⟩ := e1
  obtain ⟨rfl, rfl⟩ := e2
  refine ⟨rfl, fun _ => ⟨?_, ?_, ?_, ?_⟩⟩
  · show b1.slice 0 t.length = b2.slice 0 t.length
    exact hsl _ _ (le_refl _)
  all_goals exact hsl _ _ (Nat.sub_le _ _)

/-- A fresh header buffer: the array has any contents. -/
def Fresh (b : HB) : Prop := b.len = 0 ∧ b.mem.length < 2 ^ 64

theorem fresh_holds {b : HB} (h : Fresh b) : Holds b [] := ⟨h.1, by rw [h.1]; exact Nat.zero_le _, by rw [h.1]; rfl⟩

theorem scan_fresh (cfg : FindCfg) (b : HB) (hb : Fresh b) (chunks : List (List Nat)) (hf : Fits cfg chunks.flatten) :
    ∃ o, scanHeader cfg b 0 chunks = some o ∧ Delivered cfg b.mem.length chunks.flatten o := by
  have := scanHeader_ok cfg chunks b 0 [] (fresh_holds hb) hb.2 inv_nil hf
  simpa using this

/-- **Success means a complete header, for every input.** Scanning any byte stream cut into any blocks never reads or
writes out of bounds and always reports success or `invalid`. On success what was consumed is a header ending at the first
CR LF CR LF of the stream, it is what the buffer holds, and it fits into it. -/
theorem c36_sound (cfg : FindCfg) (b : HB) (hb : Fresh b) (chunks : List (List Nat)) (hf : Fits cfg chunks.flatten) :
    ∃ o, scanHeader cfg b 0 chunks = some o ∧ (o.code = .ok ∨ o.code = .invalid) ∧
      (o.code = .ok → ∃ h, chunks.flatten = h ++ o.rest ∧ EndsFirst h ∧ h.length ≤ b.mem.length ∧ o.b.text = some h) := by
  obtain ⟨o, e, h1, h2, h3⟩ := scan_fresh cfg b hb chunks hf
  refine ⟨o, e, ?_, fun hok => ?_⟩
  · cases hc : o.code with
    | ok => exact Or.inl rfl
    | part => exact absurd hc h1
    | invalid => exact Or.inr rfl
  · obtain ⟨h, b1, g1, g2, g3, g4, g5, g6⟩ := h2 hok
    refine ⟨h, g1, g2, g3, ?_⟩
    obtain ⟨b', c, d1, d2, d3, _⟩ := determine_total (cfg := cfg) g4
    rw [d1] at g6
    simp at g6
    rw [← g6.1]
    have := slice_text g4 0 b1.len (Nat.zero_le _) (le_of_eq g4.1)
    rw [HB.text, HB.slice, d2, d3, ← HB.slice, this, g4.1]
    simp

/-- A stream without CR LF CR LF is never accepted. -/
theorem c36_no_header (cfg : FindCfg) (b : HB) (hb : Fresh b) (chunks : List (List Nat)) (hf : Fits cfg chunks.flatten)
    (hn : ¬ CRLF ++ CRLF <:+: chunks.flatten) : ∃ o, scanHeader cfg b 0 chunks = some o ∧ o.code = .invalid := by
  obtain ⟨o, e, h1, h2⟩ := c36_sound cfg b hb chunks hf
  refine ⟨o, e, h1.resolve_left (fun h => hn ?_)⟩
  obtain ⟨h, g1, g2, _⟩ := h2 h
  obtain ⟨t, ht⟩ := g2.1
  exact ⟨t, o.rest, by rw [g1, ← ht]⟩

/-- **Chunk independence, partial.** Two ways to cut the same stream into blocks, whose header (up to the first CR LF CR LF)
has no CR without LF and fits the buffer, give the same result, consume the same and, on success, show the same text, request, code and
reason. Missing: headers with a lone CR, see `c36_lone_cr_violated`. -/
theorem c36_chunk_independent_partial (cfg : FindCfg) (b1 b2 : HB) (hb1 : Fresh b1) (hb2 : Fresh b2)
    (hcap : b1.mem.length = b2.mem.length) (chunks1 chunks2 : List (List Nat)) (heq : chunks1.flatten = chunks2.flatten)
    (hf : Fits cfg chunks1.flatten) (h body : List Nat) (ht : chunks1.flatten = h ++ body) (he : EndsFirst h)
    (hcr : NoLoneCR h) :
    ∃ o1 o2, scanHeader cfg b1 0 chunks1 = some o1 ∧ scanHeader cfg b2 0 chunks2 = some o2 ∧ o1.code = o2.code ∧
      (o1.code = .ok → o1.rest = body ∧ o2.rest = body ∧ o1.b.text = o2.b.text ∧ o1.b.request = o2.b.request ∧
        o1.b.code = o2.b.code ∧ o1.b.reason = o2.b.reason) := by
  obtain ⟨o1, e1, _, _, g1⟩ := scan_fresh cfg b1 hb1 chunks1 hf
  obtain ⟨o2, e2, _, _, g2⟩ := scan_fresh cfg b2 hb2 chunks2 (heq ▸ hf)
  obtain ⟨k1, k2⟩ := g1 h body ht he hcr
  obtain ⟨m1, m2⟩ := g2 h body (heq ▸ ht) he hcr
  refine ⟨o1, o2, e1, e2, ?_⟩
  by_cases hle : h.length ≤ b1.mem.length
  · obtain ⟨r1, d1, hd1, _, x1⟩ := k1 hle
    obtain ⟨r2, d2, hd2, _, x2⟩ := m1 (by omega)
    obtain ⟨y1, y2⟩ := determine_congr hd1 hd2 x1 x2
    exact ⟨y1, fun hok => ⟨r1, r2, y2 hok⟩⟩
  · have q1 := k2 (by omega)
    have q2 := m2 (by omega)
    exact ⟨q1.trans q2.symm, fun hok => by rw [q1] at hok; simp at hok⟩

/-- **Reading a well-formed header, for every header, body and cut into blocks.** If the header fits the buffer, the scan
succeeds, consumes exactly the header, the buffer shows its text and the three parts of the status line, and the loop over
the fields sees exactly the keys and values in order. -/
theorem c36_header (cfg : FindCfg) (b : HB) (hb : Fresh b) (h : Header) (hv : h.Valid) (body : List Nat)
    (chunks : List (List Nat)) (ht : chunks.flatten = h.text ++ body) (hf : Fits cfg chunks.flatten)
    (hcap : h.text.length ≤ b.mem.length) :
    ∃ o, scanHeader cfg b 0 chunks = some o ∧ o.code = .ok ∧ o.rest = body ∧ o.b.text = some h.text ∧
      o.b.request = some h.request ∧ o.b.code = some h.code ∧ o.b.reason = some h.reason ∧
      ∀ n, h.fields.length ≤ n → forFields cfg n o.b = some (h.fields.map (fun f => (f.key, f.value)), true) := by
  obtain ⟨o, e, _, _, g⟩ := scan_fresh cfg b hb chunks hf
  obtain ⟨k, _⟩ := g h.text body ht (header_endsFirst hv) (header_noLone hv)
  obtain ⟨r, b1, hd, _, x⟩ := k hcap
  obtain ⟨tl, htl⟩ := tailText_head h.fields
  have htext : h.text = h.request ++ List.replicate (h.sp1 + 1) 32 ++ h.code ++ List.replicate (h.sp2 + 1) 32 ++ h.reason ++ 13 :: tl := by
    rw [header_text, htl, Header.status]
  have hfit : Fits cfg h.text := fun h8 c hc => hf h8 c (by rw [ht]; simp [hc])
  obtain ⟨b', d1, d2, d3, d4, d5, d6, d7⟩ := determine_status (cfg := cfg) (b := b1) (htext ▸ hd) (htext ▸ hfit)
    ⟨hv.request.1, hv.request.2.1⟩ ⟨hv.code.1, hv.code.2.1⟩ hv.reason
  rw [d1] at x
  simp at x
  have hob : o.b = b' := x.1.symm
  have hdo : Holds o.b h.text := by
    rw [hob]
    obtain ⟨q1, q2, q3⟩ := hd
    exact ⟨by rw [d3, q1], by rw [d2, d3]; exact q2, by rw [d2, d3]; exact q3⟩
  refine ⟨o, e, x.2.symm, r, ?_, by rw [hob, d4], by rw [hob, d5], by rw [hob, d6], ?_⟩
  · have := slice_text hdo 0 o.b.len (Nat.zero_le _) (le_of_eq hdo.1)
    rw [HB.text, this, hdo.1]; simp
  · intro n hn
    have hre : o.b.reasonEnd = h.status.length := by rw [hob, d7]; rfl
    rw [header_text] at hdo hfit
    exact fields_ok h.fields h.status (lineGenerator o.b) n hdo hfit hv.fields rfl hre hn

/-- A header that does not fit is rejected. -/
theorem c36_too_long (cfg : FindCfg) (b : HB) (hb : Fresh b) (h : Header) (hv : h.Valid) (body : List Nat)
    (chunks : List (List Nat)) (ht : chunks.flatten = h.text ++ body) (hf : Fits cfg chunks.flatten)
    (hcap : b.mem.length < h.text.length) : ∃ o, scanHeader cfg b 0 chunks = some o ∧ o.code = .invalid := by
  obtain ⟨o, e, _, _, g⟩ := scan_fresh cfg b hb chunks hf
  exact ⟨o, e, (g h.text body ht (header_endsFirst hv) (header_noLone hv)).2 hcap⟩

/-- The text of an ASCII string. -/
def asc (s : String) : List Nat := s.toList.map Char.toNat

/-- A header with two fields, one indented and one without a colon. -/
def sample : Header :=
  ⟨asc "HTTP/1.1", 1, asc "200", 0, asc "Not bad",
    [⟨0, asc "Host", true, 1, asc "a:b"⟩, ⟨2, asc "x", false, 0, []⟩, ⟨0, [], true, 0, []⟩]⟩

example : sample.Valid ∧ Fresh ⟨List.replicate 64 7, 0, 0, 0, 0, 0, 0⟩ ∧
    sample.text = asc "HTTP/1.1  200 Not bad\r\nHost: a:b\r\n  x\r\n:\r\n\r\n" := by
  refine ⟨⟨by decide +kernel, by decide +kernel, by decide +kernel, ?_⟩, by simp [Fresh], by decide +kernel⟩
  intro f hf
  simp only [sample, List.mem_cons, List.not_mem_nil, or_false] at hf
  rcases hf with rfl | rfl | rfl <;> constructor <;> decide +kernel

/-- An empty buffer of 64 characters. -/
def empty64 : HB := ⟨List.replicate 64 0, 0, 0, 0, 0, 0, 0⟩

/-- The same header, scanned in three blocks with the cuts inside CR LF, body `Z`. -/
example : (scanHeader { simd := 16 } empty64 0
      [asc "HTTP/1.1  200 Not bad\r", asc "\nHost: a:b\r\n  x\r\n:\r\n\r", asc "\nZ"]).map
        (fun o => decide (o.code = .ok ∧ o.rest = asc "Z" ∧ o.b.code = some (asc "200") ∧
          forFields { simd := 16 } 9 o.b = some ([(asc "Host", asc "a:b"), (asc "x", []), ([], [])], true))) = some true := by
  decide +kernel

/-- **Violated: chunk independence when a CR is not followed by LF.** The same bytes are rejected in one block, and accepted
if a block ends after the lone CR (or after CR LF CR). -/
theorem c36_lone_cr_violated :
    (scanHeader {} empty64 0 [asc "A\rB 1 c\r\n\r\n"]).map (fun o => o.code) = some .invalid ∧
    (scanHeader {} empty64 0 [asc "A\r", asc "B 1 c\r\n\r\n"]).map (fun o => o.code) = some .ok ∧
    (scanHeader {} empty64 0 [asc "A 1 c\r\n\rB\r\n\r\n"]).map (fun o => o.code) = some .invalid ∧
    (scanHeader {} empty64 0 [asc "A 1 c\r\n\r", asc "B\r\n\r\n"]).map (fun o => o.code) = some .ok := by
  decide +kernel

/-- **Violated: the parts of the status line lie on the status line.** A header whose status line has no reason phrase is accepted,
`code()` extends into the first field, and the loop over the fields sees none. -/
theorem c36_status_line_violated :
    (scanHeader {} empty64 0 [asc "HTTP/1.1 200\r\nHost: x\r\n\r\n"]).map
        (fun o => decide (o.code = .ok ∧ o.b.code = some (asc "200\r\nHost:") ∧ o.b.reason = some (asc "x") ∧
          forFields {} 9 o.b = some ([], true))) = some true := by
  decide +kernel

/-- **Violated: a buffer can be scanned into again.** The second header is appended to the first, and the parts reported are those of the
first. -/
theorem c36_reuse_violated :
    ((scanHeader {} empty64 0 [asc "GET /a H\r\n\r\n"]).bind fun o1 =>
      (scanHeader {} o1.b 0 [asc "PUT /b H\r\n\r\n"]).map fun o2 => (o1.code, o2.code, o2.b.text, o2.b.request)) =
    some (.ok, .ok, some (asc "GET /a H\r\n\r\nPUT /b H\r\n\r\n"), some (asc "GET")) := by
  decide +kernel

end Verif.Http
