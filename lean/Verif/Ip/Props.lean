import Verif.Ip.Chunk
import Verif.Ip.Lemmas2
/-! Theorems about internet addresses (C34, C35). -/
namespace Verif.Ip
open Verif Verif.IntPrint Verif.IntScan

/-! ## C34: printing IPv4 -/

/-- C34: every address prints as its dotted decimal: exactly these characters are written, nothing else in memory
changes and the returned position is behind them. With the port: `address:port` (`address:0` for the type without a
port). -/
theorem c34_print (x : Addr4) (hx : x.Ok) (port : Nat) (hp : port < 65536) (m : Mem) (p : Nat) :
    let o := [x.a, x.b, x.c, x.d]
    let withPort := fun n : Nat => dotted x ++ ascii ":" ++ decText n
    prtPosixInAddr false (m, p) o = some (store m p (dotted x), p + (dotted x).length) ∧
    prtPosixInAddr true (m, p) o = some (store m p (withPort 0), p + (withPort 0).length) ∧
    prtIpv4 false (m, p) o port = some (store m p (dotted x), p + (dotted x).length) ∧
    prtIpv4 true (m, p) o port = some (store m p (withPort port), p + (withPort port).length) := by
  have h0 := writes_inaddr x hx
  have hz : decText 0 = ascii "0" := by decide +kernel
  refine ⟨?_, ?_, ?_, ?_⟩
  · have := h0 m p
    simp [prtPosixInAddr, this]
  · have := (h0.bind writes_portZero) m p
    rw [show ascii ":0" = ascii ":" ++ decText 0 by rw [hz]; rfl, ← List.append_assoc] at this
    simp only [prtPosixInAddr, if_true]
    rw [← this, Option.map_eq_bind]; rfl
  · have := h0 m p
    simp [prtIpv4, this]
  · have := (h0.bind (writes_port port hp)) m p
    rw [← List.append_assoc] at this
    simp only [prtIpv4, if_true]
    exact this

example : (⟨192, 168, 0, 1⟩ : Addr4).Ok ∧ dotted ⟨192, 168, 0, 1⟩ = ascii "192.168.0.1" := by
  constructor
  · simp [Addr4.Ok]
  · decide +kernel

/-- C34: the announced buffer is large enough for every address and port. -/
theorem c34_reserve (x : Addr4) (hx : x.Ok) (port : Nat) (hp : port < 65536) :
    (dotted x).length ≤ ipReserve true false false ∧
    (dotted x ++ ascii ":" ++ decText port).length ≤ ipReserve true true false := by
  have h := dotted_length x hx
  have h2 := decText_length port 5 (by omega) (by omega)
  have e1 : ipReserve true false false = 15 := by decide +kernel
  have e2 : ipReserve true true false = 21 := by decide +kernel
  rw [e1, e2]
  simp only [List.length_append]
  have : (ascii ":").length = 1 := rfl
  omega

/-- The bounds are attained: the theorem is not slack. -/
example : (dotted ⟨255, 255, 255, 255⟩ ++ ascii ":" ++ decText 65535).length = ipReserve true true false := by decide +kernel

/-! ## C34: scanning IPv4 from memory -/

/-- C34 (partial: texts ending in `.` are excluded, see `c34_trailing_dot_violated`; with the SSE4.1 code compiled in,
runs of sixteen digits, see C09): the scan of *any* text is defined, and it succeeds exactly if the text begins with a
dotted decimal address that is not followed by a digit; then it returns that address and the position behind it. -/
theorem c34_scan_partial {cw simd : Nat} {sse : Bool} (hst : Setting cw simd) (l : List Nat) (hc : CodeUnits cw l)
    (hs : NoLongRun sse l) (hdot : ∀ p, l ≠ p ++ [46]) :
    ∃ o, scnInaddr cw simd sse l = some o ∧ ∀ x rest, o = ⟨rest, .ok, some x⟩ ↔ StartsWithAddr l x rest := by
  obtain ⟨o, h1, h2⟩ := scnInaddr_sound (sse := sse) hst l hc hs
  refine ⟨o, h1, ?_⟩
  intro x rest
  constructor
  · intro h
    obtain ⟨x', e1, e2⟩ := h2 hdot (by rw [h])
    rw [h] at e1 e2
    simp only [Option.some.injEq] at e1
    rw [e1]; exact e2
  · intro h
    have := scnInaddr_complete (sse := sse) hst hc hs h
    rw [h1] at this
    exact Option.some.inj this

example : Setting 8 16 ∧ CodeUnits 8 (ascii "10.0.0.255/8") ∧ (∀ p, ascii "10.0.0.255/8" ≠ p ++ [46]) ∧
    StartsWithAddr (ascii "10.0.0.255/8") ⟨10, 0, 0, 255⟩ (ascii "/8") := by
  refine ⟨⟨by simp [CharWidth], by simp⟩, by unfold CodeUnits; decide +kernel, ?_, ?_, by decide +kernel, ?_⟩
  · intro p h
    have := congrArg List.getLast? h
    simp [ascii] at this
  · simp [Addr4.Ok]
  · intro c t d h hd
    simp only [ascii] at h
    have : c = 47 := by simp at h; exact h.1.symm
    subst this
    obtain ⟨h1, h2⟩ := hd
    simp [digitChar, h1] at h2; omega

/-- C34: the printed text of an address is scanned back to the address. -/
theorem c34_round_trip {cw simd : Nat} {sse : Bool} (hst : Setting cw simd) (x : Addr4) (hx : x.Ok) :
    scnInaddr cw simd sse (dotted x) = some ⟨[], .ok, some x⟩ := by
  have hnd : NoDigitFirst 10 ([] : List Nat) := by intro c t d h; simp at h
  have hlen := dotted_length x hx
  have hdig : ∀ n, ∀ c ∈ decText n, c < 58 := fun n c h => by
    have := digitRun10_range (digitRun10_dec n) c h; omega
  have hcu : CodeUnits cw (dotted x) := by
    intro c h
    have h58 : c < 58 := by
      simp only [dotted, ascii, List.mem_append] at h
      rcases h with (((((h | h) | h) | h) | h) | h) | h
      · exact hdig _ c h
      · simp at h; omega
      · exact hdig _ c h
      · simp at h; omega
      · exact hdig _ c h
      · simp at h; omega
      · exact hdig _ c h
    have h2 : 2 ^ 8 ≤ 2 ^ cw := Nat.pow_le_pow_right (by omega) (by rcases hst.cw with h | h | h <;> omega)
    norm_num at h2; omega
  have hs : NoLongRun sse (dotted x) := by
    intro _ p cs q ds he hr
    have := congrArg List.length he
    simp only [List.length_append] at this
    omega
  exact scnInaddr_complete hst hcu hs ⟨hx, by simp, hnd⟩

/-- C34 violated: a missing last octet is accepted, as 0, if the text ends there. -/
theorem c34_trailing_dot_violated :
    scnInaddr 8 0 false (ascii "1.1.111.") = some ⟨[], .ok, some ⟨1, 1, 111, 0⟩⟩ ∧
    ¬ ∃ x rest, StartsWithAddr (ascii "1.1.111.") x rest := by
  refine ⟨by decide +kernel, ?_⟩
  rintro ⟨x, rest, ⟨h1, h2, h3, h4⟩, he, hr⟩
  have := @T_functional (ascii "1.1.111.0") x ⟨1, 1, 111, 0⟩ (rest ++ [48]) []
  by_cases hr0 : rest = []
  · subst hr0
    rw [List.append_nil] at he
    have hne := decText_ne x.d
    rcases List.eq_nil_or_concat (decText x.d) with h | ⟨t, c, h⟩
    · exact hne h
    · have e := congrArg List.getLast? he
      simp only [dotted, h, List.concat_eq_append, ← List.append_assoc, List.getLast?_append, List.getLast?_singleton] at e
      have : c = 46 := by simp [ascii] at e; exact e.symm
      have := digitRun10_range (digitRun10_dec x.d) c (by rw [h]; simp)
      omega
  · have hT : T0 (ascii "1.1.111.0") x (rest ++ [48]) := by
      rw [← spacedAddr_iff]
      refine ⟨[], ascii "1.1.111.0", by simp, rfl, ⟨h1, h2, h3, h4⟩, ?_, ?_⟩
      · rw [← List.append_assoc, ← he]; decide +kernel
      · exact noDigit_append hr hr0 [48]
    have hT' : T0 (ascii "1.1.111.0") ⟨1, 1, 111, 0⟩ [] := by
      rw [← spacedAddr_iff]
      exact ⟨[], ascii "1.1.111.0", by simp, rfl, by simp [Addr4.Ok], by decide +kernel, noDigit_nil 10⟩
    have := (this hT hT').2
    simp at this

/-! ## C34: with a port -/

/-- C34 (partial: texts ending in `.` or `:` excluded, see `c34_trailing_dot_violated` and `c34_empty_port_violated`):
scanning `address:port` succeeds exactly on such texts, with the port in `0..65535`; without a required port the
address alone is read and the port is set to 0. -/
theorem c34_scan_port_partial {cw simd : Nat} {sse : Bool} (hst : Setting cw simd) (l : List Nat) (hc : CodeUnits cw l)
    (hs : NoLongRun sse l) (hdot : ∀ p, l ≠ p ++ [46]) (hcol : ∀ p, l ≠ p ++ [58]) :
    (∃ o, scnIpv4 cw simd sse true l = some o ∧
      ∀ x port rest, o = ⟨rest, .ok, some (x, port)⟩ ↔ StartsWithAddrPort l x port rest) ∧
    (∃ o, scnIpv4 cw simd sse false l = some o ∧
      ∀ x port rest, o = ⟨rest, .ok, some (x, port)⟩ ↔ StartsWithAddr l x rest ∧ port = 0) := by
  obtain ⟨o, h1, h2⟩ := c34_scan_partial (sse := sse) hst l hc hs hdot
  have hcases : (∃ x rest, o = ⟨rest, .ok, some x⟩) ∨ (∀ x, ¬ (o.code = .ok ∧ o.value = some x)) := by
    by_cases h : ∃ x, o.code = .ok ∧ o.value = some x
    · obtain ⟨x, e1, e2⟩ := h
      exact Or.inl ⟨x, o.rest, by rw [← e1, ← e2]⟩
    · exact Or.inr (fun x h' => h ⟨x, h'⟩)
  have hno : (∀ x, ¬ (o.code = .ok ∧ o.value = some x)) → o.code ≠ .ok := by
    intro h hok
    obtain ⟨o', e1, e2⟩ := scnInaddr_sound (sse := sse) hst l hc hs
    rw [h1] at e1
    cases e1
    obtain ⟨x, e3, _⟩ := e2 hdot hok
    exact h x ⟨hok, e3⟩
  have split : ∀ {x port rest}, StartsWithAddrPort l x port rest →
      StartsWithAddr l x (ascii ":" ++ decText port ++ rest) := by
    rintro x port rest ⟨k1, k2, k3, k4⟩
    refine ⟨k1, by rw [k3]; simp, ?_⟩
    exact noDigit_char (Or.inr rfl) _
  rcases hcases with ⟨x, rest, ho⟩ | hbad
  · have hst' := (h2 x rest).mp ho
    obtain ⟨hx, hl, hnd⟩ := hst'
    subst ho
    have hcr : CodeUnits cw rest := by rw [hl] at hc; exact CodeUnits.tail hc
    have hsr : NoLongRun sse rest := by rw [hl] at hs; exact hs.tail
    constructor
    · obtain ⟨q, k1, k2⟩ := scnPort_sound (sse := sse) hst rest hcr hsr
      refine ⟨⟨q.rest, q.code, q.value.map fun p => (x, p)⟩, by simp [scnIpv4, h1, k1], ?_⟩
      intro y port r
      constructor
      · intro h
        simp only [Out.mk.injEq, Option.map_eq_some_iff, Prod.mk.injEq] at h
        obtain ⟨e1, e2, p, e3, e4, e5⟩ := h
        obtain ⟨v, j1, j2, j3, j4⟩ := k2 (by
          intro p' h'; exact hcol (dotted x ++ p') (by rw [hl, h']; simp)) e2
        rw [e3] at j2
        simp only [Option.some.injEq] at j2
        subst e4 e5 e1 j2
        exact ⟨hx, j1, by rw [hl]; conv => lhs; rw [j3]
                          simp, j4⟩
      · intro h
        have h' := split h
        have hx' := (h2 _ _).mpr h'
        simp only [Out.mk.injEq, Option.some.injEq, true_and] at hx'
        obtain ⟨e1, e2⟩ := hx'
        subst e2
        obtain ⟨_, j1, _, j3⟩ := h
        rw [e1] at hcr hsr k1
        rw [scnPort_complete (sse := sse) hst j1 hcr hsr j3] at k1
        cases k1
        simp
    · refine ⟨⟨rest, .ok, some (x, 0)⟩, by simp [scnIpv4, h1], ?_⟩
      intro y port r
      rw [← h2]
      simp only [Out.mk.injEq, Option.some.injEq, Prod.mk.injEq, true_and]
      constructor
      · rintro ⟨rfl, rfl, rfl⟩; simp
      · rintro ⟨⟨rfl, rfl⟩, rfl⟩; simp
  · have hcode := hno hbad
    have heq : ∀ b, scnIpv4 cw simd sse b l = some ⟨o.rest, o.code, none⟩ := by
      intro b
      unfold scnIpv4
      rw [h1, Option.bind_some]
      split
      · rename_i hh _; exact absurd hh hcode
      · rfl
    refine ⟨⟨_, heq true, ?_⟩, ⟨_, heq false, ?_⟩⟩
    · intro x port rest
      refine ⟨by simp, fun h => ?_⟩
      exact absurd (by rw [(h2 _ _).mpr (split h)]) hcode
    · intro x port rest
      refine ⟨by simp, fun h => ?_⟩
      exact absurd (by rw [(h2 _ _).mpr h.1]) hcode

example : StartsWithAddrPort (ascii "127.0.0.1:8080\n") ⟨127, 0, 0, 1⟩ 8080 (ascii "\n") := by
  refine ⟨by simp [Addr4.Ok], by omega, by decide +kernel, ?_⟩
  intro c t d h hd
  simp only [ascii] at h
  have : c = 10 := by simp at h; exact h.1.symm
  subst this
  obtain ⟨h1, h2⟩ := hd
  simp [digitChar, h1] at h2; omega

/-- C34 violated: `address:` at the end of the text is accepted, with port 0. -/
theorem c34_empty_port_violated :
    scnIpv4 8 0 false true (ascii "1.2.3.4:") = some ⟨[], .ok, some (⟨1, 2, 3, 4⟩, 0)⟩ := by decide +kernel

/-! ## C34: scanning IPv4 from a stream -/

/-- C34 (partial: no cut directly behind a `0` that starts an octet or inside six digits (see the violations below); the
text does not end in `.` nor in six digits): however the text is cut into buffers, the scan is defined and succeeds
exactly if the text is white space and then a dotted decimal address not followed by a digit. -/
theorem c34_chunks_partial {cw simd : Nat} {sse : Bool} (hst : Setting cw simd) (chunks : List (List Nat))
    (hcl : ∀ l ∈ chunks, CodeUnits cw l ∧ SpaceSafe (octetCfg cw simd sse false) l)
    (hcut : ∀ a b, chunks = a ++ b → b ≠ [] → ¬ BadEnd a.flatten) (hdot : ∀ p, chunks.flatten ≠ p ++ [46])
    (hlong : ¬ EndsLong chunks.flatten) :
    ∃ o, runInaddr cw simd sse {} chunks = some o ∧
      ∀ x rest, o = ⟨rest, .ok, some x⟩ ↔ SpacedAddr chunks.flatten x rest := by
  have hi : IpInv cw simd sse {} [] := .addr0 _ _ rfl (.space [] ⟨by simp, by simp⟩)
  obtain ⟨o, h1, h2⟩ := runInaddr_good (sse := sse) hst chunks hi hcl (by simpa using hcut) (by simpa using hdot) (by simpa using hlong)
  refine ⟨o, h1, ?_⟩
  intro x rest
  rw [h2, spacedAddr_iff]; simp

/-- The hypotheses are met by a text cut inside an octet and behind a dot. -/
example : runInaddr 8 0 false {} [ascii " 19", ascii "2.168.", ascii "12.7 "] =
    some ⟨ascii " ", .ok, some ⟨192, 168, 12, 7⟩⟩ ∧ ¬ BadEnd (ascii " 19") ∧ ¬ BadEnd (ascii " 192.168.") := by
  refine ⟨by decide +kernel, ?_, not_badEnd_dot (p := ascii " 192.168")⟩
  rintro (⟨p, h, _⟩ | ⟨p, cs, ds, h, _, hl⟩)
  · have := congrArg List.getLast? h
    simp [ascii] at this
  · have := congrArg List.length h
    simp [ascii] at this
    omega

/-- C34 violated: an octet `0` cut off from the following dot loses that dot, or makes the scanner read past the end of
the buffer. -/
theorem c34_zero_cut_violated :
    runInaddr 8 0 false {} [ascii "10.0", ascii ".0.1"] = some ⟨ascii "0.1", .invalid, none⟩ ∧
    runInaddr 8 0 false {} [ascii "10.0", ascii ".", ascii "0.1"] = none ∧
    runInaddr 8 0 false {} [ascii "10.0.0.1"] = some ⟨[], .ok, some ⟨10, 0, 0, 1⟩⟩ := by
  refine ⟨by decide +kernel, by decide +kernel, by decide +kernel⟩

/-- C34 violated: at the end of the stream a missing or far too large last octet is accepted as 0. -/
theorem c34_eof_violated :
    runInaddr 8 0 false {} [ascii "1.2.3."] = some ⟨[], .ok, some ⟨1, 2, 3, 0⟩⟩ ∧
    runInaddr 8 0 false {} [ascii "1.2.3.9999999"] = some ⟨[], .ok, some ⟨1, 2, 3, 0⟩⟩ := by
  constructor <;> decide +kernel

/-- C34 violated: leading white space is skipped in a stream but rejected in memory. -/
theorem c34_space_violated :
    runInaddr 8 0 false {} [ascii " 1.2.3.4"] = some ⟨[], .ok, some ⟨1, 2, 3, 4⟩⟩ ∧
    scnInaddr 8 0 false (ascii " 1.2.3.4") = some ⟨ascii " 1.2.3.4", .invalid, none⟩ := by
  constructor <;> decide +kernel

/-! ## C35: printing IPv6 -/

/-- C35: the text printed for eight groups (stored in network byte order) is the RFC 5952 text if abbreviation is
asked for (the longest run of at least two zero groups, the first among equals, becomes `::`), all eight groups
otherwise; in brackets if asked for; exactly these characters are written. With the port: `[address]:port`. The
text denotes (RFC 4291) the address printed. -/
theorem c35_print (little shorten upper bracket full : Bool) (g : List Nat) (hl : g.length = 8) (hg : ∀ x ∈ g, x < 65536)
    (port : Nat) (hp : port < 65536) :
    let w := g.map (netWord little)
    let inBrackets := fun b (t : List Nat) => if b then ascii "[" ++ t ++ ascii "]" else t
    ∃ txt, IsV6Text shorten upper full g txt ∧ Denotes txt g ∧
      Writes (prtPosixIn6Addr little shorten upper bracket false full w) (inBrackets bracket txt) ∧
      Writes (prtPosixIn6Addr little shorten upper bracket true full w) (inBrackets true txt ++ ascii ":" ++ decText 0) ∧
      Writes (prtIpv6 little shorten upper bracket false full w port) (inBrackets bracket txt) ∧
      Writes (prtIpv6 little shorten upper bracket true full w port) (inBrackets true txt ++ ascii ":" ++ decText port) := by
  have hz : decText 0 = ascii "0" := by decide +kernel
  obtain ⟨t1, h1, w1⟩ := writes_in6addr (little := little) (upper := upper) (full := full) shorten bracket g hg
  obtain ⟨t2, h2, w2⟩ := writes_in6addr (little := little) (upper := upper) (full := full) shorten true g hg
  have huniq : t2 = t1 := by
    have hr : ∀ i n i' n', BestRun g i n → BestRun g i' n' → i = i' ∧ n = n' := by
      rintro i n i' n' ⟨a1, a2, a3⟩ ⟨b1, b2, b3⟩
      have u1 := a3 _ _ b2
      have u2 := b3 _ _ a2
      have : n = n' := by omega
      exact ⟨Nat.le_antisymm (u1.2 this.symm) (u2.2 this), this⟩
    have hx : ∀ i n, BestRun g i n → ¬ ∀ j, ¬ ZeroRun g j 2 := by
      rintro i n ⟨a1, ⟨a2, a3⟩, _⟩ h
      exact h i ⟨by omega, fun k hk => a3 k (by omega)⟩
    unfold IsV6Text at h1 h2
    cases shorten
    · simp only [Bool.false_eq_true, if_false] at h1 h2; rw [h1, h2]
    · simp only [if_true] at h1 h2
      rcases h1 with ⟨i, n, b1, e1⟩ | ⟨b1, e1⟩ <;> rcases h2 with ⟨j, k, b2, e2⟩ | ⟨b2, e2⟩
      · obtain ⟨rfl, rfl⟩ := hr _ _ _ _ b1 b2; rw [e1, e2]
      · exact absurd b2 (hx _ _ b1)
      · exact absurd b1 (hx _ _ b2)
      · rw [e1, e2]
  subst huniq
  refine ⟨t2, h1, isV6Text_denotes hl hg h1, ?_, ?_, ?_, ?_⟩
  · intro m p; simp [prtPosixIn6Addr, w1 m p]
  · intro m p
    have := (w2.bind writes_portZero) m p
    simp only [prtPosixIn6Addr, if_true]
    rw [show ascii ":0" = ascii ":" ++ decText 0 by rw [hz]; rfl, ← List.append_assoc] at this
    rw [Option.map_eq_bind]; exact this
  · intro m p; simp [prtIpv6, w1 m p]
  · intro m p
    have := (w2.bind (writes_port port hp)) m p
    rw [← List.append_assoc] at this
    simp only [prtIpv6, if_true]
    exact this

/-- C35: different addresses have different texts, in every format. -/
theorem c35_injective (shorten upper full shorten' upper' full' : Bool) (g h txt : List Nat) (hl : g.length = 8)
    (hl' : h.length = 8) (hg : ∀ x ∈ g, x < 65536) (hg' : ∀ x ∈ h, x < 65536) (h1 : IsV6Text shorten upper full g txt)
    (h2 : IsV6Text shorten' upper' full' h txt) : g = h :=
  denotes_functional (isV6Text_denotes hl hg h1) (isV6Text_denotes hl' hg' h2)

/-- The text printed for `2001:db8:0:0:1:0:0:1` is `2001:db8::1:0:0:1` (RFC 5952 4.2.3). -/
example : ((prtIn6addr true true false false false ([0x2001, 0xdb8, 0, 0, 1, 0, 0, 1].map (netWord true)) (fun _ => 0, 0)).map
    fun r => (List.range r.2).map fun i => r.1 i) = some (ascii "2001:db8::1:0:0:1") := by decide +kernel

/-- C35: the announced buffer is large enough in every format. -/
theorem c35_reserve (shorten upper full : Bool) (g txt : List Nat) (hl : g.length = 8) (hg : ∀ x ∈ g, x < 65536)
    (h : IsV6Text shorten upper full g txt) (port : Nat) (hp : port < 65536) :
    txt.length ≤ ipReserve false false false ∧ (ascii "[" ++ txt ++ ascii "]").length ≤ ipReserve false false true ∧
    ∀ bracket, (ascii "[" ++ txt ++ ascii "]" ++ ascii ":" ++ decText port).length ≤ ipReserve false true bracket := by
  have h1 := isV6Text_length hl hg h
  have h2 := decText_length port 5 (by omega) (by omega)
  have e1 : ipReserve false false false = 47 := by decide +kernel
  have e2 : ipReserve false false true = 49 := by decide +kernel
  have e3 : ∀ b, ipReserve false true b = 56 := by decide +kernel
  have f1 : (ascii "[").length = 1 := rfl
  have f2 : (ascii "]").length = 1 := rfl
  have f3 : (ascii ":").length = 1 := rfl
  refine ⟨by omega, ?_, ?_⟩
  · simp only [List.length_append]; omega
  · intro b; rw [e3]; simp only [List.length_append]; omega

/-- C34/C35: the tagged unions print like the version they hold (brackets only around version 6). -/
theorem c35_union (little shorten upper bracket full : Bool) (v : IpAddress) (port : Nat) (s : Mem × Nat) :
    prtIp little shorten upper bracket true full v port s =
      (match v with
      | .v4 o => prtIpv4 true s o port
      | .v6 w => prtIpv6 little shorten upper bracket true full w port s) ∧
    prtIp little shorten upper bracket false full v port s =
      (match v with
      | .v4 o => prtIpv4 false s o port
      | .v6 w => prtIpv6 little shorten upper bracket false full w port s) ∧
    prtIpAddress little shorten upper bracket true full v s =
      (match v with
      | .v4 o => prtPosixInAddr true s o
      | .v6 w => prtPosixIn6Addr little shorten upper bracket true full w s) ∧
    prtIpAddress little shorten upper bracket false full v s =
      (match v with
      | .v4 o => prtPosixInAddr false s o
      | .v6 w => prtPosixIn6Addr little shorten upper bracket false full w s) := by
  cases v <;> simp [prtIp, prtIpAddress, prtIpAddress0, prtIpv4, prtIpv6, prtPosixInAddr, prtPosixIn6Addr]

/-! ## C35: scanning IPv6 -/

/-- What may follow a group: a character that is not a hexadecimal digit (nor the one for which the digit table is read
out of bounds, see C06), or nothing. -/
def GroupEnd (cw : Nat) (rest : List Nat) : Prop :=
  ∀ c t, rest = c :: t → (∀ d, ¬ IsDigit 16 c d) ∧ c < 2 ^ cw ∧ c ≠ trapChar cw 16

theorem groupEnd_cases {cw : Nat} (hcw : CharWidth cw) {rest : List Nat} (h : GroupEnd cw rest) :
    rest = [] ∨ ∃ c t, rest = c :: t ∧ charDigit cw 16 c = some none := by
  cases rest with
  | nil => exact Or.inl rfl
  | cons c t =>
    obtain ⟨h1, h2, h3⟩ := h c t rfl
    exact Or.inr ⟨c, t, rfl, charDigit_none hcw (by omega) h1 h2 (fun _ => h3)⟩

theorem digitChar_read {cw : Nat} (hcw : CharWidth cw) (upper : Bool) {d : Nat} (hd : d < 16) :
    charDigit cw 16 (digitChar upper d) = some (some d) :=
  charDigit_some hcw (by omega) ⟨hd, by cases upper <;> simp⟩

theorem digitChar_ne_colon (upper : Bool) {d : Nat} (hd : d < 16) : digitChar upper d ≠ 58 := by
  unfold digitChar; cases upper <;> simp <;> split <;> omega

theorem scnGroup_small {cw : Nat} (hcw : CharWidth cw) (little upper : Bool) (g : Nat) (hg : g < 256) (rest : List Nat)
    (hr : GroupEnd cw rest) :
    scnGroup little cw (groupText upper false g ++ rest) = some ⟨rest, .ok, some (netWord little g)⟩ := by
  have hn := numeral_isNumeral (b := 16) (by omega) g
  have hlen : (numeral 16 g).length ≤ 2 := by
    rw [numeral_length_le (by omega) _ _ (by omega)]; norm_num; omega
  unfold groupText
  simp only [Bool.false_eq_true, if_false]
  obtain ⟨h1, h2, h3, h4⟩ : _ ∧ _ ∧ _ ∧ _ := ⟨hn.nonempty, hn.digits_lt, hn.no_leading_zero, hn.value⟩
  clear hn
  generalize numeral 16 g = ds at *
  match ds, h1 with
  | [d], _ =>
    have hd := h2 d (by simp)
    have hv : g = d := by simpa [digitsValue] using h4.symm
    subst hv
    have : word1 little g = netWord little g := by
      cases little <;> simp [word1, netWord]; omega
    rcases groupEnd_cases hcw hr with e | ⟨c, t, e, e2⟩
    · simp [e, scnGroup, digitChar_ne_colon upper hd, digitChar_read hcw upper hd, this]
    · simp [e, e2, scnGroup, digitChar_ne_colon upper hd, digitChar_read hcw upper hd, this]
  | [d0, d1], _ =>
    have hd0 := h2 d0 (by simp)
    have hd1 := h2 d1 (by simp)
    have hv : g = d0 * 16 + d1 := by simpa [digitsValue] using h4.symm
    have hz : d0 ≠ 0 := by
      intro h0; subst h0
      simp at h3
    have hm : (d0 * 16 + d1) % 256 = g := by omega
    have : word1 little g = netWord little g := by
      cases little <;> simp [word1, netWord]; omega
    rcases groupEnd_cases hcw hr with e | ⟨c, t, e, e2⟩
    · simp [e, scnGroup, digitChar_ne_colon upper hd0, digitChar_read hcw upper hd0, digitChar_read hcw upper hd1, this, hm, hz]
    · simp [e, e2, scnGroup, digitChar_ne_colon upper hd0, digitChar_read hcw upper hd0, digitChar_read hcw upper hd1, this, hm, hz]
  | _ :: _ :: _ :: _, _ => simp at hlen

theorem colon_end {cw : Nat} (hcw : CharWidth cw) (t : List Nat) : GroupEnd cw (58 :: t) := by
  intro c t' h
  simp only [List.cons.injEq] at h
  rw [← h.1]
  refine ⟨?_, ?_, ?_⟩
  · intro d hd
    obtain ⟨h1, h2⟩ := hd
    have a := digitChar_ne_colon false h1
    have b := digitChar_ne_colon true h1
    rcases h2 with h2 | h2
    · exact a h2.symm
    · exact b h2.symm
  · have h2 : 2 ^ 8 ≤ 2 ^ cw := Nat.pow_le_pow_right (by omega) (by rcases hcw with h | h | h <;> omega)
    norm_num at h2; omega
  · unfold trapChar; split <;> omega

theorem scnLong_ok {cw : Nat} (hcw : CharWidth cw) (little upper : Bool) (rest : List Nat) (hr : GroupEnd cw rest) :
    ∀ (g : List Nat) (x : Nat) (acc : List Nat), (∀ y ∈ x :: g, y < 256) →
      scnLong little cw g.length acc (colons ((x :: g).map (groupText upper false)) ++ rest) =
        some ⟨rest, .ok, some (acc ++ (x :: g).map (netWord little))⟩
  | [], x, acc, h => by
    have := scnGroup_small hcw little upper x (h x (by simp)) rest hr
    simp [scnLong, colons, this]
  | y :: g, x, acc, h => by
    have e : colons ((x :: y :: g).map (groupText upper false)) ++ rest =
        groupText upper false x ++ 58 :: (colons ((y :: g).map (groupText upper false)) ++ rest) := by
      simp [colons, List.intercalate, List.intersperse]
    rw [e]
    have h1 := scnGroup_small hcw little upper x (h x (by simp)) _ (colon_end hcw (colons ((y :: g).map (groupText upper false)) ++ rest))
    have h2 := scnLong_ok hcw little upper rest hr g y (acc ++ [netWord little x]) (fun z hz => h z (List.mem_cons_of_mem _ hz))
    simp only [List.length_cons, scnLong, h1, Option.bind_some, ne_eq, not_true_eq_false, if_false, h2]
    simp

/-- C35 (partial: only addresses whose groups are all below 256, only the long form; for the rest see the violations
below): the text printed without abbreviation is scanned back to the address, stopping behind it. -/
theorem c35_round_trip_partial {cw : Nat} (hcw : CharWidth cw) (little upper : Bool) (g : List Nat) (hl : g.length = 8)
    (hg : ∀ x ∈ g, x < 256) (txt : List Nat) (h : IsV6Text false upper false g txt) (rest : List Nat) (hr : GroupEnd cw rest) :
    scnLong little cw 7 [] (txt ++ rest) = some ⟨rest, .ok, some (g.map (netWord little))⟩ := by
  cases g with
  | nil => simp at hl
  | cons x g =>
    have hl' : g.length = 7 := by simpa using hl
    have := scnLong_ok hcw little upper rest hr g x [] hg
    rw [hl'] at this
    simp only [IsV6Text, Bool.false_eq_true, if_false] at h
    rw [h]; simpa using this

example : scnLong true 8 7 [] (ascii "fe:0:0:0:1:2a:0:1]") =
    some ⟨ascii "]", .ok, some ([0xfe, 0, 0, 0, 1, 0x2a, 0, 1].map (netWord true))⟩ := by decide +kernel

/-- C35 violated: every group of four digits is stored with its bytes swapped (as the machine of the other byte order
would store it). -/
theorem c35_swapped_violated {cw : Nat} (hcw : CharWidth cw) (little upper : Bool) (g : Nat) (hlo : 0x1000 ≤ g) (hhi : g < 0x10000)
    (rest : List Nat) (hr : GroupEnd cw rest) :
    scnGroup little cw (groupText upper false g ++ rest) = some ⟨rest, .ok, some (netWord (!little) g)⟩ := by
  have hn := numeral_isNumeral (b := 16) (by omega) g
  have hlen : (numeral 16 g).length ≤ 4 := by
    rw [numeral_length_le (by omega) _ _ (by omega)]; norm_num; omega
  have hlen' : ¬ (numeral 16 g).length ≤ 3 := by
    rw [numeral_length_le (by omega) _ _ (by omega)]; norm_num; omega
  unfold groupText
  simp only [Bool.false_eq_true, if_false]
  obtain ⟨h1, h2, h3, h4⟩ : _ ∧ _ ∧ _ ∧ _ := ⟨hn.nonempty, hn.digits_lt, hn.no_leading_zero, hn.value⟩
  clear hn
  generalize numeral 16 g = ds at *
  match ds, h1 with
  | [d0, d1, d2, d3], _ =>
    have hd0 := h2 d0 (by simp)
    have hd1 := h2 d1 (by simp)
    have hd2 := h2 d2 (by simp)
    have hd3 := h2 d3 (by simp)
    have hv : g = ((d0 * 16 + d1) * 16 + d2) * 16 + d3 := by simpa [digitsValue] using h4.symm
    have hm : (d0 * 16 + d1) % 256 = d0 * 16 + d1 := by omega
    have hm' : (d2 * 16 + d3) % 256 = d2 * 16 + d3 := by omega
    have or1 : ∀ a b, b < 256 → (a * 256 ||| b) = a * 256 + b := by
      intro a b hb
      have := Nat.two_pow_add_eq_or_of_lt (i := 8) (b := b) (by simpa using hb) a
      rw [← show 2 ^ 8 * a = a * 256 by omega]; exact this.symm
    have hw : word2 little (d0 * 16 + d1) (d2 * 16 + d3) = netWord (!little) g := by
      cases little
      · simp only [word2, netWord, Bool.not_false, if_true, Bool.false_eq_true, if_false]
        rw [Nat.or_comm, or1 _ _ (by omega)]
        have e1 : g / 256 = d0 * 16 + d1 := by omega
        have e2 : g % 256 = d2 * 16 + d3 := by omega
        rw [e1, e2, Nat.mod_eq_of_lt (by omega)]
      · simp only [word2, netWord, Bool.not_true, if_true, Bool.false_eq_true, if_false]
        rw [or1 _ _ (by omega)]; omega
    rcases groupEnd_cases hcw hr with e | ⟨c, t, e, e2⟩
    · simp [e, scnGroup, digitChar_ne_colon upper hd0, digitChar_read hcw upper hd0, digitChar_read hcw upper hd1,
        digitChar_read hcw upper hd2, digitChar_read hcw upper hd3, hm, hm', hw]
    · simp [e, e2, scnGroup, digitChar_ne_colon upper hd0, digitChar_read hcw upper hd0, digitChar_read hcw upper hd1,
        digitChar_read hcw upper hd2, digitChar_read hcw upper hd3, hm, hm', hw]
  | [_], _ => simp at hlen'
  | [_, _], _ => simp at hlen'
  | [_, _, _], _ => simp at hlen'
  | _ :: _ :: _ :: _ :: _ :: _, _ => simp at hlen

/-- C35 violated: a concrete address whose printed text is scanned to another address. -/
theorem c35_round_trip_violated :
    IsV6Text false false false [0x1234, 0, 0, 0, 0, 0, 0, 1] (ascii "1234:0:0:0:0:0:0:1") ∧
    scnLong true 8 7 [] (ascii "1234:0:0:0:0:0:0:1") =
      some ⟨[], .ok, some ([0x3412, 0, 0, 0, 0, 0, 0, 1].map (netWord true))⟩ := by
  constructor
  · simp only [IsV6Text, Bool.false_eq_true, if_false]; decide +kernel
  · decide +kernel

/-- C35 violated: three digits are read wrongly too, and zero-padded groups of fewer significant digits as a different
number or not at all. -/
theorem c35_digits_violated :
    scnGroup true 8 (ascii "123") = some ⟨[], .ok, some (netWord true 0x312)⟩ ∧
    scnGroup true 8 (ascii "012") = some ⟨[], .invalid, none⟩ := by
  constructor <;> decide +kernel

/-- C35 violated: text that ends behind one of the first seven groups makes the scanner read past its end. -/
theorem c35_truncated_violated : scnLong true 8 7 [] (ascii "1:2") = none ∧ scnIn6addr true 8 0 true (ascii "[1") = none := by
  constructor <;> decide +kernel

/-- C35 violated: the scanner for abbreviated text never succeeds, whatever the text; and as soon as it meets a `:`
between groups it repeats itself for ever. -/
theorem c35_short_scan_violated (little : Bool) (cw : Nat) :
    (∀ fuel s o, shortRun little cw fuel s = some (some o) → o.code ≠ .ok) ∧
    (∀ fuel t words seg cz mz, seg < 8 →
      shortRun little cw fuel { pos := 58 :: t, seg := seg, shortenBegin := 0, curZero := cz, maxZero := mz, words := words } =
        some none) := by
  have hval : ∀ l o, scnGroup little cw l = some o → o.code = .ok → ∃ x, o.value = some x := by
    intro l o h hc
    unfold scnGroup at h
    repeat' first
      | (split at h)
      | (simp only [Option.some.injEq, reduceCtorEq] at h; subst h; simp at hc ⊢)
      | (rw [Option.bind_eq_some_iff] at h; obtain ⟨_, _, h⟩ := h)
  constructor
  · intro fuel
    induction fuel with
    | zero => intro s o h; simp [shortRun] at h
    | succ n ih =>
      intro s o h
      simp only [shortRun] at h
      obtain ⟨r, h1, h2⟩ := Option.bind_eq_some_iff.mp h
      cases r with
      | inl s' => exact ih _ _ h2
      | inr o' =>
        simp only [Option.some.injEq] at h2
        subst h2
        unfold shortStep at h1
        split at h1
        · simp at h1
        · obtain ⟨g, k1, k2⟩ := Option.bind_eq_some_iff.mp h1
          have hv := hval _ _ k1
          obtain ⟨gr, gc, gv⟩ := g
          simp only at hv k2
          cases gc
          case ok =>
            obtain ⟨x, rfl⟩ := hv rfl
            simp only at k2
            split at k2 <;> [split at k2; skip] <;> simp at k2
          case eof =>
            simp only at k2
            split at k2 <;> simp at k2
            subst k2; simp
          all_goals
            simp only [Option.some.injEq, Sum.inr.injEq] at k2
            subst k2; simp
  · intro fuel
    induction fuel with
    | zero => intros; rfl
    | succ n ih =>
      intro t words seg cz mz hs
      simp [shortRun, shortStep, hs, scnGroup]
      exact ih t words seg cz mz hs

/-- `1::` reaches that state after its first group. -/
example : shortStep true 8 { pos := ascii "1::" } = some (.inl { pos := 58 :: ascii ":", seg := 1, words := [0x100] }) := by decide +kernel

end Verif.Ip
