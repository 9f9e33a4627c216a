import Verif.Ip.Chunk
/-! C34: IPv4 addresses with a port that arrive in chunks. -/
namespace Verif.Ip
open Verif Verif.IntPrint Verif.IntScan

variable {cw simd : Nat} {sse : Bool}

/-- White space, then `address:port`. -/
def SpacedAddrPort (l : List Nat) (x : Addr4) (port : Nat) (rest : List Nat) : Prop :=
  ∃ ws t, (∀ c ∈ ws, IsSpace c) ∧ l = ws ++ t ∧ StartsWithAddrPort t x port rest

def PortText (u : List Nat) (p : Nat) (rest : List Nat) : Prop := p < 65536 ∧ u = decText p ++ rest ∧ NoDigitFirst 10 rest

theorem spacedAddrPort_iff (l : List Nat) (x : Addr4) (p : Nat) (rest : List Nat) :
    SpacedAddrPort l x p rest ↔ ∃ w, T0 l x (58 :: w) ∧ PortText w p rest := by
  constructor
  · rintro ⟨ws, t, h1, h2, hx, hp, h3, h4⟩
    refine ⟨decText p ++ rest, ?_, hp, rfl, h4⟩
    rw [← spacedAddr_iff]
    exact ⟨ws, t, h1, h2, hx, by rw [h3]; simp [ascii], noDigit_char (Or.inr rfl) _⟩
  · rintro ⟨w, h1, hp, h2, h3⟩
    rw [← spacedAddr_iff] at h1
    obtain ⟨ws, t, h4, h5, hx, h6, _⟩ := h1
    exact ⟨ws, t, h4, h5, hx, hp, by rw [h6, h2]; simp [ascii], h3⟩

theorem port_spec_complete {rest : List Nat} {v : Nat} (hv : v < 65536) (hr : NoDigitFirst 10 rest) :
    Spec (portCfg cw simd sse) (decText v ++ rest) ⟨rest, .ok, some (v : Int)⟩ :=
  .num [] _ _ (by simp) (by simp) (by simp [portCfg]) (num_complete (bits := 16) hv hr)

theorem port_ws {ws : List Nat} (h : Ws (portCfg cw simd sse) ws) : ws = [] := h.1 rfl

theorem port_spec_sound {l : List Nat} {o : Outcome} (h : Spec (portCfg cw simd sse) l o) (hc : o.code = .ok) :
    ∃ v, v < 65536 ∧ l = decText v ++ o.rest ∧ NoDigitFirst 10 o.rest ∧ o.value = some (v : Int) := by
  cases h with
  | eof => simp at hc
  | num ws l o h1 h2 h3 h4 =>
    obtain ⟨v, e1, e2, e3, e4⟩ := num_sound h4 hc
    have hw := h1 rfl
    subst hw
    exact ⟨v, e1, by rw [List.nil_append]; exact e2, e3, e4⟩

theorem port_sign {sgn : List Nat} {neg : Bool} (h : Sign (portCfg cw simd sse).signed sgn neg) : sgn = [] := by
  rcases h with ⟨h, _⟩ | ⟨h, _⟩
  · exact h
  · simp [portCfg] at h

theorem ctxCap_port : ctxCap (portCfg cw simd sse) = 6 := by
  simp only [ctxCap, portCfg, Bool.false_eq_true, if_false]; decide +kernel

theorem port_badEnd {P q : List Nat} (hP : ∃ p, P = p ++ [58]) (h : BadCut (portCfg cw simd sse) q) : BadEnd (P ++ q) := by
  rcases h with ⟨_, ws, sgn, neg, e, hw, hs⟩ | ⟨ws, sgn, neg, k, cs, ds, e, hw, hs, hr, h0, hcap⟩
  · left
    rw [port_sign hs, port_ws hw] at e
    refine ⟨P, by rw [e]; simp, ?_⟩
    intro p' c d he hd
    obtain ⟨p, rfl⟩ := hP
    have := (List.append_inj' he rfl).2
    simp only [List.cons.injEq, and_true] at this
    subst this
    exact noDigit_char (Or.inr rfl) [] 58 [] d rfl hd
  · right
    rw [port_sign hs] at e hcap
    rw [ctxCap_port] at hcap
    exact ⟨P ++ ws ++ List.replicate k 48, cs, ds, by rw [e]; simp, hr, by simpa using hcap⟩

/-- What has been read, by phase. -/
inductive PortInv (cw simd : Nat) (sse : Bool) : V4State → List Nat → Prop
  | addr (s pre) : IpInv cw simd sse s pre → PortInv cw simd sse s pre
  | port (s P q) : s.phase = .port → Inv (portCfg cw simd sse) s.int q → (∃ p, P = p ++ [58]) →
      (∀ u, T0 (P ++ u) s.addr (58 :: u)) → PortInv cw simd sse s (P ++ q)

/-- A call that has now seen `txt` in total is right. -/
def PortGood (cw simd : Nat) (sse : Bool) (txt : List Nat) (r : Option V4Step) : Prop :=
  ∃ s, r = some s ∧
    ((s.code = .part ∧ PortInv cw simd sse s.st txt) ∨
     (s.code = .ok ∧ ∀ fut, SpacedAddrPort (txt ++ fut) s.st.addr s.st.port (s.rest ++ fut)) ∨
     (s.code ≠ .part ∧ s.code ≠ .ok ∧ ∀ fut x p rest, ¬ SpacedAddrPort (txt ++ fut) x p rest))

/-- After the colon. -/
theorem behind {P : List Nat} {y : Addr4} (h : ∀ u, T0 (P ++ u) y (58 :: u)) (u : List Nat) (x : Addr4) (p : Nat) (rest : List Nat) :
    SpacedAddrPort (P ++ u) x p rest ↔ x = y ∧ PortText u p rest := by
  rw [spacedAddrPort_iff]
  constructor
  · rintro ⟨w, h1, h2⟩
    obtain ⟨e1, e2⟩ := T_functional h1 (h u)
    simp only [List.cons.injEq, true_and] at e2
    subst e2
    exact ⟨e1, h2⟩
  · rintro ⟨rfl, h2⟩
    exact ⟨u, h u, h2⟩

theorem port_good (hst : Setting cw simd) {P q l : List Nat} {s : V4State} (hph : s.phase = .port)
    (hi : Inv (portCfg cw simd sse) s.int q) (hc : CodeUnits cw l) (hP : ∃ p, P = p ++ [58])
    (hbad : l ≠ [] → ¬ BadEnd (P ++ q)) (hder : ∀ u, T0 (P ++ u) s.addr (58 :: u)) :
    PortGood cw simd sse (P ++ q ++ l) (ctxPortNum cw simd sse s l) := by
  have hvl := portCfg_valid hst sse
  unfold ctxPortNum
  by_cases hl : l = []
  · rw [if_pos hl]
    refine ⟨_, rfl, Or.inl ⟨rfl, ?_⟩⟩
    rw [hl, List.append_nil]
    exact .port s P q hph hi hP hder
  rw [if_neg hl]
  obtain ⟨r, e1, e2⟩ := ctxStep_ok hvl hi l ⟨hc, by intro h; simp [portCfg] at h⟩ (by
    intro h; simp [portCfg] at h) (Or.inl hl) (fun h => hbad hl (port_badEnd hP h))
  simp only [e1, Option.bind_some]
  rcases e2 with ⟨hp, hinv⟩ | ⟨hp, hspec⟩
  · refine ⟨_, rfl, Or.inl ⟨hp, ?_⟩⟩
    rw [List.append_assoc]
    exact .port _ P (q ++ l) hph hinv hP hder
  · by_cases hok : r.code = .ok
    · refine ⟨_, rfl, Or.inr (Or.inl ⟨hok, ?_⟩)⟩
      intro fut
      obtain ⟨v, hv, ht, hnd, hval⟩ := port_spec_sound (hspec fut) hok
      simp only at ht hnd hval
      have hstored : stored r.value = v := by rw [hval]; simp [stored]
      rw [List.append_assoc, List.append_assoc, behind hder]
      refine ⟨rfl, ?_⟩
      simp only [hok, if_true, hstored]
      exact ⟨hv, by rw [← ht]; simp, hnd⟩
    · refine ⟨_, rfl, Or.inr (Or.inr ⟨hp, hok, ?_⟩)⟩
      intro fut x p rest h
      rw [List.append_assoc, List.append_assoc, behind hder] at h
      obtain ⟨_, hd, he, hnd⟩ := h
      have s2 := port_spec_complete (cw := cw) (simd := simd) (sse := sse) hd hnd
      rw [← he] at s2
      have := scanSpec_functional (by simp [portCfg]) (by simp [portCfg]) s2 (by simpa using hspec fut)
      simp only [Outcome.mk.injEq] at this
      exact hok this.2.1.symm

theorem port_fresh {s : V4State} (h : s.int = ⟨[], .zero⟩) : Inv (portCfg cw simd sse) s.int [] := by
  rw [h]; exact .zeroU rfl rfl

theorem not_badEnd_colon {p : List Nat} : ¬ BadEnd (p ++ [58]) := by
  rintro (⟨p', h, _⟩ | ⟨p', cs, ds, h, hr, hl⟩)
  · have := (List.append_inj' h rfl).2
    simp at this
  · rcases List.eq_nil_or_concat cs with hn | ⟨cs', c, hn⟩
    · rw [hn] at hl; simp at hl
    · rw [hn, List.concat_eq_append, ← List.append_assoc] at h
      have := (List.append_inj' h rfl).2
      simp only [List.cons.injEq, and_true] at this
      have := digitRun10_range hr c (by rw [hn]; simp)
      omega

/-- One call. -/
theorem ctxIpv4_good (hst : Setting cw simd) {pre l : List Nat} {s : V4State} (hi : PortInv cw simd sse s pre)
    (hcp : CodeUnits cw pre) (hc : CodeUnits cw l) (hsp : SpaceSafe (octetCfg cw simd sse false) l) (hbad : l ≠ [] → ¬ BadEnd pre) :
    PortGood cw simd sse (pre ++ l) (ctxIpv4 cw simd sse s l) := by
  cases hi with
  | port P q h1 h2 h3 h4 =>
    have : ctxIpv4 cw simd sse s l = ctxPortNum cw simd sse s l := by simp only [ctxIpv4, h1, ctxPort]
    rw [this]
    exact port_good hst h1 h2 hc h3 hbad h4
  | addr _ hi =>
    have e : ctxIpv4 cw simd sse s l = (ctxInaddr cw simd sse s l).bind fun r =>
        if r.code ≠ .ok then some r else ctxPort cw simd sse { r.st with int := ⟨[], .zero⟩, phase := .portMark } r.rest := by
      cases hi with
      | addr0 _ h1 _ => simp only [ctxIpv4, h1]
      | addr1 _ _ h1 _ _ _ => simp only [ctxIpv4, h1]
      | addr2 _ _ h1 _ _ _ => simp only [ctxIpv4, h1]
      | addr3 _ _ h1 _ _ _ => simp only [ctxIpv4, h1]
    rw [e]
    obtain ⟨r, e1, e2⟩ := ctxInaddr_good (l := l) hst hi hc hsp hbad
    rw [e1, Option.bind_some]
    rcases e2 with ⟨hp, hinv⟩ | ⟨hp, hok⟩ | ⟨hp, hno, hbad⟩
    · rw [if_pos (by simp [hp])]
      exact ⟨r, rfl, Or.inl ⟨hp, .addr _ _ hinv⟩⟩
    · rw [if_neg (by simp [hp])]
      have hok0 := hok []
      rw [List.append_nil, List.append_nil, ← spacedAddr_iff] at hok0
      obtain ⟨ws, t, hw, ht, hx, htt, hnd⟩ := hok0
      cases hr : r.rest with
      | nil =>
        exfalso
        have := hok [48]
        rw [hr, List.nil_append, ← spacedAddr_iff] at this
        obtain ⟨_, _, _, _, _, _, h48⟩ := this
        exact h48 48 [] 0 rfl (isDigit_zero (by omega))
      | cons c u =>
        rw [hr] at htt
        simp only [ctxPort]
        by_cases h58 : c = 58
        · subst h58
          rw [if_neg (by simp)]
          have hpre : pre ++ l = ws ++ dotted r.st.addr ++ [58] ++ [] ++ u := by rw [ht, htt]; simp
          rw [hpre]
          refine port_good hst rfl (port_fresh rfl) ?_ ⟨ws ++ dotted r.st.addr, rfl⟩ (fun _ => by
            rw [List.append_nil]; exact not_badEnd_colon) ?_
          · intro c hcm
            rcases List.mem_append.mp (show c ∈ pre ++ l by rw [hpre]; simp [hcm]) with h | h
            · exact hcp c h
            · exact hc c h
          · intro v
            rw [← spacedAddr_iff]
            exact ⟨ws, dotted r.st.addr ++ 58 :: v, hw, by simp, hx, rfl, noDigit_char (Or.inr rfl) _⟩
        · rw [if_pos h58]
          refine ⟨_, rfl, Or.inr (Or.inr ⟨by simp, by simp, ?_⟩)⟩
          intro fut x p rest h
          rw [spacedAddrPort_iff] at h
          obtain ⟨w, h1, _⟩ := h
          obtain ⟨_, e⟩ := T_functional (hok fut) h1
          rw [hr, List.cons_append] at e
          exact h58 (List.cons.inj e).1
    · rw [if_pos hno]
      refine ⟨r, rfl, Or.inr (Or.inr ⟨hp, hno, ?_⟩)⟩
      intro fut x p rest h
      rw [spacedAddrPort_iff] at h
      obtain ⟨w, h1, _⟩ := h
      exact hbad _ _ _ h1

theorem eofIpv4_good (hst : Setting cw simd) {pre : List Nat} {s : V4State} (hi : PortInv cw simd sse s pre)
    (hcol : ∀ p, pre ≠ p ++ [58]) (hlong : ¬ EndsLong pre) :
    ∃ c v, eofIpv4 cw simd sse s = some (c, v) ∧ ∀ x p rest, (c = .ok ∧ v = some (x, p) ∧ rest = []) ↔ SpacedAddrPort pre x p rest := by
  cases hi with
  | addr _ hi =>
    have nochar : ∀ {ns : Bool} {q w : List Nat} {v ch : Nat}, ch = 46 ∨ ch = 58 → Inv (octetCfg cw simd sse ns) s.int q → q ≠ decText v ++ ch :: w := by
      intro ns q w v ch hch h he
      have := inv_chars h ch (by rw [he]; simp)
      omega
    have key : s.phase ≠ .port ∧ ∀ x w, ¬ T0 pre x (58 :: w) := by
      cases hi with
      | addr0 _ h1 h2 =>
        refine ⟨by simp [h1], ?_⟩
        rintro x w ⟨_, ws, w', _, he, _⟩
        exact absurd rfl (inv_chars h2 46 (by rw [he]; simp)).2
      | addr1 P q h1 h2 h3 h4 =>
        refine ⟨by simp [h1], ?_⟩
        intro x w
        rw [h4]
        rintro ⟨_, _, w', he, _⟩
        exact absurd he (nochar (Or.inl rfl) h2)
      | addr2 P q h1 h2 h3 h4 =>
        refine ⟨by simp [h1], ?_⟩
        intro x w
        rw [h4]
        rintro ⟨_, _, _, w', he, _⟩
        exact absurd he (nochar (Or.inl rfl) h2)
      | addr3 P q h1 h2 h3 h4 =>
        refine ⟨by simp [h1], ?_⟩
        intro x w
        rw [h4]
        rintro ⟨_, _, _, _, he, _⟩
        exact absurd he (nochar (Or.inr rfl) h2)
    refine ⟨.eof, none, by rw [eofIpv4, if_pos key.1], ?_⟩
    intro x p rest
    refine ⟨by simp, ?_⟩
    rw [spacedAddrPort_iff]
    rintro ⟨w, h, _⟩
    exact absurd h (key.2 x w)
  | port P q h1 h2 h3 h4 =>
    have hvl := portCfg_valid hst sse
    have hqne : q ≠ [] := by
      intro h; obtain ⟨p, rfl⟩ := h3; rw [h, List.append_nil] at hcol; exact hcol p rfl
    obtain ⟨r, e1, e2⟩ := ctxEof_ok hvl h2
    have key : eofIpv4 cw simd sse s = some (r.1, r.2.map fun v => (s.addr, v.toNat)) := by
      unfold eofIpv4
      rw [if_neg (by simp [h1])]
      generalize s.int = st at h2 e1
      cases h2 with
      | space _ hw => exact absurd (port_ws hw) hqne
      | sign h => simp [portCfg] at h
      | zeroU => exact absurd rfl hqne
      | zeroS ws h => simp [portCfg] at h
      | zeroSkip ws sgn neg k h => simp [portCfg] at h
      | zeroInvalid ws sgn neg h hw hs =>
        simp only [ctxEof, Option.some.injEq] at e1
        rw [← e1, port_sign hs]
        rw [scanNoSpace_lone hvl (Or.inr ⟨rfl, rfl⟩)]
        rfl
      | digit ws sgn neg k cs ds hw hs hk hr =>
        simp only [ctxEof] at e1
        have : ({ portCfg cw simd sse with skipzero := false, noskipws := true } : Cfg) = portCfg cw simd sse := rfl
        rw [this] at e1
        obtain ⟨o, ho, rfl⟩ := Option.map_eq_some_iff.mp e1
        rw [ho]; rfl
      | overflow b ws sgn neg k cs ds hw hs hk hr h0 hz hcap =>
        exfalso
        rw [port_sign hs] at *
        rw [ctxCap_port] at hcap
        exact hlong ⟨P ++ ws ++ List.replicate k 48, cs, ds, by simp, hr, by simpa using hcap⟩
    refine ⟨_, _, key, ?_⟩
    intro x p rest
    rw [behind h4]
    constructor
    · rintro ⟨hc, hv, rfl⟩
      obtain ⟨v, hv', ht, hnd, hval⟩ := port_spec_sound e2 hc
      simp only at ht hnd hval
      rw [hval] at hv
      simp only [Option.map_some, Option.some.injEq, Int.toNat_natCast, Prod.mk.injEq] at hv
      obtain ⟨rfl, rfl⟩ := hv
      exact ⟨rfl, hv', ht, hnd⟩
    · rintro ⟨rfl, hd, he, hnd⟩
      have s2 := port_spec_complete (cw := cw) (simd := simd) (sse := sse) hd hnd
      rw [← he] at s2
      have := scanSpec_functional (by simp [portCfg]) (by simp [portCfg]) s2 e2
      simp only [Outcome.mk.injEq] at this
      obtain ⟨t1, t2, t3⟩ := this
      refine ⟨t2.symm, ?_, t1⟩
      rw [← t3]
      simp

theorem spacedAddrPort_functional {l : List Nat} {x y : Addr4} {p q : Nat} {r s : List Nat} (h : SpacedAddrPort l x p r) (h' : SpacedAddrPort l y q s) :
    x = y ∧ p = q ∧ r = s := by
  rw [spacedAddrPort_iff] at h h'
  obtain ⟨w, h1, hp, h2, h3⟩ := h
  obtain ⟨w', h1', hp', h2', h3'⟩ := h'
  obtain ⟨e, e'⟩ := T_functional h1 h1'
  simp only [List.cons.injEq, true_and] at e'
  have s1 := port_spec_complete (cw := 8) (simd := 0) (sse := false) hp h3
  have s2 := port_spec_complete (cw := 8) (simd := 0) (sse := false) hp' h3'
  rw [← h2, e', h2'] at s1
  have := scanSpec_functional (by simp [portCfg]) (by simp [portCfg]) s1 s2
  simp only [Outcome.mk.injEq, true_and, Option.some.injEq] at this
  exact ⟨e, by exact_mod_cast this.2, this.1⟩

theorem runIpv4_good (hst : Setting cw simd) (chunks : List (List Nat)) : ∀ {s : V4State} {pre : List Nat},
    PortInv cw simd sse s pre → CodeUnits cw pre → (∀ l ∈ chunks, CodeUnits cw l ∧ SpaceSafe (octetCfg cw simd sse false) l) →
    (∀ a b, chunks = a ++ b → b ≠ [] → ¬ BadEnd (pre ++ a.flatten)) →
    (∀ p, pre ++ chunks.flatten ≠ p ++ [58]) → ¬ EndsLong (pre ++ chunks.flatten) →
    ∃ o, runIpv4 cw simd sse s chunks = some o ∧
      ∀ x p rest, o = ⟨rest, .ok, some (x, p)⟩ ↔ SpacedAddrPort (pre ++ chunks.flatten) x p rest := by
  induction chunks with
  | nil =>
    intro s pre hi _ _ _ hcol hlong
    simp only [List.flatten_nil, List.append_nil] at *
    obtain ⟨c, v, e1, e2⟩ := eofIpv4_good hst hi hcol hlong
    refine ⟨⟨[], c, v⟩, by simp [runIpv4, e1], ?_⟩
    intro x p rest
    rw [← e2]
    simp only [Out.mk.injEq]
    tauto
  | cons l ls ih =>
    intro s pre hi hcp hcl hcut hcol hlong
    obtain ⟨r, e1, e2⟩ := ctxIpv4_good (l := l) hst hi hcp (hcl l (by simp)).1 (hcl l (by simp)).2
      (fun _ => by simpa using hcut [] (l :: ls) rfl (by simp))
    simp only [runIpv4, e1, Option.bind_some]
    have hfl : pre ++ (l :: ls).flatten = pre ++ l ++ ls.flatten := by simp
    rw [hfl] at hcol hlong ⊢
    rcases e2 with ⟨hp, hinv⟩ | ⟨hp, hok⟩ | ⟨hp, hno, hbad⟩
    · rw [if_pos hp]
      refine ih hinv ?_ (fun x hx => hcl x (by simp [hx])) ?_ hcol hlong
      · intro c h
        rcases List.mem_append.mp h with h | h
        · exact hcp c h
        · exact (hcl l (by simp)).1 c h
      · intro a b he hb
        have := hcut (l :: a) b (by simp [he]) hb
        simpa using this
    · rw [if_neg (by simp [hp]), if_pos hp, hp]
      refine ⟨_, rfl, ?_⟩
      intro x p rest
      have := hok ls.flatten
      constructor
      · intro h
        simp only [Out.mk.injEq, true_and, Option.some.injEq, Prod.mk.injEq] at h
        rw [← h.1, ← h.2.1, ← h.2.2]; exact this
      · intro h
        obtain ⟨f1, f2, f3⟩ := spacedAddrPort_functional h this
        rw [f1, f2, f3]
    · rw [if_neg hp, if_neg hno]
      refine ⟨_, rfl, ?_⟩
      intro x p rest
      refine ⟨by simp, fun h => absurd h (hbad _ _ _ _)⟩

/-! ## C34: with a port from a stream -/

/-- C34 (partial: no cut directly behind a `0` that starts a number or inside six digits; the text does not end in `:` nor in six digits): however
the text is cut into buffers, scanning an address with its port is defined and succeeds exactly if the text is white space and then
`address:port`, with the port in `0..65535`, not followed by a digit. -/
theorem c34_chunks_port_partial {cw simd : Nat} {sse : Bool} (hst : Setting cw simd) (chunks : List (List Nat))
    (hcl : ∀ l ∈ chunks, CodeUnits cw l ∧ SpaceSafe (octetCfg cw simd sse false) l)
    (hcut : ∀ a b, chunks = a ++ b → b ≠ [] → ¬ BadEnd a.flatten) (hcol : ∀ p, chunks.flatten ≠ p ++ [58])
    (hlong : ¬ EndsLong chunks.flatten) :
    ∃ o, runIpv4 cw simd sse {} chunks = some o ∧
      ∀ x port rest, o = ⟨rest, .ok, some (x, port)⟩ ↔ SpacedAddrPort chunks.flatten x port rest := by
  have hi : PortInv cw simd sse {} [] := .addr _ _ (.addr0 _ _ rfl (.space [] ⟨by simp, by simp⟩))
  obtain ⟨o, h1, h2⟩ := runIpv4_good (sse := sse) hst chunks hi (by intro c h; cases h) hcl (by simpa using hcut) (by simpa using hcol)
    (by simpa using hlong)
  refine ⟨o, h1, ?_⟩
  intro x p rest
  rw [h2]; simp

/-- The hypotheses are met by a text cut inside an octet, behind the colon and inside the port. -/
example : runIpv4 8 0 false {} [ascii " 19", ascii "2.168.", ascii "12.7:", ascii "80", ascii "80 "] =
    some ⟨ascii " ", .ok, some (⟨192, 168, 12, 7⟩, 8080)⟩ ∧ ¬ BadEnd (ascii " 192.168.12.7:") ∧ ¬ EndsLong (ascii " 192.168.12.7:8080 ") := by
  refine ⟨by decide +kernel, not_badEnd_colon (p := ascii " 192.168.12.7"), ?_⟩
  rintro ⟨p, cs, ds, h, hr, hl⟩
  rcases List.eq_nil_or_concat cs with hn | ⟨cs', c, hn⟩
  · rw [hn] at hl; simp at hl
  · rw [hn, List.concat_eq_append, ← List.append_assoc] at h
    have h2 := (List.append_inj' (show ascii " 192.168.12.7:8080" ++ [32] = (p ++ cs') ++ [c] from h) rfl).2
    have := digitRun10_range hr c (by rw [hn]; simp)
    simp at h2; omega

/-- C34 violated: at the end of the stream a missing or far too large port is accepted as 0; a port `0` that is cut off from what follows makes the
scanner read past the end of the buffer. -/
theorem c34_port_eof_violated :
    runIpv4 8 0 false {} [ascii "1.2.3.4:"] = some ⟨[], .ok, some (⟨1, 2, 3, 4⟩, 0)⟩ ∧
    runIpv4 8 0 false {} [ascii "1.2.3.4:9999999"] = some ⟨[], .ok, some (⟨1, 2, 3, 4⟩, 0)⟩ ∧
    runIpv4 8 0 false {} [ascii "1.2.3.4:0", ascii " "] = none := by
  refine ⟨by decide +kernel, by decide +kernel, by decide +kernel⟩

end Verif.Ip
