import Verif.Scan.Int
/-! Helper lemmas: driving the scanners over the blocks of a stream. -/
namespace Verif.Scan
open Verif Verif.IntScan Verif.IoBuf Verif.Line

/-- What scanning one argument of kind `w` guarantees: `T` is the text the argument was read from. -/
structure SingleOk (w : What) (T : List Nat) (s s' : ISt) (v' : Val) (res : Res) : Prop where
  wf : s'.avail.isSome = true
  alloc : s.mem ≠ none → s'.mem ≠ none
  nofail : NoFail s.dev.script → NoFail s'.dev.script ∧ res ≠ .device
  eager : Eager s'.dev.script
  size : s'.ahead.length ≤ s.ahead.length
  reads : res ≠ .device → ∃ c x, Reads w T ⟨s'.ahead, c, x⟩ ∧ res = viewRes c ∧ (c = .ok → x = some v')

theorem avail_upto {s : ISt} {av : List Nat} (hav : s.avail = some av) {r : List Nat} (hr : r <:+ av) :
    (advance s (av.length - r.length)).avail = some r ∧ (advance s (av.length - r.length)).dev = s.dev ∧
    (s.mem ≠ none → (advance s (av.length - r.length)).mem ≠ none) := by
  refine ⟨?_, rfl, fun h => h⟩
  obtain ⟨a, ha⟩ := hr
  rcases avail_cases (s := s) (by simp [hav]) with ⟨h1, h2, h3⟩ | ⟨l, i, h1, h2, h3, h4⟩
  · rw [h3] at hav
    have : av = [] := by simpa using hav.symm
    subst this
    have : r = [] := by
      have := List.append_eq_nil_iff.mp ha; exact this.2
    subst this
    simp [advance, ISt.avail, h1, h2]
  · rw [h4] at hav
    have : l.drop i = av := by simpa using hav
    subst this
    have hlen := congrArg List.length ha
    simp only [List.length_append, List.length_drop] at hlen
    simp only [advance, ISt.avail, h1, h2, Option.map_some, List.length_drop]
    rw [if_pos (by omega)]
    have : i + (l.length - i - r.length) = i + a.length := by omega
    rw [this, ← List.drop_drop, ← ha]
    simp

theorem readAllCold_alloc {bfs : Nat} (hb : 1 ≤ bfs) (fuel : Nat) : ∀ (n : Nat) {s s' : ISt} {data : List Nat} {res : AllRes},
    readAllCold bfs fuel s n = some (s', data, res) → s.avail.isSome = true → s.mem ≠ none → s'.mem ≠ none := by
  induction fuel with
  | zero =>
    intro n s s' data res h _ hm
    cases n with
    | zero => simp only [readAllCold, Option.some.injEq, Prod.mk.injEq] at h; rw [← h.1]; exact hm
    | succ n => simp [readAllCold] at h
  | succ fuel ih =>
    intro n s s' data res h hw hm
    cases n with
    | zero => simp only [readAllCold, Option.some.injEq, Prod.mk.injEq] at h; rw [← h.1]; exact hm
    | succ n =>
      obtain ⟨s1, r, e, hr⟩ := read_ok hb hw (.inr hm) (n + 1)
      simp only [readAllCold, e, Option.bind_some] at h
      split at h
      · simp only [Option.some.injEq, Prod.mk.injEq] at h; rw [← h.1]; exact hr.alloc hm
      · split at h
        · simp only [Option.some.injEq, Prod.mk.injEq] at h; rw [← h.1]; exact hr.alloc hm
        · obtain ⟨q, hq, h⟩ := Option.map_eq_some_iff.mp h
          simp only [Prod.mk.injEq] at h
          rw [← h.1]
          exact ih _ (s' := q.1) (data := q.2.1) (res := q.2.2) hq hr.wf (hr.alloc hm)

theorem scanCtx_ok {P : Plat} {w : What} {T : List Nat} {Inv Inv' : St → Val → List Nat → Prop} (hR : CtxRight P w T Inv Inv') {bfs : Nat}
    (hb : 1 ≤ bfs) (fuel : Nat) : ∀ {s : ISt} {st : St} {v : Val} {pre : List Nat}, s.avail.isSome = true → T = pre ++ s.ahead → Inv st v pre →
      (s.avail ≠ some [] ∨ pre = []) → Eager s.dev.script → s.dev.rest.length < fuel →
      ∃ s' v' res, scanCtx P w bfs fuel s st v = some (s', v', res) ∧ SingleOk w T s s' v' res := by
  induction fuel with
  | zero => intro s st v pre _ _ _ _ _ h; omega
  | succ fuel ih =>
    intro s st v pre hwf hT hI hne hea hf
    obtain ⟨av, hav⟩ := Option.isSome_iff_exists.mp hwf
    have hah : s.ahead = av ++ s.dev.rest := by simp [ISt.ahead, hav]
    obtain ⟨r, hr, hcase⟩ := hR.step st v pre av s.dev.rest (by rw [hT, hah, List.append_assoc]) hI (by
      rcases hne with h | h
      · left; rintro rfl; exact h hav
      · exact .inr h)
    simp only [scanCtx, hav, Option.bind_some, hr]
    rcases hcase with ⟨hc, hrest, hinv⟩ | ⟨hc, hsuf, x, hreads, hok, hneof⟩
    · have hnok : r.code ≠ .ok := by rw [hc]; simp
      rw [if_neg hnok, if_neg (by simp [hc])]
      have hadv := avail_upto hav (r := r.rest) (by rw [hrest]; exact List.nil_suffix)
      set s1 := advance s (av.length - r.rest.length) with hs1
      rw [hrest] at hadv
      obtain ⟨s2, o, hu, hm, _, hah2, ⟨av2, hav2, ht, hnt⟩, hnf, hea2⟩ := underflow_ok bfs hadv.1
      have hah1 : s1.ahead = s.dev.rest := by simp [ISt.ahead, hadv.1, hadv.2.1]
      rw [hadv.2.1] at hnf hea2
      obtain ⟨hea3, hend⟩ := hea2 hea
      rw [hu]
      have hsz : s2.ahead.length ≤ s.ahead.length := by rw [← hah2, hah1, hah]; simp
      match o, hu, ht, hnt, hnf, hend with
      | some true, hu, ht, hnt, hnf, hend =>
        have hav2ne := ht rfl
        have hah2' : s2.ahead = av2 ++ s2.dev.rest := by simp [ISt.ahead, hav2]
        have hlen : s2.dev.rest.length < fuel := by
          have h1 := congrArg List.length hah2
          rw [hah1, hah2', List.length_append] at h1
          have := List.length_pos_of_ne_nil hav2ne
          omega
        obtain ⟨s', v', res, e, hS⟩ := ih (s := s2) (st := r.st) (v := r.var) (pre := pre ++ av) (by rw [hav2]; rfl)
          (by rw [hT, hah, ← hah2, hah1, List.append_assoc]) (hR.weak _ _ _ hinv)
          (.inl (by rw [hav2]; simpa using hav2ne)) hea3 hlen
        exact ⟨s', v', res, e, hS.wf, fun _ => hS.alloc hm, fun h => hS.nofail (hnf h).1, hS.eager, hS.size.trans hsz, hS.reads⟩
      | some false, hu, ht, hnt, hnf, hend =>
        have hend' : s.dev.rest = [] := by rw [← hah1]; exact hend (by omega) rfl
        have hTpre : T = pre ++ av := by rw [hT, hah, hend', List.append_nil]
        rw [← hTpre] at hinv
        obtain ⟨e, he, hpart, x, hreads, hok⟩ := hR.fin _ _ hinv
        have hs2 : s2.ahead = [] := by rw [← hah2, hah1, hend']
        simp only [atEof, he, Option.map_some]
        by_cases h1 : e.1 = .ok
        · rw [if_pos h1]
          exact ⟨_, _, _, rfl, by rw [hav2]; rfl, fun _ => hm, fun h => ⟨(hnf h).1, by simp⟩, hea3, hsz,
            fun _ => ⟨e.1, x, by rw [hs2]; exact hreads, by simp [viewRes, h1], hok⟩⟩
        · rw [if_neg h1]
          by_cases h2 : e.1 = .eof
          · rw [if_pos h2]
            exact ⟨_, _, _, rfl, by rw [hav2]; rfl, fun _ => hm, fun h => ⟨(hnf h).1, by simp⟩, hea3, hsz,
              fun _ => ⟨e.1, x, by rw [hs2]; exact hreads, by simp [viewRes, h2], hok⟩⟩
          · rw [if_neg h2]
            exact ⟨_, _, _, rfl, by rw [hav2]; rfl, fun _ => hm, fun h => ⟨(hnf h).1, by simp⟩, hea3, hsz,
              fun _ => ⟨e.1, x, by rw [hs2]; exact hreads, by simp [viewRes, h1, h2], hok⟩⟩
      | none, hu, ht, hnt, hnf, hend =>
        exact ⟨_, _, _, rfl, by rw [hav2]; rfl, fun _ => hm, fun h => absurd rfl (hnf h).2, hea3, hsz, fun h => absurd rfl h⟩
    · have hadv := avail_upto hav hsuf
      have hah1 : (advance s (av.length - r.rest.length)).ahead = r.rest ++ s.dev.rest := by simp [ISt.ahead, hadv.1, hadv.2.1]
      have hsz : (advance s (av.length - r.rest.length)).ahead.length ≤ s.ahead.length := by
        rw [hah1, hah]; simp; exact hsuf.length_le
      have hwf1 : (advance s (av.length - r.rest.length)).avail.isSome = true := by rw [hadv.1]; rfl
      by_cases h1 : r.code = .ok
      · rw [if_pos h1]
        exact ⟨_, _, _, rfl, hwf1, hadv.2.2, fun h => ⟨h, by simp⟩, hea, hsz,
          fun _ => ⟨r.code, x, by rw [hah1]; exact hreads, by simp [viewRes, h1], hok⟩⟩
      · rw [if_neg h1, if_pos hc]
        exact ⟨_, _, _, rfl, hwf1, hadv.2.2, fun h => ⟨h, by simp⟩, hea, hsz,
          fun _ => ⟨r.code, x, by rw [hah1]; exact hreads, by simp [viewRes, h1, hneof], hok⟩⟩

/-- Where scanning an argument of kind `w` from the text `T` is exact. -/
def Safe (P : Plat) : What → List Nat → Prop
  | .word, T => CodeUnits P.cw T ∧ SpacePlain P T
  | .token, T => CodeUnits P.cw T
  | .line, T => CodeUnits P.cw T
  | .int bits signed noskipws skipzero base, T =>
    Valid (P.cfg bits signed noskipws skipzero base) ∧ IntSafe (P.cfg bits signed noskipws skipzero base) T
  | _, _ => True

theorem scanSingle_ok {P : Plat} (hP : PlatOk P) {w : What} {bfs fuel : Nat} (hb : 1 ≤ bfs) {s : ISt} (hwf : s.avail.isSome = true)
    (hea : Eager s.dev.script) (hn : NoFail s.dev.script ∨ s.mem ≠ none) (hf : s.ahead.length < fuel) (hs : Safe P w s.ahead) (v : Val) :
    ∃ s' v' res, scanSingle P w bfs fuel s v = some (s', v', res) ∧ SingleOk w s.ahead s s' v' res := by
  have hf' : s.dev.rest.length < fuel := by
    have : s.dev.rest.length ≤ s.ahead.length := by simp [ISt.ahead]
    omega
  have ctx : ∀ {w : What} {Inv Inv' : St → Val → List Nat → Prop}, CtxRight P w s.ahead Inv Inv' → ∀ v,
      ∃ s' v' res, scanCtx P w bfs fuel s {} v = some (s', v', res) ∧ SingleOk w s.ahead s s' v' res :=
    fun hR v => scanCtx_ok hR hb fuel hwf (pre := []) rfl (hR.init v) (.inr rfl) hea hf'
  obtain ⟨av, hav⟩ := Option.isSome_iff_exists.mp hwf
  have hah : s.ahead = av ++ s.dev.rest := by simp [ISt.ahead, hav]
  cases w with
  | word => exact ctx (word_right hP hs.1 hs.2) v
  | token => exact ctx (token_right hP hs) v
  | line => exact ctx (line_right hP hs) v
  | whole => exact ctx (whole_right P _) v
  | chars n => exact ctx (chars_right P n _) v
  | int bits signed noskipws skipzero base =>
    obtain ⟨hv, hi⟩ := hs
    simp only [scanSingle, scanInt, hav, Option.bind_some]
    obtain ⟨o, ho, hsuf, hspec⟩ := scanContig_block hv hP.ptestm hi hah
    rw [ho]
    simp only [Option.bind_some]
    by_cases hr : o.rest = []
    · rw [if_pos hr]
      exact ctx (int_right hP.ptestm hv hi) _
    · rw [if_neg hr]
      have hsp := hspec hr
      have hadv := avail_upto hav hsuf
      have hah1 : (advance s (av.length - o.rest.length)).ahead = o.rest ++ s.dev.rest := by simp [ISt.ahead, hadv.1, hadv.2.1]
      have hneof : o.code ≠ .eof := by
        have := spec_not_eof hsp (by simp [hr])
        exact this
      refine ⟨_, _, _, rfl, by rw [hadv.1]; rfl, hadv.2.2, fun h => ⟨h, by split <;> simp⟩, hea, ?_, fun _ => ⟨o.code, o.value.map .num, ⟨_, hsp, by rw [hah1]⟩, ?_, ?_⟩⟩
      · rw [hah1, hah]; simp; exact hsuf.length_le
      · unfold viewRes
        by_cases h1 : o.code = .ok
        · simp [h1]
        · simp [h1, hneof]
      · intro hok
        obtain ⟨i, hi⟩ := spec_ok_value hsp hok
        simp only at hi
        simp [hi]
  | fixed n f =>
    simp only [scanSingle, scanFixed, hav, Option.bind_some]
    by_cases hlt : av.length < n
    · rw [if_pos hlt]
      obtain ⟨s', data, res, e, hwf', _, hsplit, hdone, heof, _, hnf, hea'⟩ := readAllCold_ok hb n n (s := s) (Nat.le_refl n) hwf hn
      rw [e]
      have hsz : s'.ahead.length ≤ s.ahead.length := by rw [hsplit]; simp
      have halloc : s.mem ≠ none → s'.mem ≠ none := by
        intro h
        exact readAllCold_alloc hb n n e hwf h
      match res, e, hdone, heof, hnf, hea' with
      | .done, e, hdone, heof, hnf, hea' =>
        exact ⟨_, _, _, rfl, hwf', halloc, fun h => ⟨(hnf h).1, by simp⟩, (hea' hea).1, hsz,
          fun _ => ⟨.ok, some (f data), .inr ⟨data, s'.ahead, hsplit, hdone rfl, rfl⟩, rfl, fun _ => rfl⟩⟩
      | .eof, e, hdone, heof, hnf, hea' =>
        have hd := (hea' hea).2 rfl
        have hs0 : s'.ahead = [] := by
          have := congrArg List.length hsplit
          rw [hd] at this
          simp at this
          exact this
        refine ⟨_, _, _, rfl, hwf', halloc, fun h => ⟨(hnf h).1, by simp⟩, (hea' hea).1, hsz,
          fun _ => ⟨.eof, none, .inl ⟨by rw [← hd]; exact heof rfl, by rw [hs0]⟩, rfl, by simp⟩⟩
      | .threw, e, hdone, heof, hnf, hea' =>
        exact ⟨_, _, _, rfl, hwf', halloc, fun h => absurd rfl (hnf h).2, (hea' hea).1, hsz, fun h => absurd rfl h⟩
    · rw [if_neg hlt]
      have hadv := avail_upto hav (r := av.drop n) (List.drop_suffix n av)
      have hn' : av.length - (av.drop n).length = n := by simp; omega
      rw [hn'] at hadv
      have hah1 : (advance s n).ahead = av.drop n ++ s.dev.rest := by simp [ISt.ahead, hadv.1, hadv.2.1]
      refine ⟨_, _, _, rfl, by rw [hadv.1]; rfl, hadv.2.2, fun h => ⟨h, by simp⟩, hea, ?_,
        fun _ => ⟨.ok, some (f (av.take n)), .inr ⟨av.take n, (advance s n).ahead, ?_, by simp; omega, rfl⟩, rfl, fun _ => rfl⟩⟩
      · rw [hah1, hah]; simp
      · rw [hah1, ← List.append_assoc, List.take_append_drop, hah]

end Verif.Scan
