import Verif.Lemmas.Typist
import Verif.Props.Channel
import Verif.Props.CHw
import Verif.Props.Shipped

/-! # Property C91: text typed key by key arrives as it was typed -/

namespace Asdf.Props

open Spec Avr Pcb

/-- **C91, what is typed.**  After any history `pre` after which no code is due for repetition and
only keys with functions are down (DIP switches, modifiers), a typist who is neat (`NeatScan`) and
holds no key longer than the delay before repetition types exactly the expected text, scan by
scan, and nothing is printed.  Keys may overlap. -/
theorem C91_typed (cfg : Config) (L : Layout) (pre more : List Input) (k : Kb) (hk : k = Kb.after cfg L pre)
    (hlast : k.last = 0xA0)
    (hrest : ∀ r c, r < L.rows → c < L.cols → downAfter pre r c = true → Functional cfg L k.map r c)
    (hneat : Neat cfg L k.map k.mods pre more) (hbrief : Brief cfg L k.map k.rpt.delay pre more) :
    typed cfg L (pre ++ more) = typed cfg L pre ++ typist cfg L k.map k.mods pre more ∧
    said cfg L (pre ++ more) = said cfg L pre ++ List.replicate more.length [] := by
  subst hk
  have hready : Typist.Ready cfg L (Kb.after cfg L pre).map (Kb.after cfg L pre).rpt.delay pre []
      (Kb.after cfg L pre).mods := by
    constructor
    · rw [List.append_nil]
    · rw [List.append_nil]
    · rw [List.append_nil]
    · intro r c hr hc h
      rw [List.append_nil] at h
      exact .inl (hrest r c hr hc h)
    · rw [List.append_nil]
      exact .inl hlast
  obtain ⟨h1, h2⟩ := hready.text (more := more) (by rw [List.append_nil]; exact hneat) hbrief
  rw [List.append_nil] at h1 h2
  refine ⟨?_, ?_⟩
  · unfold typed
    rw [log_append]
    exact congrArg _ h1
  · unfold said
    rw [log_append]
    exact congrArg _ h2

theorem snd_keys (l : List Code) : (l.map (Prod.mk false)).map Prod.snd = l := by
  rw [List.map_map]
  exact List.map_id l

/-- The queues while at most one code is typed in a scan. -/
theorem channel_one (ts ms us : List (List Code)) (hl : ts.length = ms.length)
    (hk : (channel ts ms).keys = []) (hm : (channel ts ms).msgs = []) (h1 : ∀ u ∈ us, u.length ≤ 1)
    (hlt : ∀ u ∈ us, ∀ c ∈ u, c.toNat < 0xA0) :
    let q := channel (ts ++ us) (ms ++ List.replicate us.length [])
    q.msgs = [] ∧ q.keys = us.getLast?.getD [] ∧
      q.host ++ q.keys.map (false, ·) = (channel ts ms).host ++ us.flatten.map (false, ·) := by
  induction us using snoc_induction with
  | h0 => simp [hk, hm]
  | h1 us u ih =>
    obtain ⟨i1, i2, i3⟩ := ih (fun v hv => h1 v (List.mem_append_left _ hv))
      (fun v hv => hlt v (List.mem_append_left _ hv))
    have hu := h1 u (List.mem_append_right _ List.mem_cons_self)
    have hlen : (channel (ts ++ us) (ms ++ List.replicate us.length [])).keys.length ≤ 1 := by
      rw [i2]
      cases e : us.getLast? with
      | none => exact Nat.zero_le _
      | some v => exact h1 v (List.mem_append_left _ (List.mem_of_getLast? e))
    have hlt' : ∀ c ∈ (channel (ts ++ us) (ms ++ List.replicate us.length [])).keys, c.toNat < 0xA0 := by
      rw [i2]
      cases e : us.getLast? with
      | none => intro c hc; cases hc
      | some v => exact hlt v (List.mem_append_left _ (List.mem_of_getLast? e))
    have hsnoc : channel (ts ++ (us ++ [u])) (ms ++ List.replicate (us ++ [u]).length []) =
        (channel (ts ++ us) (ms ++ List.replicate us.length [])).send.add u [] := by
      rw [List.length_append, List.length_singleton, List.replicate_succ', ← List.append_assoc,
        ← List.append_assoc, channel_snoc]
      simp [hl]
    dsimp only at i1 i2 i3 ⊢
    rw [hsnoc]
    generalize channel (ts ++ us) (ms ++ List.replicate us.length []) = q at i1 i2 i3 hlen hlt' ⊢
    obtain ⟨qk, qm, qh, ql, qlm⟩ := q
    dsimp only at i1 i2 i3 hlen hlt'
    subst i1
    rw [List.getLast?_append, List.flatten_append, List.map_append, ← List.append_assoc, ← i3]
    match qk, hlen, hlt' with
    | [], _, _ =>
      simp [Line.send, Line.add, List.take_of_length_le (show u.length ≤ 16 by omega)]
    | [c], _, hlt' =>
      have := hlt' c List.mem_cons_self
      simp [Line.send, Line.add, this, List.take_of_length_le (show u.length ≤ 16 by omega)]

/-- What the two queues let through of a text. -/
theorem channel_text {cfg : Config} {L : Layout} {pre more : List Input} {k : Kb} (hk : k = Kb.after cfg L pre)
    (hlast : k.last = 0xA0)
    (hrest : ∀ r c, r < L.rows → c < L.cols → downAfter pre r c = true → Functional cfg L k.map r c)
    (hneat : Neat cfg L k.map k.mods pre more) (hbrief : Brief cfg L k.map k.rpt.delay pre more)
    (hidle : k.keys = [] ∧ k.msgs = [])
    (hone : ∀ u ∈ typist cfg L k.map k.mods pre more, u.length ≤ 1) :
    let q := channel (typed cfg L (pre ++ more)) (said cfg L (pre ++ more))
    q.msgs = [] ∧ q.keys = (typist cfg L k.map k.mods pre more).getLast?.getD [] ∧
      q.host ++ q.keys.map (false, ·) = (channel (typed cfg L pre) (said cfg L pre)).host ++
        (typist cfg L k.map k.mods pre more).flatten.map (false, ·) := by
  obtain ⟨h1, h2⟩ := C91_typed cfg L pre more k hk hlast hrest hneat hbrief
  have hl := typed_length cfg L pre
  have hon := after_onLine cfg L pre
  have h := channel_one (typed cfg L pre) (said cfg L pre) (typist cfg L k.map k.mods pre more)
    (hl.1.trans hl.2.symm) (by rw [← hon.keys, ← hk]; exact hidle.1) (by rw [← hon.msgs, ← hk]; exact hidle.2)
    hone (Typist.typist_lt hneat)
  rw [Typist.typist_length] at h
  rw [h1, h2]
  exact h

/-- **C91, the shipped firmware.**  If moreover nothing is waiting after `pre` and no two keys are
pressed in the same scan, then the host receives the text: what it receives during `more`, followed
by the code of the last scan if there is one, is the text typed. -/
theorem C91_host (pre more : List Input) (hsafe : NeverTrips (pre ++ more)) (k : Kb)
    (hk : k = Kb.after fourMaps openLayout pre) (hlast : k.last = 0xA0)
    (hrest : ∀ r c, r < 9 → c < 8 → downAfter pre r c = true → Functional fourMaps openLayout k.map r c)
    (hneat : Neat fourMaps openLayout k.map k.mods pre more)
    (hbrief : Brief fourMaps openLayout k.map k.rpt.delay pre more) (hidle : k.keys = [] ∧ k.msgs = [])
    (hone : ∀ u ∈ typist fourMaps openLayout k.map k.mods pre more, u.length ≤ 1) :
    ∃ s0 s, powerUp shipped pre = .ok s0 ∧ powerUp shipped (pre ++ more) = .ok s ∧
      messages s = [] ∧
      keystrokes s = (typist fourMaps openLayout k.map k.mods pre more).getLast?.getD [] ∧
      sends s.dev.trace ++ keystrokes s =
        sends s0.dev.trace ++ (typist fourMaps openLayout k.map k.mods pre more).flatten := by
  obtain ⟨q1, q2, q3⟩ := channel_text hk hlast hrest hneat hbrief hidle hone
  have q3 := congrArg (List.map Prod.snd) q3
  simp only [List.map_append, snd_keys] at q3
  obtain ⟨s, e1, e2, e3, e4⟩ := C77_shipped (pre ++ more) hsafe
  obtain ⟨s0, f1, f2, _, _⟩ := C77_shipped pre (neverTrips_left hsafe)
  refine ⟨s0, s, f1, e1, by rw [e4]; exact q1, by rw [e3]; exact q2, ?_⟩
  rw [sends_hostSees, sends_hostSees, e2, e3, f2]
  exact q3

/-- **C91, the text of the firmware on the ATmega328P interface.**  Whatever happened before: if
the readings of the matrix are those of a neat typist from some moment on (after the readings
`pre`), the computer has read what it had read until then, followed by the text; the character of
the very last scan is still waiting. -/
theorem C91_computer_328 (A : Assembly) (ps : List Place) (h : (A, ps) ∈ boards328 classicPlaces solPlaces)
    (sockets : List (Nat × List (Nat × Signal))) (hA : (A, sockets) ∈ plugged328)
    (k : Nat) (lines : List (Nat × Signal)) (hk : (k, lines) ∈ sockets) (pin : Nat)
    (hpin : (pin, .strobe) ∈ lines) (sw : Nat → Sw → Bool) (W : C.Outside) (hS : SwitchWorld ps sw W)
    (hW : SafeWorld W) (b : Bool) (hb : ∀ t, sw t (.dip 7) = b) (r0 : Regs) (sr : UInt8)
    (polls w n : Nat) (hw : 65536 ≤ w) (hp : polls < w) (hn : 23 ≤ n) :
    ∃ times hi h log, BetweenLooks C.board328 W w n r0 sr polls times ∧ InOrder 0 hi times ∧ textRun C.board328 W w n r0 sr polls = some h ∧
      hi ≤ h.time ∧ h.found = times.length ∧ h.found ≤ h.ints ∧
      statesOf h = boardStates m328 r0 [.archInit] ++ log ∧
      ∀ pre more, readingsAt ps sw times = pre ++ more → ∀ kb, kb = Kb.after fourMaps openLayout pre →
        kb.last = 0xA0 → kb.keys = [] ∧ kb.msgs = [] →
        (∀ r c, r < 9 → c < 8 → downAfter pre r c = true → Functional fourMaps openLayout kb.map r c) →
        Neat fourMaps openLayout kb.map kb.mods pre more →
        Brief fourMaps openLayout kb.map kb.rpt.delay pre more →
        (∀ u ∈ typist fourMaps openLayout kb.map kb.mods pre more, u.length ≤ 1) →
        ∀ edge v vs, AtSocket328 A k lines (boardAfter m328 r0 [.archInit]) v →
          Watches (AtSocket328 A k lines) log vs →
          computerReads lines edge v vs ++
              (typist fourMaps openLayout kb.map kb.mods pre more).getLast?.getD [] =
            (channel (typed fourMaps openLayout pre) (said fourMaps openLayout pre)).host.map Prod.snd ++
              (typist fourMaps openLayout kb.map kb.mods pre more).flatten := by
  obtain ⟨times, hi, hh, log, e0, e1, e2, e3, e4, e5, e6, e7⟩ := C90_computer_328 A ps h sockets hA k lines hk pin
    hpin sw W hS hW b hb r0 sr polls w n hw hp hn
  refine ⟨times, hi, hh, log, e0, e1, e2, e3, e4, e5, e6, ?_⟩
  intro pre more hpm kb hkb hlast hidle hrest hneat hbrief hone edge v vs hv hvs
  obtain ⟨_, q2, q3⟩ := channel_text hkb hlast hrest hneat hbrief hidle hone
  have q3 := congrArg (List.map Prod.snd) q3
  simp only [List.map_append, snd_keys] at q3
  rw [e7 edge v vs hv hvs, hpm, ← q2, ← q3]

/-- **C91, the text of the firmware with the ATmega2560.** -/
theorem C91_computer_2560 (A : Assembly) (ps : List Place) (h : (A, ps) ∈ boards2560 classicPlaces solPlaces)
    (out : Net → Prop) (hout : ∀ n, out n → Outside A n) (cols : (Sw → Bool) → Regs → UInt8)
    (hcols : ∀ closed r, rowReady2560 r →
      ReadsLevels A.links (column2560 A) closed (fun n => Low2560 A r n ∨ out n) (cols closed r))
    (sockets : List (Nat × List (Nat × Signal))) (hA : (A, sockets) ∈ plugged2560)
    (k : Nat) (lines : List (Nat × Signal)) (hk : (k, lines) ∈ sockets) (pin : Nat)
    (hpin : (pin, .strobe) ∈ lines) :
    ∃ f, (∀ closed r, rowReady2560 r → f (closedKeys ps closed) r = cols closed r) ∧
      ∀ (sw : Nat → Sw → Bool) (W : C.Outside), SwitchWorld ps sw W → SafeWorld W →
      ∀ b, (∀ t, sw t (.dip 7) = b) → ∀ (r0 : Regs) (sr : UInt8) (polls w n : Nat),
        65536 ≤ w → polls < w → 23 ≤ n →
        ∃ times hi h log, BetweenLooks (C.board2560 f) W w n r0 sr polls times ∧ InOrder 0 hi times ∧ textRun (C.board2560 f) W w n r0 sr polls = some h ∧
          hi ≤ h.time ∧ h.found = times.length ∧ h.found ≤ h.ints ∧
          statesOf h = boardStates m2560 r0 [.archInit] ++ log ∧
          ∀ pre more, readingsAt ps sw times = pre ++ more → ∀ kb, kb = Kb.after fourMaps openLayout pre →
            kb.last = 0xA0 → kb.keys = [] ∧ kb.msgs = [] →
            (∀ r c, r < 9 → c < 8 → downAfter pre r c = true → Functional fourMaps openLayout kb.map r c) →
            Neat fourMaps openLayout kb.map kb.mods pre more →
            Brief fourMaps openLayout kb.map kb.rpt.delay pre more →
            (∀ u ∈ typist fourMaps openLayout kb.map kb.mods pre more, u.length ≤ 1) →
            ∀ edge v vs, AtSocket2560 A k lines (boardAfter m2560 r0 [.archInit]) v →
              Watches (AtSocket2560 A k lines) log vs →
              computerReads lines edge v vs ++
                  (typist fourMaps openLayout kb.map kb.mods pre more).getLast?.getD [] =
                (channel (typed fourMaps openLayout pre) (said fourMaps openLayout pre)).host.map Prod.snd ++
                  (typist fourMaps openLayout kb.map kb.mods pre more).flatten := by
  obtain ⟨f, hf, hrun⟩ := C90_computer_2560 A ps h out hout cols hcols sockets hA k lines hk pin hpin
  refine ⟨f, hf, fun sw W hS hW b hb r0 sr polls w n hw hp hn => ?_⟩
  obtain ⟨times, hi, hh, log, e0, e1, e2, e3, e4, e5, e6, e7⟩ := hrun sw W hS hW b hb r0 sr polls w n hw hp hn
  refine ⟨times, hi, hh, log, e0, e1, e2, e3, e4, e5, e6, ?_⟩
  intro pre more hpm kb hkb hlast hidle hrest hneat hbrief hone edge v vs hv hvs
  obtain ⟨_, q2, q3⟩ := channel_text hkb hlast hrest hneat hbrief hidle hone
  have q3 := congrArg (List.map Prod.snd) q3
  simp only [List.map_append, snd_keys] at q3
  rw [e7 edge v vs hv hvs, hpm, ← q2, ← q3]

end Asdf.Props
