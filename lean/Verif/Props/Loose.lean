import Verif.Lemmas.Loose
import Verif.Props.Typist

/-! # Property C103: text typed while modifiers move at any time -/

namespace Asdf.Props

open Spec Avr Pcb

/-- **C103, what is typed.**  After any history `pre` after which no code is due for repetition, a
typist who is tidy (`Tidy`: modifiers move at any time) and holds no key longer than the delay before
repetition types exactly the expected text, scan by scan, and nothing is printed. -/
theorem C103_typed (cfg : Config) (L : Layout) (pre more : List Input) (k : Kb) (hk : k = Kb.after cfg L pre)
    (hlast : k.last = 0xA0) (htidy : Tidy cfg L k.map ⟨k.mods, none⟩ pre more)
    (hbrief : Brief cfg L k.map k.rpt.delay pre more) :
    typed cfg L (pre ++ more) = typed cfg L pre ++ typist cfg L k.map k.mods pre more ∧
    said cfg L (pre ++ more) = said cfg L pre ++ List.replicate more.length [] := by
  subst hk
  have hready : Loose.Ready cfg L (Kb.after cfg L pre).map (Kb.after cfg L pre).rpt.delay pre []
      ⟨(Kb.after cfg L pre).mods, none⟩ := by
    constructor
    · rw [List.append_nil]
    · rw [List.append_nil]
    · rw [List.append_nil]
    · rw [List.append_nil]
      exact hlast
  obtain ⟨h1, h2⟩ := hready.text (more := more) (by rw [List.append_nil]; exact htidy) hbrief
  rw [List.append_nil] at h1 h2
  refine ⟨?_, ?_⟩
  · unfold typed
    rw [log_append]
    exact congrArg _ h1
  · unfold said
    rw [log_append]
    exact congrArg _ h2

theorem loose_text {cfg : Config} {L : Layout} {pre more : List Input} {k : Kb} (hk : k = Kb.after cfg L pre)
    (hlast : k.last = 0xA0) (htidy : Tidy cfg L k.map ⟨k.mods, none⟩ pre more)
    (hbrief : Brief cfg L k.map k.rpt.delay pre more) (hidle : k.keys = [] ∧ k.msgs = [])
    (hone : ∀ u ∈ typist cfg L k.map k.mods pre more, u.length ≤ 1) :
    let q := channel (typed cfg L (pre ++ more)) (said cfg L (pre ++ more))
    q.msgs = [] ∧ q.keys = (typist cfg L k.map k.mods pre more).getLast?.getD [] ∧
      q.host ++ q.keys.map (false, ·) = (channel (typed cfg L pre) (said cfg L pre)).host ++
        (typist cfg L k.map k.mods pre more).flatten.map (false, ·) := by
  obtain ⟨h1, h2⟩ := C103_typed cfg L pre more k hk hlast htidy hbrief
  have hl := typed_length cfg L pre
  have hon := after_onLine cfg L pre
  have h := channel_one (typed cfg L pre) (said cfg L pre) (typist cfg L k.map k.mods pre more)
    (hl.1.trans hl.2.symm) (by rw [← hon.keys, ← hk]; exact hidle.1) (by rw [← hon.msgs, ← hk]; exact hidle.2)
    hone (Loose.typist_lt htidy)
  rw [Typist.typist_length] at h
  rw [h1, h2]
  exact h

/-- **C103, the shipped firmware.**  If moreover nothing is waiting after `pre` and no two keys are
pressed in the same scan, then the host receives the text: what it receives during `more`, followed
by the code of the last scan if there is one, is the text typed. -/
theorem C103_host (pre more : List Input) (hsafe : NeverTrips (pre ++ more)) (k : Kb)
    (hk : k = Kb.after fourMaps openLayout pre) (hlast : k.last = 0xA0)
    (htidy : Tidy fourMaps openLayout k.map ⟨k.mods, none⟩ pre more)
    (hbrief : Brief fourMaps openLayout k.map k.rpt.delay pre more) (hidle : k.keys = [] ∧ k.msgs = [])
    (hone : ∀ u ∈ typist fourMaps openLayout k.map k.mods pre more, u.length ≤ 1) :
    ∃ s0 s, powerUp shipped pre = .ok s0 ∧ powerUp shipped (pre ++ more) = .ok s ∧
      messages s = [] ∧
      keystrokes s = (typist fourMaps openLayout k.map k.mods pre more).getLast?.getD [] ∧
      sends s.dev.trace ++ keystrokes s =
        sends s0.dev.trace ++ (typist fourMaps openLayout k.map k.mods pre more).flatten := by
  obtain ⟨q1, q2, q3⟩ := loose_text hk hlast htidy hbrief hidle hone
  have q3 := congrArg (List.map Prod.snd) q3
  simp only [List.map_append, snd_keys] at q3
  obtain ⟨s, e1, e2, e3, e4⟩ := C77_shipped (pre ++ more) hsafe
  obtain ⟨s0, f1, f2, _, _⟩ := C77_shipped pre (neverTrips_left hsafe)
  refine ⟨s0, s, f1, e1, by rw [e4]; exact q1, by rw [e3]; exact q2, ?_⟩
  rw [sends_hostSees, sends_hostSees, e2, e3, f2]
  exact q3

/-- **C103, the text of the firmware on the ATmega328P interface.**  Whatever happened before: if
the readings of the matrix are those of a tidy typist from some moment on (after the readings
`pre`), the computer has read what it had read until then, followed by the text; the character of
the very last scan is still waiting. -/
theorem C103_computer_328 (A : Assembly) (ps : List Place) (h : (A, ps) ∈ boards328 classicPlaces solPlaces)
    (sockets : List (Nat × List (Nat × Signal))) (hA : (A, sockets) ∈ plugged328)
    (k : Nat) (lines : List (Nat × Signal)) (hk : (k, lines) ∈ sockets) (pin : Nat)
    (hpin : (pin, .strobe) ∈ lines) (sw : Nat → Sw → Bool) (W : C.Outside) (hS : SwitchWorld ps sw W)
    (hW : SafeWorld W) (b : Bool) (hb : ∀ t, sw t (.dip 7) = b) (r0 : Regs) (sr : UInt8)
    (polls w n : Nat) (hw : 65536 ≤ w) (hp : polls < w) (hn : 23 ≤ n) :
    ∃ times hi h log, BetweenLooks C.board328 W w n r0 sr polls times ∧ InOrder 0 hi times ∧ textRun C.board328 W w n r0 sr polls = some h ∧
      hi ≤ h.time ∧ h.found = times.length ∧ h.found ≤ h.ints ∧
      statesOf h = boardStates m328 r0 [.archInit] ++ log ∧
      ∀ pre more, readingsAt ps sw times = pre ++ more → ∀ kb, kb = Kb.after fourMaps openLayout pre →
        kb.last = 0xA0 → kb.keys = [] ∧ kb.msgs = [] →
        Tidy fourMaps openLayout kb.map ⟨kb.mods, none⟩ pre more →
        Brief fourMaps openLayout kb.map kb.rpt.delay pre more →
        (∀ u ∈ typist fourMaps openLayout kb.map kb.mods pre more, u.length ≤ 1) →
        ∀ edge v vs, AtSocket328 A k lines (boardAfter m328 r0 [.archInit]) v →
          Watches (AtSocket328 A k lines) log vs →
          computerReads lines edge v vs ++
              (typist fourMaps openLayout kb.map kb.mods pre more).getLast?.getD [] =
            (channel (typed fourMaps openLayout pre) (said fourMaps openLayout pre)).host.map Prod.snd ++
              (typist fourMaps openLayout kb.map kb.mods pre more).flatten := by
  obtain ⟨times, hi, hh, log, e0, e1, e2, e3, e4, e5, e6, e7⟩ := C90_computer_328 A ps h sockets hA k lines hk pin
    hpin sw W hS hW b hb r0 sr polls w n hw hp hn
  refine ⟨times, hi, hh, log, e0, e1, e2, e3, e4, e5, e6, ?_⟩
  intro pre more hpm kb hkb hlast hidle htidy hbrief hone edge v vs hv hvs
  obtain ⟨_, q2, q3⟩ := loose_text hkb hlast htidy hbrief hidle hone
  have q3 := congrArg (List.map Prod.snd) q3
  simp only [List.map_append, snd_keys] at q3
  rw [e7 edge v vs hv hvs, hpm, ← q2, ← q3]

/-- **C103, the text of the firmware with the ATmega2560.** -/
theorem C103_computer_2560 (A : Assembly) (ps : List Place) (h : (A, ps) ∈ boards2560 classicPlaces solPlaces)
    (out : Net → Prop) (hout : ∀ n, out n → Outside A n) (cols : (Sw → Bool) → Regs → UInt8)
    (hcols : ∀ closed r, rowReady2560 r →
      ReadsLevels A.links (column2560 A) closed (fun n => Low2560 A r n ∨ out n) (cols closed r))
    (sockets : List (Nat × List (Nat × Signal))) (hA : (A, sockets) ∈ plugged2560)
    (k : Nat) (lines : List (Nat × Signal)) (hk : (k, lines) ∈ sockets) (pin : Nat)
    (hpin : (pin, .strobe) ∈ lines) :
    ∃ f, (∀ closed r, rowReady2560 r → f (closedKeys ps closed) r = cols closed r) ∧
      ∀ (sw : Nat → Sw → Bool) (W : C.Outside), SwitchWorld ps sw W → SafeWorld W →
      ∀ b, (∀ t, sw t (.dip 7) = b) → ∀ (r0 : Regs) (sr : UInt8) (polls w n : Nat),
        65536 ≤ w → polls < w → 23 ≤ n →
        ∃ times hi h log, BetweenLooks (C.board2560 f) W w n r0 sr polls times ∧ InOrder 0 hi times ∧ textRun (C.board2560 f) W w n r0 sr polls = some h ∧
          hi ≤ h.time ∧ h.found = times.length ∧ h.found ≤ h.ints ∧
          statesOf h = boardStates m2560 r0 [.archInit] ++ log ∧
          ∀ pre more, readingsAt ps sw times = pre ++ more → ∀ kb, kb = Kb.after fourMaps openLayout pre →
            kb.last = 0xA0 → kb.keys = [] ∧ kb.msgs = [] →
            Tidy fourMaps openLayout kb.map ⟨kb.mods, none⟩ pre more →
            Brief fourMaps openLayout kb.map kb.rpt.delay pre more →
            (∀ u ∈ typist fourMaps openLayout kb.map kb.mods pre more, u.length ≤ 1) →
            ∀ edge v vs, AtSocket2560 A k lines (boardAfter m2560 r0 [.archInit]) v →
              Watches (AtSocket2560 A k lines) log vs →
              computerReads lines edge v vs ++
                  (typist fourMaps openLayout kb.map kb.mods pre more).getLast?.getD [] =
                (channel (typed fourMaps openLayout pre) (said fourMaps openLayout pre)).host.map Prod.snd ++
                  (typist fourMaps openLayout kb.map kb.mods pre more).flatten := by
  obtain ⟨f, hf, hrun⟩ := C90_computer_2560 A ps h out hout cols hcols sockets hA k lines hk pin hpin
  refine ⟨f, hf, fun sw W hS hW b hb r0 sr polls w n hw hp hn => ?_⟩
  obtain ⟨times, hi, hh, log, e0, e1, e2, e3, e4, e5, e6, e7⟩ := hrun sw W hS hW b hb r0 sr polls w n hw hp hn
  refine ⟨times, hi, hh, log, e0, e1, e2, e3, e4, e5, e6, ?_⟩
  intro pre more hpm kb hkb hlast hidle htidy hbrief hone edge v vs hv hvs
  obtain ⟨_, q2, q3⟩ := loose_text hkb hlast htidy hbrief hidle hone
  have q3 := congrArg (List.map Prod.snd) q3
  simp only [List.map_append, snd_keys] at q3
  rw [e7 edge v vs hv hvs, hpm, ← q2, ← q3]

end Asdf.Props
