import Verif.Lemmas.Switches
import Verif.Lemmas.Dip
import Verif.Props.Strobe
import Verif.Props.Selection

/-! # Properties C50 and C54: the strobe and autorepeat switches -/

namespace Asdf.Props

open Spec Avr

/-! ## C50 -/

/-- The claim of C50: between scans, the strobe rests low (positive polarity) if DIP
switch 6 is closed and high (negative polarity) if it is open. -/
def C50Statement : Prop :=
  ∀ s0 s inps, boot shipped = .ok s0 → run shipped s0 inps = .ok s →
    idleLevel s.dev.trace = some !(accepted s DIP_ROW 6)

/-- **C50 is false**: at power-up with the switch open, the polarity is positive, and
it stays so: nothing is done for a switch that does not move. -/
theorem C50_false : ¬ C50Statement := by
  intro h
  have := h (after []) (after []) [] (by decide +kernel) (by decide +kernel)
  exact absurd this (by decide +kernel)

/-- DIP switch 6 is closed, opened again, then DIP switch 0 is closed. -/
def strobeThenKeymap : List Input :=
  List.replicate 10 (closing 8 6) ++ List.replicate 10 noKeys ++ List.replicate 10 (closing 8 0)

/-- The other way C50 fails: negative polarity, selected by opening the switch, is lost
when another keymap is selected. -/
theorem C50_lost_at_switch :
    runsOk strobeThenKeymap = true ∧
    idleLevel (after (strobeThenKeymap.take 20)).dev.trace = some true ∧
    idleLevel (after strobeThenKeymap).dev.trace = some false ∧
    accepted (after strobeThenKeymap) DIP_ROW 6 = false := by decide +kernel

theorem shipped_strobe : placed shipped shippedLayout .strobeSelect [(8, 6)] = true ∧
    ∀ i ∈ shippedLayout.maps, SetupCmd.negStrobe ∉ shipped.setup i := by decide +kernel

theorem select_idle {L : Layout} {cfg : Config} {s s' : State} {i : UInt8}
    (hm : ∀ i ∈ L.maps, SetupCmd.negStrobe ∉ cfg.setup i)
    (hi : i ∈ L.maps ∨ cfg.valid i = false) (h : keymapsSelect cfg s i = .ok s') :
    idleLevel s'.dev.trace = idleLevel s.dev.trace ∨ idleLevel s'.dev.trace = some false := by
  unfold keymapsSelect at h
  split at h
  · by_cases hv : cfg.valid i = true
    · rcases hi with hi | hi
      · exact .inr (keymapsSwitch_idle hv (hm i hi) h)
      · rw [hv] at hi; cases hi
    · rw [keymapsSwitch_invalid hv] at h
      cases h
      exact .inl rfl
  · cases h
    exact .inl rfl

/-- **C50** (partial: keymaps 0-3, one direction).  After every history of key and
switch events, including keymap switches: negative polarity is only ever selected
while the switch is open, after it was closed before.  So a closed switch always
gives positive polarity. -/
theorem C50_negative_only_when_opened_partial (s : State) (log : List KeyEv)
    (h : History shipped shippedLayout s log) :
    idleLevel s.dev.trace = some false ∨ (idleLevel s.dev.trace = some true ∧
      accepted s DIP_ROW 6 = false ∧ log.any (KeyEv.releasesAt DIP_ROW 6) = true) := by
  have hcf := cfgFacts shipped_ok
  obtain ⟨hP, hN⟩ := shipped_strobe
  refine h.follow hcf (act := .strobeSelect) (k := (8, 6)) (by decide) hP (by decide)
    (fun s x w => idleLevel s.dev.trace = some false ∨
      (idleLevel s.dev.trace = some true ∧ x = false ∧ w = true)) ?_ ?_ ?_ ?_ ?_ ?_ ?_
  · intro s hb
    have : s = after [] := by
      unfold after
      rw [hb]
      rfl
    rw [this]
    exact .inl (by decide +kernel)
  · intro s s' x w ho _ hq
    rw [outputPhase_idle ho]
    exact hq
  · intro s s' x w hd _ _ hq
    rw [hd]
    exact hq
  · intro s s' a x w _ hidx hok hne ha hq
    by_cases hms : ∃ b, a = .mapsel b
    · obtain ⟨b, rfl⟩ := hms
      rcases select_idle hN (hok s.curIdx hidx).1
        (show keymapsSelect shipped s (s.curIdx ||| b) = .ok s' from ha) with e | e
      · rw [e]; exact hq
      · exact .inl e
    · rw [activateAction_idle hne (fun b hb => hms ⟨b, hb⟩) ha]
      exact hq
  · intro s s' a x w _ hidx hok hne ha hq
    by_cases hms : ∃ b, a = .mapsel b
    · obtain ⟨b, rfl⟩ := hms
      rcases select_idle hN (hok s.curIdx hidx).2
        (show keymapsSelect shipped s (s.curIdx &&& ~~~b) = .ok s' from ha) with e | e
      · rw [e]; exact hq
      · exact .inl e
    · rw [deactivateAction_idle hne (fun b hb => hms ⟨b, hb⟩) ha]
      exact hq
  · intro s s' x w _ _ ha _
    cases ha
    exact .inl (idleLevel_snoc _ _)
  · intro s s' x w _ _ ha _
    cases ha
    exact .inr ⟨idleLevel_snoc _ _, rfl, rfl⟩

/-- The first keymap only: DIP switches 0-2 stay open. -/
def oneKeymap : Layout :=
  { rows := 9, cols := 8, maps := [0], blocked := fun r c => r == 8 && decide (c < 3) }

theorem oneKeymap_ok : cfgOk shipped oneKeymap = true ∧
    placed shipped oneKeymap .strobeSelect [(8, 6)] = true := by decide +kernel

theorem select_stays {s s' : State} {i : UInt8} (hidx : s.curIdx ∈ oneKeymap.maps)
    (hi : i ∈ oneKeymap.maps ∨ shipped.valid i = false)
    (h : keymapsSelect shipped s i = .ok s') : s' = s := by
  have hidx : s.curIdx = 0 := by simpa [oneKeymap] using hidx
  unfold keymapsSelect at h
  split at h
  · next hne =>
    rcases hi with hi | hi
    · have hi : i = 0 := by simpa [oneKeymap] using hi
      rw [hidx, hi] at hne
      exact absurd rfl hne
    · rw [keymapsSwitch_invalid (by rw [hi]; decide)] at h
      cases h
      rfl
  · cases h
    rfl

/-- **C50** (partial: as long as the keymap is not changed), the exact rule: the
polarity is negative exactly if the switch is open and was closed at some time since
power-up. -/
theorem C50_exact_partial (s : State) (log : List KeyEv) (h : History shipped oneKeymap s log) :
    idleLevel s.dev.trace =
      some (!(accepted s DIP_ROW 6) && log.any (KeyEv.releasesAt DIP_ROW 6)) := by
  have hcf := cfgFacts oneKeymap_ok.1
  refine h.follow hcf (act := .strobeSelect) (k := (8, 6)) (by decide) oneKeymap_ok.2 (by decide)
    (fun s x w => idleLevel s.dev.trace = some (!x && w)) ?_ ?_ ?_ ?_ ?_ ?_ ?_
  · intro s hb
    have : s = after [] := by
      unfold after
      rw [hb]
      rfl
    rw [this]
    decide +kernel
  · intro s s' x w ho _ hq
    rw [outputPhase_idle ho]
    exact hq
  · intro s s' x w hd _ _ hq
    rw [hd]
    exact hq
  · intro s s' a x w _ hidx hok hne ha hq
    by_cases hms : ∃ b, a = .mapsel b
    · obtain ⟨b, rfl⟩ := hms
      rw [select_stays hidx (hok s.curIdx hidx).1
        (show keymapsSelect shipped s (s.curIdx ||| b) = .ok s' from ha)]
      exact hq
    · rw [activateAction_idle hne (fun b hb => hms ⟨b, hb⟩) ha]
      exact hq
  · intro s s' a x w _ hidx hok hne ha hq
    by_cases hms : ∃ b, a = .mapsel b
    · obtain ⟨b, rfl⟩ := hms
      rw [select_stays hidx (hok s.curIdx hidx).2
        (show keymapsSelect shipped s (s.curIdx &&& ~~~b) = .ok s' from ha)]
      exact hq
    · rw [deactivateAction_idle hne (fun b hb => hms ⟨b, hb⟩) ha]
      exact hq
  · intro s s' x w _ _ ha _
    cases ha
    exact idleLevel_snoc _ _
  · intro s s' x w _ _ ha _
    cases ha
    exact idleLevel_snoc _ _

/-- **C50 at the pin** (partial: keymaps 0-3, closed switch): on both boards, while the
switch is closed the strobe pin is an output and rests low. -/
theorem C50_closed_rests_low_partial (s : State) (log : List KeyEv)
    (h : History shipped shippedLayout s log) (hc : accepted s DIP_ROW 6 = true) (B : Board)
    (hB : B ∈ boards) (r : Regs) : drive (boardAfter B r s.dev.trace) B.strobe = .low := by
  rcases C50_negative_only_when_opened_partial s log h with h1 | ⟨_, h1, _⟩
  · obtain ⟨e1, e2⟩ := C43_idle_level B hB r _ _ h1
    unfold drive
    rw [e1, e2]
  · rw [hc] at h1; cases h1

/-- Non-vacuity: the switch closed with keymap 1 selected; the switch closed and
opened again. -/
example : (∃ log, History shipped shippedLayout
      (after (List.replicate 10 (fun i => if i = 8 then 0x41 else 0))) log) ∧
    accepted (after (List.replicate 10 (fun i => if i = 8 then 0x41 else 0))) DIP_ROW 6 = true ∧
    (after (List.replicate 10 (fun i => if i = 8 then 0x41 else 0))).curIdx = 1 := by
  have hr : Reachable shipped shippedLayout
      (after (List.replicate 10 (fun i => if i = 8 then 0x41 else 0))) :=
    after_reachable (by decide +kernel) (by
      intro inp hi
      rw [(List.mem_replicate.mp hi).2]
      exact allowed_dip (by decide))
  exact ⟨hr.history (cfgFacts shipped_ok), by decide +kernel, by decide +kernel⟩

example : ∃ log, History shipped oneKeymap
    (after (List.replicate 10 (closing 8 6) ++ List.replicate 10 noKeys)) log ∧
    idleLevel (after (List.replicate 10 (closing 8 6) ++ List.replicate 10 noKeys)).dev.trace =
      some true := by
  have hr : Reachable shipped oneKeymap
      (after (List.replicate 10 (closing 8 6) ++ List.replicate 10 noKeys)) :=
    after_reachable (by decide +kernel) (by
      intro inp hi
      intro r c _ _ hb
      simp only [oneKeymap, Bool.and_eq_true, beq_iff_eq, decide_eq_true_eq] at hb
      have hall : ∀ c, c < 3 → sample (closing 8 6) 8 c = false ∧ sample noKeys 8 c = false := by
        decide
      rw [hb.1]
      rcases List.mem_append.mp hi with hi | hi <;> rw [(List.mem_replicate.mp hi).2]
      · exact (hall c hb.2).1
      · exact (hall c hb.2).2)
  obtain ⟨log, hl⟩ := hr.history (cfgFacts oneKeymap_ok.1)
  exact ⟨log, hl, by decide +kernel⟩

/-! ## C54 -/

/-- The claim of C54: autorepeat (the mode in effect whenever REPEAT is not) is enabled
exactly while DIP switch 7 is closed. -/
def C54Statement : Prop :=
  ∀ s0 s inps, boot shipped = .ok s0 → run shipped s0 inps = .ok s →
    s.rep.base = if accepted s DIP_ROW 7 = true then REPEAT_AUTO else REPEAT_OFF

/-- **C54 is false**: with the switch open since power-up, autorepeat is enabled. -/
theorem C54_false : ¬ C54Statement := by
  intro h
  have := h (after []) (after []) [] (by decide +kernel) (by decide +kernel)
  exact absurd this (by decide +kernel)

theorem shipped_autorepeat :
    placed shipped shippedLayout .autorepeatSelect [(8, 7)] = true := by decide +kernel

theorem repActivate_base (x : RepState) : (repActivate x).base = x.base := by
  unfold repActivate
  split <;> rfl

/-- **C54** (partial: keymaps 0-3; the switch must have been closed once), the exact
rule: autorepeat is disabled exactly if the switch is open and was closed at some time
since power-up, whatever happened to REPEAT and the keymap selection meanwhile. -/
theorem C54_exact_partial (s : State) (log : List KeyEv)
    (h : History shipped shippedLayout s log) :
    s.rep.base = if accepted s DIP_ROW 7 = false ∧ log.any (KeyEv.releasesAt DIP_ROW 7) = true
      then REPEAT_OFF else REPEAT_AUTO := by
  have hcf := cfgFacts shipped_ok
  refine h.follow hcf (act := .autorepeatSelect) (k := (8, 7)) (by decide) shipped_autorepeat
    (by decide)
    (fun s x w => s.rep.base = if x = false ∧ w = true then REPEAT_OFF else REPEAT_AUTO)
    ?_ ?_ ?_ ?_ ?_ ?_ ?_
  · intro s hb
    have : s = after [] := by
      unfold after
      rw [hb]
      rfl
    rw [this]
    decide +kernel
  · intro s s' x w _ hr hq
    rw [hr]
    exact hq
  · intro s s' x w _ _ hr hq
    rw [hr]
    exact hq
  · intro s s' a x w hm _ _ hne ha hq
    rw [(activateAction_parts hm ha).2.2.1]
    cases a <;> first
      | exact hq
      | exact absurd rfl hne
      | (rw [show repPress s.rep .repeat = repActivate s.rep from rfl, repActivate_base]; exact hq)
  · intro s s' a x w hm _ _ hne ha hq
    rw [(deactivateAction_parts hm ha).2.2.1]
    cases a <;> first
      | exact hq
      | exact absurd rfl hne
  · intro s s' x w _ _ ha _
    cases ha
    dsimp only
    unfold repAutoOn
    cases w <;> split <;> rfl
  · intro s s' x w _ _ ha _
    cases ha
    dsimp only
    unfold repAutoOff
    split <;> rfl

/-- **C54**, the closed switch: autorepeat is enabled. -/
theorem C54_closed_enabled_partial (s : State) (log : List KeyEv)
    (h : History shipped shippedLayout s log) (hc : accepted s DIP_ROW 7 = true) :
    s.rep.base = REPEAT_AUTO := by
  rw [C54_exact_partial s log h, hc, if_neg (fun h => by cases h.1)]

/-- Non-vacuity: the switch closed, then opened. -/
example : ∃ log, History shipped shippedLayout
    (after (List.replicate 10 (closing 8 7) ++ List.replicate 10 noKeys)) log ∧
    (after (List.replicate 10 (closing 8 7) ++ List.replicate 10 noKeys)).rep.base = REPEAT_OFF := by
  have hr : Reachable shipped shippedLayout
      (after (List.replicate 10 (closing 8 7) ++ List.replicate 10 noKeys)) :=
    after_reachable (by decide +kernel) (by
      intro inp hi
      rcases List.mem_append.mp hi with hi | hi <;> rw [(List.mem_replicate.mp hi).2] <;>
        exact allowed_dip (by decide))
  obtain ⟨log, hl⟩ := hr.history (cfgFacts shipped_ok)
  exact ⟨log, hl, by decide +kernel⟩

end Asdf.Props
