import Verif.Spec.Select
import Verif.Lemmas.Pins
import Verif.Props.Leds
import Verif.Props.Dips

/-! # Property C112: exactly what selecting a keymap does to the output pins -/

namespace Asdf.Props

open Spec Avr

theorem setup_trace (cmds : List SetupCmd) {s : State} {a : Outputs} {free} (hm : s.maps.length = 4)
    (hh : s.hooks.length = 16) (hd : DevRel s.dev a free) :
    ∃ t, cmds.foldlM runCmd s = .ok t ∧ t.mods.caps = capsOf s.mods.caps cmds ∧
      t.dev.trace = s.dev.trace ++ setupEvents (s.mods.caps, a) cmds := by
  induction cmds generalizing s a free with
  | nil => exact ⟨s, rfl, rfl, (List.append_nil _).symm⟩
  | cons c cmds ih =>
    have step : ∃ t f, runCmd s c = .ok t ∧ t.maps.length = 4 ∧ t.hooks.length = 16 ∧
        DevRel t.dev (outsStep (s.mods.caps, a) c).2 f ∧ t.mods.caps = capsOf s.mods.caps [c] ∧
        (outsStep (s.mods.caps, a) c).1 = capsOf s.mods.caps [c] ∧
        t.dev.trace ++ setupEvents (outsStep (s.mods.caps, a) c) cmds =
          s.dev.trace ++ setupEvents (s.mods.caps, a) (c :: cmds) := by
      obtain ⟨d1, f1, h1, h2, h3⟩ := runCmd_ok hm hh hd c
      refine ⟨_, f1, h1, (mapsStep_length _ _).trans hm, (hooksStep_length _ _).trans hh, h2, rfl, h3, ?_⟩
      show d1.trace ++ _ = _
      cases c with
      | capsActivate =>
        obtain ⟨d', e1, e2, -⟩ := setCapsState_ok hd (s.mods.caps ^^^ 1)
        have e3 : d1 = d' := by
          have := h1.symm.trans e1
          injection this with this
          injection this
        rw [e3, e2, List.append_assoc]
        by_cases hx : s.mods.caps ^^^ 1 ≠ 0 <;> simp [setupEvents, b2u, hx]
      | vassign v p fn i =>
        have e3 : d1.trace = s.dev.trace := by
          by_cases hc : a.CanAssign v p
          · obtain ⟨d', g1, g2, -⟩ := hd.assign hc (fn := fn) (i := i)
            simp only [runCmd, g1, ok_bind] at h1
            injection h1 with h1
            injection h1 with _ _ _ h1
            rw [← h1, g2]
          · simp only [runCmd, hd.assign_no hc, ok_bind] at h1
            injection h1 with h1
            injection h1 with _ _ _ h1
            rw [← h1]
        rw [e3]
        rfl
      | negStrobe =>
        have e3 : s.dev.emit .negStrobe = d1 := by
          injection h1 with h1
          injection h1
        rw [← e3]
        show s.dev.trace ++ [Event.negStrobe] ++ _ = _
        rw [List.append_assoc]
        rfl
      | printDelay ms =>
        have e3 : s.dev = d1 := by injection h1 with h1; injection h1
        rw [← e3]; rfl
      | addMap m i r c =>
        have e3 : d1 = s.dev := (addMap_parts (show addMap s (some m) i r c = _ from h1)).1
        rw [e3]; rfl
      | hook id f =>
        simp only [runCmd, hookAssign_ok hh, ok_bind] at h1
        have e3 : s.dev = d1 := by injection h1 with h1; injection h1
        rw [← e3]; rfl
    obtain ⟨t, f, s1, s2, s3, s4, s5, s6, s7⟩ := step
    obtain ⟨u, u1, u2, u3⟩ := ih s2 s3 s4
    refine ⟨u, ?_, ?_, ?_⟩
    · rw [List.foldlM_cons, s1, ok_bind, u1]
    · rw [u2, s5]; rfl
    · rw [u3, ← s7, s5, ← s6]

/-- **C112, the events, every keymap list.**  Selecting a keymap, from any state, initialises the board
and then gives exactly the events of its setup function. -/
theorem C112_select (cfg : Config) (s : State) (hm : s.maps.length = 4) (i : UInt8) (hv : cfg.valid i = true) :
    ∃ t, keymapsSwitch cfg s i = .ok t ∧ t.mods.caps = capsOf s.mods.caps (cfg.setup i) ∧
      t.dev.trace = s.dev.trace ++ .archInit :: setupEvents (s.mods.caps, Outputs.initial) (cfg.setup i) := by
  unfold keymapsSwitch
  rw [if_pos hv]
  have hr := keymapsReset_ok (s := ({ s with curIdx := i } : State).emit .archInit) hm
  simp only [hr, ok_bind]
  obtain ⟨t, h1, h2, h3⟩ := setup_trace (cfg.setup i)
    (s := { (({ s with curIdx := i } : State).emit .archInit) with
      maps := List.replicate 4 ⟨none, 0, 0⟩,
      dev := virtInit (({ s with curIdx := i } : State).emit .archInit).dev, hooks := hookInit [] })
    (a := Outputs.initial) (by simp) (by rfl) (DevRel.init _)
  refine ⟨t, h1, h2, h3.trans ?_⟩
  show s.dev.trace ++ [Event.archInit] ++ _ = _
  rw [List.append_assoc]
  rfl

/-- The memory before power-up, but with caps lock as given. -/
def capsState (caps : UInt8) : State := { State.zero with mods := { State.zero.mods with caps := caps } }

theorem shipped_events : ∀ i ∈ shippedNumbers, ∀ caps ∈ ([0, 1] : List UInt8),
    setupEvents (caps, Outputs.initial) (shipped.setup i) = (selectEvents i (caps != 0)).tail := by
  intro i hi caps hc
  have h1 : ∀ i ∈ shippedNumbers, ∀ caps ∈ ([0, 1] : List UInt8), shipped.valid i = true ∧
      (keymapsSwitch shipped (capsState caps) i).map (fun t => t.dev.trace) = .ok (selectEvents i (caps != 0)) := by
    decide +kernel
  obtain ⟨h2, h3⟩ := h1 i hi caps hc
  obtain ⟨t, t1, -, t3⟩ := C112_select shipped (capsState caps) rfl i h2
  rw [t1] at h3
  have h3 : t.dev.trace = selectEvents i (caps != 0) := Except.ok.inj h3
  rw [← h3, t3]
  rfl

/-- **C112, the events, shipped keymaps.**  Selecting a shipped keymap, from any state, gives exactly the
hardware events of `selectEvents`, and turns caps lock over exactly if these switch its lamp. -/
theorem C112_events (s : State) (hm : s.maps.length = 4) (hc : s.mods.caps = 0 ∨ s.mods.caps = 1)
    (i : UInt8) (hi : i ∈ shippedNumbers) :
    ∃ t, keymapsSwitch shipped s i = .ok t ∧
      t.dev.trace = s.dev.trace ++ selectEvents i (s.mods.caps != 0) ∧
      ((t.mods.caps != 0) = ((s.mods.caps != 0) != (capsLamp i).isSome)) := by
  have hc' : s.mods.caps ∈ ([0, 1] : List UInt8) := by rcases hc with e | e <;> rw [e] <;> decide
  have hf : ∀ i ∈ shippedNumbers, ∀ caps ∈ ([0, 1] : List UInt8), shipped.valid i = true ∧
      (capsOf caps (shipped.setup i) != 0) = ((caps != 0) != (capsLamp i).isSome) := by decide +kernel
  obtain ⟨f1, f2⟩ := hf i hi _ hc'
  obtain ⟨t, t1, t2, t3⟩ := C112_select shipped s hm i f1
  refine ⟨t, t1, ?_, by rw [t2, f2]⟩
  rw [t3, shipped_events i hi _ hc']
  rfl

/-- **C112, outputs.**  At every moment of the selection the three outputs have the level and the
direction they had before. -/
theorem C112_outputs (B : Board) (hB : B ∈ boards) (i : UInt8) (hi : i ∈ shippedNumbers) (caps : Bool)
    (r r' : Regs) (hr : r' ∈ boardStates B r (selectEvents i caps)) (p : Pin) (hp : p ∈ [B.out1, B.out2, B.out3]) :
    level r' p = level r p ∧ isOutput r' p = isOutput r p := by
  have h : ∀ B ∈ boards, ∀ i ∈ shippedNumbers, ∀ caps, ∀ p ∈ [B.out1, B.out2, B.out3],
      p.bit < 8 ∧ ((selectEvents i caps).flatMap B.opsOf).all (leaves p) = true := by decide +kernel
  obtain ⟨h1, h2⟩ := h B hB i hi caps p hp
  have := pin_unchanged (fun op ho => leaves_iff (List.all_eq_true.mp h2 op ho)) (pinSt r p) _
    (mem_states_pin hr p h1)
  exact ⟨congrArg Prod.fst this, congrArg Prod.snd this⟩

/-- A fact on the end of the selection that holds for all states of a pin. -/
theorem select_end {B : Board} {i : UInt8} {caps : Bool} {p : Pin} (hp : p.bit < 8)
    (P : PinSt → PinSt → Prop)
    (h : ∀ a b : Bool, P (a, b) (((selectEvents i caps).flatMap B.opsOf).foldl (pinStep p) (a, b)))
    (r : Regs) : P (pinSt r p) (pinSt (boardAfter B r (selectEvents i caps)) p) := by
  rw [boardAfter, exec_pin _ p hp]
  exact h _ _

/-- **C112, lamps.**  Afterwards every lamp is driven.  The caps-lock lamp of a keymap whose selection
moves caps lock is lit exactly if caps lock is on now; the other lamps have the level they had. -/
theorem C112_lamps (B : Board) (hB : B ∈ boards) (i : UInt8) (hi : i ∈ shippedNumbers) (caps : Bool)
    (r : Regs) (d : Nat) (hd : d ∈ lamps3) :
    isOutput (boardAfter B r (selectEvents i caps)) (ledPin B d) = true ∧
    level (boardAfter B r (selectEvents i caps)) (ledPin B d) =
      if capsLamp i = some d then (litLevel B d == !caps) else level r (ledPin B d) := by
  have h : ∀ B ∈ boards, ∀ i ∈ shippedNumbers, ∀ caps, ∀ d ∈ lamps3, (ledPin B d).bit < 8 ∧
      ∀ a b : Bool, ((selectEvents i caps).flatMap B.opsOf).foldl (pinStep (ledPin B d)) (a, b) =
        (if capsLamp i = some d then (litLevel B d == !caps) else a, true) := by decide +kernel
  obtain ⟨h1, h2⟩ := h B hB i hi caps d hd
  have := select_end (B := B) (i := i) (caps := caps) h1
    (fun x y => y = (if capsLamp i = some d then (litLevel B d == !caps) else x.1, true)) h2 r
  exact ⟨congrArg Prod.snd this, congrArg Prod.fst this⟩

/-- **C112, the lines to the host.**  Afterwards the data lines are outputs and carry 0, and the strobe
is an output at its rest level: low, with keymap 4 high. -/
theorem C112_lines (B : Board) (hB : B ∈ boards) (i : UInt8) (hi : i ∈ shippedNumbers) (caps : Bool)
    (r : Regs) :
    (∀ p ∈ pinsOf B.data, drive (boardAfter B r (selectEvents i caps)) p = .low) ∧
    drive (boardAfter B r (selectEvents i caps)) B.strobe = (if i = 4 then .high else .low) := by
  have h : ∀ B ∈ boards, ∀ i ∈ shippedNumbers, ∀ caps, ∀ p ∈ B.strobe :: pinsOf B.data, p.bit < 8 ∧
      ∀ a b : Bool, ((selectEvents i caps).flatMap B.opsOf).foldl (pinStep p) (a, b) =
        (decide (p = B.strobe ∧ i = 4), true) := by decide +kernel
  have key : ∀ p ∈ B.strobe :: pinsOf B.data,
      drive (boardAfter B r (selectEvents i caps)) p = if p = B.strobe ∧ i = 4 then .high else .low := by
    intro p hp
    obtain ⟨h1, h2⟩ := h B hB i hi caps p hp
    have := select_end (B := B) (i := i) (caps := caps) h1
      (fun _ y => y = (decide (p = B.strobe ∧ i = 4), true)) h2 r
    unfold drive
    rw [show isOutput (boardAfter B r (selectEvents i caps)) p = true from congrArg Prod.snd this,
      show level (boardAfter B r (selectEvents i caps)) p = _ from congrArg Prod.fst this]
    by_cases hx : p = B.strobe ∧ i = 4 <;> simp [hx]
  constructor
  · intro p hp
    have := key p (List.mem_cons_of_mem _ hp)
    have hne : ∀ B ∈ boards, ∀ p ∈ pinsOf B.data, p ≠ B.strobe := by decide
    rw [this, if_neg fun x => hne B hB p hp x.1]
  · have := key B.strobe (List.mem_cons_self ..)
    rw [this]
    by_cases hx : i = 4 <;> simp [hx]

/-- **C112, in every safe run.**  The hypotheses of `C112_events` hold after every safe run from
power-up: whenever a shipped keymap is selected then, the events are those of `selectEvents`. -/
theorem C112_safe (inps : List Input) (h : NeverTrips inps) (i : UInt8) (hi : i ∈ shippedNumbers) :
    ∃ s t, powerUp shipped inps = .ok s ∧ keymapsSwitch shipped s i = .ok t ∧
      t.dev.trace = s.dev.trace ++ selectEvents i (s.mods.caps != 0) := by
  obtain ⟨s, s1, s2⟩ := safe_shows inps h
  obtain ⟨free, hw⟩ := s2.wf
  obtain ⟨t, t1, t2, -⟩ := C112_events s (by rw [hw.maps]; exact mapsOf_length _) (by
    rw [s2.caps]
    cases (Kb.after fourMaps openLayout inps).caps
    · exact .inl rfl
    · exact .inr rfl) i hi
  exact ⟨s, t, s1, t1, t2⟩

/-- Non-vacuity: with keymap 2 the selection switches the caps-lock lamp, and with keymap 0 nothing but
the initialisation happens. -/
example : selectEvents 2 false = [.archInit, .out PHYSICAL_LED1 1] ∧
    selectEvents 2 true = [.archInit, .out PHYSICAL_LED1 0] ∧ selectEvents 0 true = [.archInit] := by decide

end Asdf.Props
