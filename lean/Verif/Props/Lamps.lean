import Verif.Lemmas.Lamps
import Verif.Props.Whole
import Verif.Props.Leds
import Verif.Props.Build

/-! # Property C60: the lamps -/

namespace Asdf.Props

open Avr Spec

theorem led_pin {B : Board} (hB : B ∈ boards) {dev : Nat} (hd : dev ∈ leds) {p : Pin}
    (hp : p ∈ pinOfDev B dev) : p.bit < 8 ∧ p ∉ rowPins B := by
  have key : ∀ B ∈ boards, ∀ dev ∈ leds, ∀ p ∈ pinOfDev B dev, p.bit < 8 ∧ p ∉ rowPins B := by decide
  exact key B hB dev hd p hp

/-- **C60, a lamp shows the last value.**  On both boards, from any register contents
at power-up, through any behaviour of the key contacts: the pin of an LED that was ever
switched is in the state that lights the LED if the last value was not 0, and in the
state that puts it out if it was 0, whatever happened since. -/
theorem C60_lamp (B : Board) (T : Whole.Target) (hB : Built B T) (cfg : Config) (L : Layout)
    (hc : cfgOk cfg L = true) (r0 : Regs) (mxs : List (Nat → Whole.Contacts))
    (hin : ∀ mx ∈ mxs, Allowed L (contactsRead mx)) (w : Whole.Whole)
    (hw : Whole.life T cfg r0 mxs = .ok w) (dev : Nat)
    (hd : dev ∈ [PHYSICAL_LED1, PHYSICAL_LED2, PHYSICAL_LED3]) (p : Pin) (hp : p ∈ pinOfDev B dev)
    (v : UInt8) (hv : shown w.fw.dev.trace dev = some v) :
    meant B dev (v ≠ 0) = some (drive w.regs p) := by
  obtain ⟨ready, hf⟩ := hB.onBoard
  obtain ⟨hbit, hrow⟩ := led_pin hf.mem hd hp
  obtain ⟨h1, h2⟩ := C59_pins B T hB cfg L hc r0 mxs hin w hw p hbit hrow
  obtain ⟨k1, k2, _⟩ := lamp_after hf.mem hd hp w.fw.dev.trace r0
  rw [k2 v hv, drive_eq]
  have : pinSt w.regs p = (level (boardAfter B r0 w.fw.dev.trace) p, true) :=
    Prod.ext h1 (h2.trans (k1 (whole_init hf (cfgFacts hc) r0 mxs hin hw)))
  rw [this]

/-- **C60, a lamp never switched.**  Its pin is an output at the level that the
register had at power-up. -/
theorem C60_never_switched (B : Board) (T : Whole.Target) (hB : Built B T) (cfg : Config) (L : Layout)
    (hc : cfgOk cfg L = true) (r0 : Regs) (mxs : List (Nat → Whole.Contacts))
    (hin : ∀ mx ∈ mxs, Allowed L (contactsRead mx)) (w : Whole.Whole)
    (hw : Whole.life T cfg r0 mxs = .ok w) (dev : Nat)
    (hd : dev ∈ [PHYSICAL_LED1, PHYSICAL_LED2, PHYSICAL_LED3]) (p : Pin) (hp : p ∈ pinOfDev B dev)
    (hv : shown w.fw.dev.trace dev = none) :
    drive w.regs p = (if level r0 p then .high else .low) := by
  obtain ⟨ready, hf⟩ := hB.onBoard
  obtain ⟨hbit, hrow⟩ := led_pin hf.mem hd hp
  obtain ⟨h1, h2⟩ := C59_pins B T hB cfg L hc r0 mxs hin w hw p hbit hrow
  obtain ⟨k1, _, k3⟩ := lamp_after hf.mem hd hp w.fw.dev.trace r0
  have : pinSt w.regs p = (level r0 p, true) :=
    Prod.ext (h1.trans (k3 hv)) (h2.trans (k1 (whole_init hf (cfgFacts hc) r0 mxs hin hw)))
  rw [drive_eq, this]
  cases level r0 p <;> rfl

/-- The claim of C60, for the shipped firmware on either board, after a reset: the
caps-lock lamp is lit exactly when caps lock is on. -/
def C60Statement : Prop :=
  ∀ B T, Built B T → ∀ mxs : List (Nat → Whole.Contacts),
    (∀ mx ∈ mxs, Allowed shippedLayout (contactsRead mx)) →
    ∀ w, Whole.life T shipped allZero mxs = .ok w →
    ∀ l, outputsOf w.fw.dev VCAPS_LED = some l → ∀ dev ∈ l, ∀ p ∈ pinOfDev B dev,
      meant B dev (w.fw.mods.caps ≠ 0) = some (drive w.regs p)

/-- The ATmega2560 keyboard after a reset. -/
def afterReset : Whole.Whole :=
  match Whole.powerUp (Whole.target2560 exampleColumns) shipped allZero with
  | .ok w => w
  | .error _ => ⟨State.zero, allZero, []⟩

/-- **C60 is false**: on the ATmega2560 board the caps-lock lamp is lit after a reset,
although caps lock is off: the reset leaves the pin low, a low pin lights the lamp,
and nothing switches it. -/
theorem C60_false : ¬ C60Statement := by
  intro h
  have hw : Whole.life (Whole.target2560 exampleColumns) shipped allZero [] = .ok afterReset := by
    obtain ⟨ready, hf⟩ := Spec.Built.onBoard (B := m2560) (T := Whole.target2560 exampleColumns)
      (.inr ⟨rfl, _, C42_matrix_exists, rfl⟩)
    obtain ⟨w, a, _⟩ := whole_powerUp hf (cfgFacts shipped_ok) allZero
    have : afterReset = w := by
      unfold afterReset
      rw [a]
    unfold Whole.life
    rw [a, ok_bind, this]
    rfl
  have := h m2560 (Whole.target2560 exampleColumns) (.inr ⟨rfl, _, C42_matrix_exists, rfl⟩) []
    (fun _ hx => by cases hx) afterReset hw [PHYSICAL_LED3] (by decide +kernel)
    PHYSICAL_LED3 (by decide) m2560.led3 (by decide)
  exact absurd this (by decide +kernel)

/-- The state of this witness. -/
theorem C60_witness : afterReset.fw.mods.caps = 0 ∧ drive afterReset.regs m2560.led3 = .low ∧
    meant m2560 PHYSICAL_LED3 true = some .low := by decide +kernel

/-- **C60** (partial: only once the lamp was switched since the keymap was selected, or
the keymap's setup switches it).  The caps-lock lamp is lit exactly when caps lock is
on. -/
theorem C60_caps_partial (B : Board) (T : Whole.Target) (hB : Built B T) (cfg : Config) (L : Layout)
    (hc : cfgOk cfg L = true) (r0 : Regs) (mxs : List (Nat → Whole.Contacts))
    (hin : ∀ mx ∈ mxs, Allowed L (contactsRead mx)) (w : Whole.Whole)
    (hw : Whole.life T cfg r0 mxs = .ok w) (l : List Nat)
    (hl : outputsOf w.fw.dev VCAPS_LED = some l) (dev : Nat) (hdl : dev ∈ l)
    (hd : dev ∈ [PHYSICAL_LED1, PHYSICAL_LED2, PHYSICAL_LED3]) (p : Pin) (hp : p ∈ pinOfDev B dev)
    (hsw : lastOut w.fw.dev.trace dev ≠ none ∨ drivesCaps (cfg.setup w.fw.curIdx) = true) :
    meant B dev (w.fw.mods.caps ≠ 0) = some (drive w.regs p) := by
  obtain ⟨ready, hf⟩ := hB.onBoard
  have hcf := cfgFacts hc
  obtain ⟨w', e1, e2, _, _⟩ := whole_life hf hcf r0 mxs hin
  rw [hw] at e1
  have hs := Except.ok.inj e1
  subst hs
  obtain ⟨s0, a1, a2⟩ := bind_eq_ok.mp e2
  have h0 := (hcf.parts hcf.zero).2.1
  have hv : shown w.fw.dev.trace dev = some (if w.fw.mods.caps ≠ 0 then 1 else 0) := by
    rcases hsw with hsw | hsw
    · rcases C26_led_shows_caps_partial cfg h0 s0 w.fw _ a1 a2 l hl dev hdl with h | h
      · exact h
      · exact absurd h hsw
    · exact C26_always_partial cfg h0 s0 w.fw _ a1 a2 hsw l hl dev hdl
  have := C60_lamp B T hB cfg L hc r0 mxs hin w hw dev hd p hp _ hv
  rw [← this]
  congr 1
  by_cases hcap : w.fw.mods.caps = 0
  · rw [hcap]; rfl
  · rw [if_pos hcap, decide_eq_true hcap]; rfl

/-- The same for the shift-lock lamp. -/
theorem C60_shiftlock_partial (B : Board) (T : Whole.Target) (hB : Built B T) (cfg : Config)
    (L : Layout) (hc : cfgOk cfg L = true) (r0 : Regs) (mxs : List (Nat → Whole.Contacts))
    (hin : ∀ mx ∈ mxs, Allowed L (contactsRead mx)) (w : Whole.Whole)
    (hw : Whole.life T cfg r0 mxs = .ok w) (l : List Nat)
    (hl : outputsOf w.fw.dev VSHIFT_LED = some l) (dev : Nat) (hdl : dev ∈ l)
    (hd : dev ∈ [PHYSICAL_LED1, PHYSICAL_LED2, PHYSICAL_LED3]) (p : Pin) (hp : p ∈ pinOfDev B dev)
    (hsw : lastOut w.fw.dev.trace dev ≠ none) :
    meant B dev (w.fw.mods.shift &&& 2 ≠ 0) = some (drive w.regs p) := by
  obtain ⟨ready, hf⟩ := hB.onBoard
  have hcf := cfgFacts hc
  obtain ⟨w', e1, e2, _, _⟩ := whole_life hf hcf r0 mxs hin
  rw [hw] at e1
  have hs := Except.ok.inj e1
  subst hs
  obtain ⟨s0, a1, a2⟩ := bind_eq_ok.mp e2
  have h0 := (hcf.parts hcf.zero).2.1
  have hv : shown w.fw.dev.trace dev = some (if w.fw.mods.shift &&& 2 ≠ 0 then 1 else 0) := by
    rcases C26_shift_led_partial cfg h0 s0 w.fw _ a1 a2 l hl dev hdl with h | h
    · exact h
    · exact absurd h hsw
  have := C60_lamp B T hB cfg L hc r0 mxs hin w hw dev hd p hp _ hv
  rw [← this]
  congr 1
  by_cases hcap : w.fw.mods.shift &&& 2 = 0
  · rw [hcap]; rfl
  · rw [if_pos hcap, decide_eq_true hcap]; rfl

/-- Contacts for the example: the CAPS key of the first keymap is closed. -/
def contactsCaps : Nat → Whole.Contacts := fun _ => ⟨closing 5 2, 0, 0⟩

/-- Non-vacuity: after a reset CAPS is pressed; the lamp was switched, is on the
caps-lock output, and is lit on both boards. -/
example : (∀ mx ∈ List.replicate 10 contactsCaps, Allowed shippedLayout (contactsRead mx)) ∧
    ∀ x ∈ [(m328, Whole.target328), (m2560, Whole.target2560 exampleColumns)],
    (match Whole.life x.2 shipped allZero (List.replicate 10 contactsCaps) with
    | .ok w => decide (outputsOf w.fw.dev VCAPS_LED = some [PHYSICAL_LED3] ∧
        lastOut w.fw.dev.trace PHYSICAL_LED3 ≠ none ∧ w.fw.mods.caps = 1 ∧
        meant x.1 PHYSICAL_LED3 true = some (drive w.regs x.1.led3))
    | .error _ => false) = true := by
  refine ⟨?_, by decide +kernel⟩
  intro mx hm
  rw [(List.mem_replicate.mp hm).2]
  exact allowed_of_row8 rfl

/-- Contacts for the example: the SHIFT LOCK key of the Sol keymap is closed. -/
def contactsShiftLock : Nat → Whole.Contacts := fun _ => ⟨closing 0 1, 0, 0⟩

/-- Non-vacuity of the shift-lock part: a Sol keyboard, SHIFT LOCK pressed; the lamp is
lit on both boards. -/
example : cfgOk (buildOf [(0, solSetup)]) (layoutOf 13 8 [(0, solSetup)]) = true ∧
    ∀ x ∈ [(m328, Whole.target328), (m2560, Whole.target2560 exampleColumns)],
    (match Whole.life x.2 (buildOf [(0, solSetup)]) allZero (List.replicate 10 contactsShiftLock) with
    | .ok w => decide (outputsOf w.fw.dev VSHIFT_LED = some [PHYSICAL_LED3] ∧
        lastOut w.fw.dev.trace PHYSICAL_LED3 ≠ none ∧ w.fw.mods.shift &&& 2 ≠ 0 ∧
        meant x.1 PHYSICAL_LED3 true = some (drive w.regs x.1.led3))
    | .error _ => false) = true :=
  ⟨build_ok ⟨by decide, by decide⟩ ⟨by decide, by decide⟩ (by decide +kernel), by decide +kernel⟩

end Asdf.Props
