import Verif.Model.Device

/-! # `Arch/asdf_arch_test.c`: the simulated board of the unit tests

Line numbers without a file name refer to this file. -/

namespace Asdf.TestArch

/-- `pulse_state_t` (asdf_arch_test.h:37-54), without the marker 9 and the two error
codes that occur nowhere (11, 14). -/
inductive PulseSt where
  | initial | stableLow | stableHigh | transLow | transHigh | delayLow | delayHigh
  | highDetected | lowDetected
  | errDoubleDelay | errNoTransBefore | errNoTransAfter | errFromInitial
  deriving DecidableEq, Repr

/-- `pulse_event_t` (lines 42-47). -/
inductive PulseEv where
  | hi | lo | delay
  deriving DecidableEq, Repr

/-- `pulse_transition_table` (lines 49-105) and `pulse_detect` (lines 189-198): an
error state is never left. -/
def pulseDetect : PulseSt → PulseEv → PulseSt
  | .initial, .hi => .stableHigh
  | .initial, .lo => .stableLow
  | .initial, .delay => .errFromInitial
  | .stableLow, .hi => .transHigh
  | .stableLow, .lo => .stableLow
  | .stableLow, .delay => .errNoTransBefore
  | .stableHigh, .hi => .stableHigh
  | .stableHigh, .lo => .transLow
  | .stableHigh, .delay => .errNoTransBefore
  | .transLow, .hi => .transHigh
  | .transLow, .lo => .stableLow
  | .transLow, .delay => .delayLow
  | .transHigh, .hi => .stableHigh
  | .transHigh, .lo => .transLow
  | .transHigh, .delay => .delayHigh
  | .delayLow, .hi => .lowDetected
  | .delayLow, .lo => .errNoTransAfter
  | .delayLow, .delay => .errDoubleDelay
  | .delayHigh, .hi => .errNoTransAfter
  | .delayHigh, .lo => .highDetected
  | .delayHigh, .delay => .errDoubleDelay
  | .highDetected, .hi => .transHigh
  | .highDetected, .lo => .stableLow
  | .highDetected, .delay => .errNoTransBefore
  | .lowDetected, .hi => .stableHigh
  | .lowDetected, .lo => .transLow
  | .lowDetected, .delay => .errNoTransBefore
  | s, _ => s

/-- The static variables (lines 107-113). -/
structure Board where
  outputs : Nat → UInt8
  pulses : Nat → PulseSt
  codeReg : Code
  codeSent : Bool

/-- `set_output` (lines 217-223). -/
def setOutput (b : Board) (dev : Nat) (v : UInt8) : Board :=
  { b with
    outputs := fun d => if d = dev then v else b.outputs d
    pulses := fun d =>
      if d = dev then pulseDetect (b.pulses d) (if v ≠ 0 then .hi else .lo) else b.pulses d }

/-- The output a handler of `physical_device_table` (asdf_physical.c:50-64) sets: all
open outputs set `PHYSICAL_OUT1_OPEN_HI` (lines 239-464). -/
def route (dev : Nat) : Nat :=
  if dev = PHYSICAL_OUT1_OPEN_LO ∨ dev = PHYSICAL_OUT2_OPEN_HI ∨ dev = PHYSICAL_OUT2_OPEN_LO ∨
    dev = PHYSICAL_OUT3_OPEN_HI ∨ dev = PHYSICAL_OUT3_OPEN_LO then PHYSICAL_OUT1_OPEN_HI
  else dev

/-- `asdf_arch_pulse_delay` (lines 519-524): the detectors of all outputs see the delay. -/
def pulseDelay (b : Board) : Board :=
  { b with pulses := fun d => if d < NUM_PHYS then pulseDetect (b.pulses d) .delay else b.pulses d }

/-- `asdf_arch_init` (lines 609-618). -/
def archInit (b : Board) : Board :=
  { b with
    outputs := fun d => if d < NUM_PHYS then 0 else b.outputs d
    pulses := fun d => if d < NUM_PHYS then .initial else b.pulses d
    codeSent := false }

/-- The hardware events of the portable part: the delays (lines 541, 558, 578) are all
one `pulse_delay`, the strobe settings (lines 588, 594) do nothing, sending (lines
129-133) stores the code. -/
def onEvent (b : Board) : Event → Board
  | .out dev v => setOutput b (route dev) v
  | .delayShort => pulseDelay b
  | .delayLong => pulseDelay b
  | .delayMs _ => pulseDelay b
  | .posStrobe => b
  | .negStrobe => b
  | .archInit => archInit b
  | .send code => { b with codeReg := code, codeSent := true }

/-- A sequence of hardware events. -/
def onEvents (b : Board) (t : List Event) : Board := t.foldl onEvent b

/-- `asdf_arch_check_output` (lines 480-483). -/
def checkOutput (b : Board) (dev : Nat) : Res UInt8 :=
  if dev < NUM_PHYS then .ok (b.outputs dev) else .error .oob

/-- `asdf_arch_check_pulse` (lines 499-502). -/
def checkPulse (b : Board) (dev : Nat) : Res PulseSt :=
  if dev < NUM_PHYS then .ok (b.pulses dev) else .error .oob

/-- `asdf_arch_get_sent_code` (lines 149-153). -/
def getSentCode (b : Board) : Code × Board := (b.codeReg, { b with codeSent := false })

/-- `asdf_arch_was_code_sent` (lines 168-170). -/
def wasCodeSent (b : Board) : Bool := b.codeSent

/-- Static (zero) initialisation. -/
def Board.zero : Board := ⟨fun _ => 0, fun _ => .initial, 0, false⟩

end Asdf.TestArch
