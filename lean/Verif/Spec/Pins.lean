import Verif.Model.Arch328p
import Verif.Model.Arch2560
import Verif.Spec.Scan

/-! # Specification vocabulary: pins, levels and boards -/

namespace Asdf.Spec

open Avr

/-- A pin of the controller. -/
structure Pin where
  port : Port
  bit : Nat
  deriving DecidableEq, Repr

/-- The level a pin is driven with, when it is an output. -/
def level (r : Regs) (p : Pin) : Bool := bitOf (r.port p.port) p.bit

/-- Is the pin an output? -/
def isOutput (r : Regs) (p : Pin) : Bool := bitOf (r.ddr p.port) p.bit

/-- The electrical state of a pin. -/
inductive Drive where
  | low | high | pullup | floating
  deriving DecidableEq, Repr

/-- An output pin drives its level; an input pin has a pull-up if its `PORT` bit is
set, and floats otherwise. -/
def drive (r : Regs) (p : Pin) : Drive :=
  match isOutput r p, level r p with
  | true, true => .high
  | true, false => .low
  | false, true => .pullup
  | false, false => .floating

/-- No pin but those of the list changes level or direction. -/
def onlyPins (l : List Pin) (r r' : Regs) : Prop :=
  ∀ p : Pin, p.bit < 8 → p ∉ l → level r' p = level r p ∧ isOutput r' p = isOutput r p

/-- The eight pins of a port. -/
def pinsOf (p : Port) : List Pin := (List.range 8).map fun b => ⟨p, b⟩

/-- A board: how it carries out the hardware events, and what its pins are for. -/
structure Board where
  opsOf : Event → List Op
  data : Port
  strobe : Pin
  out1 : Pin
  out2 : Pin
  out3 : Pin
  led1 : Pin
  led2 : Pin
  led3 : Pin
  /-- the level that lights each LED -/
  lit1 : Bool
  lit2 : Bool
  lit3 : Bool
  /-- `true` if the board has an inverter behind OUT2 -/
  out2Inverted : Bool

/-- The ATmega328P board (pin table in asdf_arch_atmega328p.h:182-236; LED1 is
switched by pulling its cathode low, the others through an inverter
(asdf_arch_atmega328p.c:234-235, 259-260, 284-285); OUT2 is behind an inverter and
cannot be high impedance, asdf_arch_atmega328p.c:386-387). -/
def m328 : Board :=
  { opsOf := M328.opsOf, data := .D, strobe := ⟨.B, 6⟩
    out1 := ⟨.C, 5⟩, out2 := ⟨.B, 3⟩, out3 := ⟨.B, 7⟩
    led1 := ⟨.C, 4⟩, led2 := ⟨.B, 5⟩, led3 := ⟨.B, 4⟩
    lit1 := false, lit2 := true, lit3 := true, out2Inverted := true }

/-- The ATmega2560 board (pin table in asdf_arch_atmega2560.h:279-332; this board has
no inverters (hardware/interface-ascii-atmega2560/README.md), all LEDs are switched
by pulling the cathode low; the comments in asdf_arch_atmega2560.c:260-261, 285-286
still describe the other board). -/
def m2560 : Board :=
  { opsOf := M2560.opsOf, data := .H, strobe := ⟨.B, 4⟩
    out1 := ⟨.B, 5⟩, out2 := ⟨.B, 6⟩, out3 := ⟨.B, 7⟩
    led1 := ⟨.D, 5⟩, led2 := ⟨.D, 6⟩, led3 := ⟨.D, 7⟩
    lit1 := false, lit2 := false, lit3 := false, out2Inverted := false }

/-- Both boards. -/
def boards : List Board := [m328, m2560]

/-- The register states a board goes through while it carries out a sequence of
hardware events, in the default (optimised) build. -/
def boardStates (B : Board) (r : Regs) (t : List Event) : List Regs :=
  states .sbi (fun _ => 0) r (t.flatMap B.opsOf)

/-- The registers of a board after a sequence of hardware events, in the default
(optimised) build. -/
def boardAfter (B : Board) (r : Regs) (t : List Event) : Regs :=
  exec .sbi (fun _ => 0) r (t.flatMap B.opsOf)

/-- The pin behind each physical output (asdf_physical.h:35-50). -/
def pinOfDev (B : Board) (dev : Nat) : List Pin :=
  if dev ∈ [PHYSICAL_OUT1, PHYSICAL_OUT1_OPEN_HI, PHYSICAL_OUT1_OPEN_LO] then [B.out1]
  else if dev ∈ [PHYSICAL_OUT2, PHYSICAL_OUT2_OPEN_HI, PHYSICAL_OUT2_OPEN_LO] then [B.out2]
  else if dev ∈ [PHYSICAL_OUT3, PHYSICAL_OUT3_OPEN_HI, PHYSICAL_OUT3_OPEN_LO] then [B.out3]
  else if dev = PHYSICAL_LED1 then [B.led1]
  else if dev = PHYSICAL_LED2 then [B.led2]
  else if dev = PHYSICAL_LED3 then [B.led3]
  else []

/-- The open-high outputs: pulled low for 0, released for 1. -/
def openHigh : List Nat := [PHYSICAL_OUT1_OPEN_HI, PHYSICAL_OUT2_OPEN_HI, PHYSICAL_OUT3_OPEN_HI]

/-- The open-low outputs: driven high for 1, released for 0. -/
def openLow : List Nat := [PHYSICAL_OUT1_OPEN_LO, PHYSICAL_OUT2_OPEN_LO, PHYSICAL_OUT3_OPEN_LO]

/-- The electrical state each output value stands for.  `none`: the output does not
exist on this board. -/
def meant (B : Board) (dev : Nat) (on : Bool) : Option Drive :=
  let to (b : Bool) : Option Drive := some (if b then .high else .low)
  if dev = PHYSICAL_OUT1 ∨ dev = PHYSICAL_OUT3 then to on
  else if dev = PHYSICAL_OUT2 then to (on != B.out2Inverted)
  else if dev ∈ openHigh then
    if dev = PHYSICAL_OUT2_OPEN_HI ∧ B.out2Inverted then none
    else some (if on then .pullup else .low)
  else if dev ∈ openLow then
    if dev = PHYSICAL_OUT2_OPEN_LO ∧ B.out2Inverted then none
    else some (if on then .high else .floating)
  else if dev = PHYSICAL_LED1 then to (on == B.lit1)
  else if dev = PHYSICAL_LED2 then to (on == B.lit2)
  else if dev = PHYSICAL_LED3 then to (on == B.lit3)
  else none

/-- The idle level of the strobe, as selected last: low for positive and high for
negative polarity; initialising the hardware selects positive polarity. -/
def idleStep (o : Option Bool) : Event → Option Bool
  | .archInit => some false
  | .posStrobe => some false
  | .negStrobe => some true
  | _ => o

/-- The idle level selected by a sequence of events. -/
def idleLevel (t : List Event) : Option Bool := t.foldl idleStep none

/-- What a host that latches the data port at every change of the strobe to level
`active` reads, starting from registers `r`. -/
def latched (B : Board) (active : Bool) (r : Regs) : List Regs → List UInt8
  | [] => []
  | r' :: l =>
    if level r B.strobe ≠ active ∧ level r' B.strobe = active then
      r'.port B.data :: latched B active r' l
    else latched B active r' l

/-- Events that select no strobe polarity. -/
def keepsPolarity : Event → Bool
  | .posStrobe => false
  | .negStrobe => false
  | .archInit => false
  | _ => true

/-- Register contents for examples: everything zero, as after a reset. -/
def allZero : Regs := ⟨fun _ => 0, fun _ => 0, fun _ => 0, false, false⟩

/-! ## Reading rows -/

/-- The ATmega328P's row number and shift register pins. -/
def rowPins328 : List Pin := [⟨.C, 0⟩, ⟨.C, 1⟩, ⟨.C, 2⟩, ⟨.C, 3⟩, ⟨.B, 1⟩, ⟨.B, 2⟩]

/-- The ATmega328P is ready to read a row: row number, clock and mode pins are
outputs, the column pin is an input, the clock is low. -/
def rowReady328 (r : Regs) : Prop :=
  (∀ p ∈ rowPins328, isOutput r p = true) ∧ isOutput r ⟨.B, 0⟩ = false ∧ level r ⟨.B, 2⟩ = false

/-- The ATmega2560's row lines: 0-7 on port J, 8-15 on port A. -/
def rowLine2560 (n : Nat) : Pin := if n < 8 then ⟨.J, n⟩ else ⟨.A, n - 8⟩

/-- The ATmega2560 is ready to read a row: the row lines are outputs, the columns
inputs with pull-ups. -/
def rowReady2560 (r : Regs) : Prop :=
  (∀ n, n < 16 → isOutput r (rowLine2560 n) = true) ∧
    ∀ b, b < 8 → isOutput r ⟨.C, b⟩ = false ∧ level r ⟨.C, b⟩ = true

/-- The column byte of a key matrix with diodes on the ATmega2560 board, while the
pins are set for reading rows: column `c` is low exactly when a key in column `c` is
closed in a row whose line is low; `keys n` has the closed keys of row `n`. -/
def matrixColumns (keys : Nat → UInt8) (cols : Regs → UInt8) : Prop :=
  ∀ r c, rowReady2560 r → c < 8 → (bitOf (cols r) c = false ↔
    ∃ n, n < 16 ∧ drive r (rowLine2560 n) = .low ∧ bitOf (keys n) c = true)

/-- The register contents the ATmega328P can have between two actions of the
firmware: hardware initialisation from any contents, then any hardware events and
row reads in any order, with any keys closed. -/
inductive Reached328 : Regs → Prop
  | init (r : Regs) : Reached328 (boardAfter m328 r [.archInit])
  | event {r : Regs} (h : Reached328 r) (e : Event) : Reached328 (boardAfter m328 r [e])
  | read {r : Regs} (h : Reached328 r) (keys : Nat → UInt8) (other row sr : UInt8) :
      Reached328 (M328.readRow keys other row ⟨r, sr, []⟩).2.regs

/-- The same for the ATmega2560. -/
inductive Reached2560 : Regs → Prop
  | init (r : Regs) : Reached2560 (boardAfter m2560 r [.archInit])
  | event {r : Regs} (h : Reached2560 r) (e : Event) : Reached2560 (boardAfter m2560 r [e])
  | read {r r' : Regs} (h : Reached2560 r) (cols : Regs → UInt8) (row v : UInt8) (l : List Regs)
      (hr : M2560.readRow cols row r = .ok (v, l)) (hl : l.getLast? = some r') : Reached2560 r'

end Asdf.Spec
