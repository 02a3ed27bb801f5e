/-! # Printed circuit boards

The boards in `/repo/hardware` as lists of parts.  The parts come from the
`.kicad_pcb` files (`Model/BoardData.lean`). -/

namespace Asdf.Pcb

/-- What kind of part it is: a key switch (pads 1 and 2; pads 3 and 4 are the LED in the
key, if it has one), a diode or an LED (pad 1 is the cathode, pad 2 the anode), a diode
whose footprint has a copper bridge
(hardware/common/unikbd.pretty/D_DO-35_SOD27_P7.62mm_Horizontal_bypassed.kicad_mod), a
DIP switch (switch `i` is between pads `i` and `17 - i`), a connector, a jumper, a
chip, a resistor, or a resistor network (pad 1 is the common end). -/
inductive Kind where
  | key | diode | led | bypassed | dip | connector | jumper | chip | resistor | pullups
  deriving DecidableEq, Repr

/-- A part: its kind, the number in its reference, its value, and the net of every
connected pad. -/
structure Part where
  kind : Kind
  num : Nat
  value : String
  pads : List (Nat × Nat)
  deriving DecidableEq, Repr

/-- The net at a pad. -/
def Part.net (p : Part) (pad : Nat) : Option Nat := (p.pads.find? (·.1 = pad)).map (·.2)

end Asdf.Pcb
