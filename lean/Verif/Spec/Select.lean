import Verif.Spec.Pins
import Verif.Spec.Tables
import Verif.Spec.Keymap

/-! # Specification: what selecting a keymap does to the pins -/

namespace Asdf.Spec

open Avr

/-- The hardware events of the statements of a setup function, from the caps-lock state and the
output configuration `x`: activating caps lock switches all outputs that are assigned to its
indicator so far, and the polarity of the strobe may be selected.  Nothing else moves a pin. -/
noncomputable def setupEvents (x : UInt8 × Outputs) : List SetupCmd → List Event
  | [] => []
  | .capsActivate :: l =>
    (x.2.lists VCAPS_LED).map (Event.out · (if x.1 ^^^ 1 ≠ 0 then 1 else 0)) ++
      setupEvents (outsStep x .capsActivate) l
  | .negStrobe :: l => .negStrobe :: setupEvents x l
  | c :: l => setupEvents (outsStep x c) l

/-- The lamp that shows caps lock in each of the keymaps whose selection moves caps lock; the
other keymaps leave caps lock alone. -/
def capsLamp (i : UInt8) : Option Nat :=
  if i = 2 ∨ i = 4 then some PHYSICAL_LED1 else if i = 5 then some PHYSICAL_LED3 else none

/-- The hardware events of selecting keymap `i` while caps lock is on or off: the board is
initialised; three of the keymaps turn caps lock over and switch its lamp accordingly; keymap 4
selects a negative strobe. -/
def selectEvents (i : UInt8) (caps : Bool) : List Event :=
  [.archInit] ++ (capsLamp i).toList.map (Event.out · (if caps then 0 else 1)) ++
    (if i = 4 then [.negStrobe] else [])

/-- The pin of a lamp. -/
def ledPin (B : Board) (dev : Nat) : Pin :=
  if dev = PHYSICAL_LED1 then B.led1 else if dev = PHYSICAL_LED2 then B.led2 else B.led3

/-- The level that lights a lamp. -/
def litLevel (B : Board) (dev : Nat) : Bool :=
  if dev = PHYSICAL_LED1 then B.lit1 else if dev = PHYSICAL_LED2 then B.lit2 else B.lit3

/-- The three lamps. -/
def lamps3 : List Nat := [PHYSICAL_LED1, PHYSICAL_LED2, PHYSICAL_LED3]

end Asdf.Spec
