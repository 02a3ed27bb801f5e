import Verif.Spec.Circuit

/-! # Specification vocabulary: the Franklin ACE 1000 keyboard -/

namespace Asdf.Spec

open Pcb

/-- The Franklin ACE 1000 keyboard on both interfaces. -/
def aceBoards : List Assembly := [ace328 false, ace328 true, ace2560 false, ace2560 true]

/-- The same DIP switches, and no key closed. -/
def keysOpen (closed : Sw → Bool) : Sw → Bool
  | .key _ => false
  | .dip n => closed (.dip n)

/-- Only net numbers of the interface: where the interface and what is plugged into it can
drive. -/
def IoNet : Net → Prop
  | .io _ => True
  | .kb _ => False

/-- The keys of a keyboard. -/
def boardKeys (A : Assembly) : List Nat := (A.keyboard.filter (·.kind = .key)).map (·.num)

/-- The Franklin ACE 1000 keyboard with the diodes of the keys put in the other way round;
the diodes of the rows are of another value. -/
def aceTurned : List Part :=
  Data.ace.map fun p =>
    if p.value = "diode-combined" then
      match p.net 1, p.net 2 with
      | some a, some b => { p with pads := [(1, b), (2, a)] }
      | _, _ => p
    else p

/-- Boards with these diodes. -/
def turnedBoards : List Assembly := aceBoards.map fun A => { A with keyboard := aceTurned }

end Asdf.Spec
