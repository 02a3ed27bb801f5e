import Verif.Model.BoardData
import Verif.Model.Avr

/-! # The assembled keyboards

A keyboard board plugged into an interface board (or the Sol-20 board with the
controller on it), as a list of switches, diodes and wires between nets; and the pins
of the chips. -/

namespace Asdf.Pcb

open Avr

/-- A net of the keyboard board or of the interface board; the number is that of the
board file. -/
inductive Net where
  | kb (n : Nat)
  | io (n : Nat)
  deriving DecidableEq, Repr

/-- A switch: the key with this number in its reference, or a DIP switch (1-8). -/
inductive Sw where
  | key (n : Nat)
  | dip (n : Nat)
  deriving DecidableEq, Repr

/-- What connects two nets.  Resistors are not connections: a level that comes through
a resistor gives way to a driven level. -/
inductive Link where
  | switch (id : Sw) (a b : Net)
  | diode (anode cathode : Net)
  | wire (a b : Net)
  deriving DecidableEq, Repr

/-- A link between two pads of a part, if both are connected. -/
def Part.link (p : Part) (f : Nat → Net) (mk : Net → Net → Link) (i j : Nat) : List Link :=
  match p.net i, p.net j with
  | some a, some b => [mk (f a) (f b)]
  | _, _ => []

/-- The links of a part.  `cut` says whether the copper bridges under the row diodes of
the interface boards are cut and the diodes put in
(hardware/interface-ascii/README.md, "Diodes D1-D16"). -/
def Part.links (f : Nat → Net) (cut : Bool) (p : Part) : List Link :=
  match p.kind with
  | .key => p.link f (.switch (.key p.num)) 1 2 ++ p.link f .diode 3 4
  | .diode => p.link f .diode 2 1
  | .led => p.link f .diode 2 1
  | .bypassed => p.link f (if cut then .diode else .wire) 2 1
  | .dip => (List.range' 1 8).flatMap fun i => p.link f (.switch (.dip i)) i (17 - i)
  | .connector | .jumper | .chip | .resistor | .pullups => []

/-- A keyboard with its interface. -/
structure Assembly where
  keyboard : List Part
  io : List Part
  /-- the numbers of the two connectors of the cable, and of their pins -/
  kbPlug : Nat
  ioPlug : Nat
  plugPins : Nat
  /-- the supply nets of the interface -/
  vcc : Nat
  gnd : Nat
  cut : Bool

/-- The part of a kind with a number. -/
def findPart (ps : List Part) (k : Kind) (num : Nat) : Option Part :=
  ps.find? fun p => p.kind = k && p.num = num

/-- The net at a pin of a chip of the interface. -/
def Assembly.chip (A : Assembly) (num pad : Nat) : Option Net :=
  (findPart A.io .chip num).bind fun p => (p.net pad).map .io

/-- The net at a pin of a connector of the interface. -/
def Assembly.plug (A : Assembly) (num pin : Nat) : Option Net :=
  (findPart A.io .connector num).bind fun p => (p.net pin).map .io

/-- The cable: pin `i` of one plug is connected to pin `i` of the other. -/
def Assembly.cable (A : Assembly) : List Link :=
  match findPart A.keyboard .connector A.kbPlug, findPart A.io .connector A.ioPlug with
  | some p, some q => (List.range' 1 A.plugPins).flatMap fun i =>
      match p.net i, q.net i with
      | some a, some b => [.wire (.kb a) (.io b)]
      | _, _ => []
  | _, _ => []

/-- All links. -/
def Assembly.links (A : Assembly) : List Link :=
  A.keyboard.flatMap (Part.links .kb A.cut) ++ A.io.flatMap (Part.links .io A.cut) ++ A.cable

/-- The classic keyboard on the ATmega328P interface. -/
def classic328 (cut : Bool) : Assembly := ⟨Data.classic, Data.io328, 1, 6, 40, 2, 1, cut⟩

/-- The classic keyboard on the ATmega2560 interface. -/
def classic2560 (cut : Bool) : Assembly := ⟨Data.classic, Data.io2560, 1, 10, 40, 113, 1, cut⟩

/-- The Sol-20 keyboard on the ATmega328P interface. -/
def sol328 (cut : Bool) : Assembly := ⟨Data.sol, Data.io328, 1, 6, 40, 2, 1, cut⟩

/-- The Sol-20 keyboard on the ATmega2560 interface. -/
def sol2560 (cut : Bool) : Assembly := ⟨Data.sol, Data.io2560, 1, 10, 40, 113, 1, cut⟩

/-- The Sol-20 keyboard with the controller on the board. -/
def sol1 : Assembly := ⟨[], Data.solIntegrated, 0, 0, 0, 112, 109, false⟩

/-- The Franklin ACE 1000 keyboard on the ATmega328P interface. -/
def ace328 (cut : Bool) : Assembly := ⟨Data.ace, Data.io328, 1, 6, 40, 2, 1, cut⟩

/-- The Franklin ACE 1000 keyboard on the ATmega2560 interface. -/
def ace2560 (cut : Bool) : Assembly := ⟨Data.ace, Data.io2560, 1, 10, 40, 113, 1, cut⟩

/-- The parts of the Apple encoder, with nothing plugged into J8, its connector for the
keyboard matrix of the Apple II. -/
def encoderParts : List Part := Data.encoder.filter fun p => !(p.kind = .connector && p.num = 8)

/-- The classic keyboard on the Apple encoder. -/
def classicEnc (cut : Bool) : Assembly := ⟨Data.classic, encoderParts, 1, 10, 40, 113, 1, cut⟩

/-- The Sol-20 keyboard on the Apple encoder. -/
def solEnc (cut : Bool) : Assembly := ⟨Data.sol, encoderParts, 1, 10, 40, 113, 1, cut⟩

/-! ## Pins of the chips (data sheets) -/

/-- The pins of the ATmega328P (28-pin DIP). -/
def pins328 : List (Port × Nat × Nat) :=
  [(.D, 0, 2), (.D, 1, 3), (.D, 2, 4), (.D, 3, 5), (.D, 4, 6), (.D, 5, 11), (.D, 6, 12), (.D, 7, 13),
   (.B, 0, 14), (.B, 1, 15), (.B, 2, 16), (.B, 3, 17), (.B, 4, 18), (.B, 5, 19), (.B, 6, 9), (.B, 7, 10),
   (.C, 0, 23), (.C, 1, 24), (.C, 2, 25), (.C, 3, 26), (.C, 4, 27), (.C, 5, 28)]

/-- The pins of the ATmega2560 (100-pin TQFP), of the ports the firmware uses. -/
def pins2560 : List (Port × Nat × Nat) :=
  [(.A, 0, 78), (.A, 1, 77), (.A, 2, 76), (.A, 3, 75), (.A, 4, 74), (.A, 5, 73), (.A, 6, 72), (.A, 7, 71),
   (.B, 0, 19), (.B, 1, 20), (.B, 2, 21), (.B, 3, 22), (.B, 4, 23), (.B, 5, 24), (.B, 6, 25), (.B, 7, 26),
   (.C, 0, 53), (.C, 1, 54), (.C, 2, 55), (.C, 3, 56), (.C, 4, 57), (.C, 5, 58), (.C, 6, 59), (.C, 7, 60),
   (.D, 0, 43), (.D, 1, 44), (.D, 2, 45), (.D, 3, 46), (.D, 4, 47), (.D, 5, 48), (.D, 6, 49), (.D, 7, 50),
   (.H, 0, 12), (.H, 1, 13), (.H, 2, 14), (.H, 3, 15), (.H, 4, 16), (.H, 5, 17), (.H, 6, 18), (.H, 7, 27),
   (.J, 0, 63), (.J, 1, 64), (.J, 2, 65), (.J, 3, 66), (.J, 4, 67), (.J, 5, 68), (.J, 6, 69), (.J, 7, 79)]

/-- Output `k` of a 74LS138. -/
def outPin138 (k : Nat) : Nat := [15, 14, 13, 12, 11, 10, 9, 7].getD k 0

/-- The parallel input of a 74LS166 that is shifted out after `k` clocks: H first. -/
def inPin166 (k : Nat) : Nat := [14, 12, 11, 10, 5, 4, 3, 2].getD k 0

/-- The six inverters of a 74LS04: input and output. -/
def inverters04 : List (Nat × Nat) := [(1, 2), (3, 4), (5, 6), (9, 8), (11, 10), (13, 12)]

end Asdf.Pcb
