import Verif.Spec.Circuit

/-! # Specification vocabulary: the sockets for the computers, and the lamps -/

namespace Asdf.Spec

open Avr Pcb

/-- A line of a socket. -/
inductive Signal where
  | data (i : Nat)
  | strobe
  | out1 | out2 | out3
  | plus5 | ground
  deriving DecidableEq, Repr

/-- The keyboard socket of the Apple 2: seven data lines and the strobe; pin 3 is RESET. -/
def apple2Socket : List (Nat × Signal) :=
  [(1, .plus5), (2, .strobe), (3, .out3), (5, .data 5), (6, .data 4), (7, .data 6), (8, .ground),
   (10, .data 2), (11, .data 3), (12, .data 0), (13, .data 1)]

/-- The keyboard socket of the Apple 1: pin 1 is RESET and pin 12 CLEAR SCREEN. -/
def apple1Socket : List (Nat × Signal) :=
  [(1, .out3), (2, .data 3), (3, .data 2), (4, .data 1), (5, .data 0), (6, .data 4), (7, .data 5),
   (8, .data 6), (9, .ground), (12, .out1), (14, .strobe), (15, .plus5), (16, .plus5)]

/-- The keyboard connector of the Sol-20, with eight data lines. -/
def solSocket : List (Nat × Signal) :=
  [(1, .ground), (2, .plus5), (3, .strobe), (4, .out2), (5, .data 0), (6, .data 1), (7, .data 2),
   (8, .data 3), (9, .plus5), (10, .ground), (11, .ground), (12, .plus5), (13, .out3), (14, .out1),
   (15, .data 4), (16, .data 5), (17, .data 6), (18, .data 7), (19, .plus5), (20, .ground)]

/-- The connector with the outputs. -/
def outputSocket : List (Nat × Signal) :=
  [(1, .ground), (2, .out3), (3, .out2), (4, .out1), (5, .plus5)]

/-- The controller pin of a signal, and whether an inverter follows. -/
def signalPin (B : Board) : Signal → Option (Pin × Bool)
  | .data i => some (⟨B.data, i⟩, false)
  | .strobe => some (B.strobe, false)
  | .out1 => some (B.out1, false)
  | .out2 => some (B.out2, B.out2Inverted)
  | .out3 => some (B.out3, false)
  | .plus5 | .ground => none

/-- What a signal's driver does to its line. -/
def signalDrive (B : Board) (r : Regs) (σ : Signal) : Option Drive :=
  match signalPin B σ with
  | some (p, false) => some (drive r p)
  | some (p, true) => match drive r p with
    | .low => some .high
    | .high => some .low
    | _ => none
  | none => none

/-- An inverter of a 74LS04 drives a net high: its input is low. -/
def InverterHigh (A : Assembly) (pins : List (Port × Nat × Nat)) (r : Regs) (u : Nat) (n : Net) : Prop :=
  ∃ x ∈ inverters04, A.chip u x.2 = some n ∧ ∃ m, A.chip u x.1 = some m ∧ LowAt A pins r m

/-- The nets driven high by the controller or the inverters, or at the supply. -/
def High328 (A : Assembly) (r : Regs) (n : Net) : Prop :=
  HighAt A pins328 r n ∨ InverterHigh A pins328 r 5 n
def High2560 (A : Assembly) (r : Regs) (n : Net) : Prop := HighAt A pins2560 r n

/-- The sockets of the boards: connector and lines. -/
def sockets328 : List (Nat × List (Nat × Signal)) :=
  [(1, apple2Socket), (2, apple1Socket), (7, solSocket), (4, outputSocket)]
def sockets2560 : List (Nat × List (Nat × Signal)) :=
  [(1, apple2Socket), (2, apple1Socket), (5, solSocket), (4, outputSocket)]
def socketsSol1 : List (Nat × List (Nat × Signal)) := [(2, solSocket), (1, outputSocket)]

/-- The byte on the data lines after an event: the last code; 0 after the hardware was
initialised. -/
def codeStep (o : Option Code) : Event → Option Code
  | .archInit => some 0
  | .send c => o.map fun _ => c
  | _ => o

/-- The byte on the data lines after a sequence of events; `none` before the hardware was
initialised. -/
def codeShown (t : List Event) : Option Code := t.foldl codeStep none

/-! ## Lamps -/

/-- The resistors of the assembly, as connections: current flows through them. -/
def resistorLinks (A : Assembly) : List Link :=
  (A.keyboard.filter (·.kind = .resistor)).flatMap (fun p => p.link .kb .wire 1 2) ++
    (A.io.filter (·.kind = .resistor)).flatMap (fun p => p.link .io .wire 1 2)

/-- Two nets are connected by wires and resistors. -/
inductive Joined (ls : List Link) : Net → Net → Prop
  | refl {a : Net} : Joined ls a a
  | step {a b c : Net} (h : .wire a b ∈ ls ∨ .wire b a ∈ ls) (hb : Joined ls b c) : Joined ls a c

/-- A lamp with the given anode and cathode is lit: the anode is connected to the supply,
and current can flow from the cathode to a low net. -/
def Lit (A : Assembly) (closed : Sw → Bool) (low : Net → Prop) (anode cathode : Net) : Prop :=
  Joined (A.links ++ resistorLinks A) anode (.io A.vcc) ∧
    PulledLow (A.links ++ resistorLinks A) closed low cathode

/-- The anode and the cathode of an LED of a keyboard board: an LED of its own, or the one
in a key. -/
def lampNets (parts : List Part) (f : Nat → Net) : Kind × Nat → Option (Net × Net)
  | (.led, n) => (findPart parts .led n).bind fun p => (p.net 2).bind fun a => (p.net 1).map fun k => (f a, f k)
  | (.key, n) => (findPart parts .key n).bind fun p => (p.net 3).bind fun a => (p.net 4).map fun k => (f a, f k)
  | _ => none

/-- A lamp of a keyboard board: the part, its label on the board, the firmware's LED. -/
structure Lamp where
  part : Kind × Nat
  label : String
  led : Nat
  deriving DecidableEq, Repr

/-- The lamps of the classic keyboard: lamps in keys, and LEDs beside keys. -/
def classicLamps : List Lamp :=
  [⟨(.key, 61), "Power Light", PHYSICAL_LED1⟩, ⟨(.led, 1), "", PHYSICAL_LED1⟩,
   ⟨(.key, 9), "Caps_Lock", PHYSICAL_LED3⟩, ⟨(.key, 17), "Line_Feed", PHYSICAL_LED3⟩,
   ⟨(.led, 2), "", PHYSICAL_LED3⟩, ⟨(.led, 5), "", PHYSICAL_LED3⟩,
   ⟨(.key, 32), "@(OSI SL)", PHYSICAL_LED2⟩, ⟨(.led, 3), "", PHYSICAL_LED2⟩,
   ⟨(.led, 4), "", PHYSICAL_LED2⟩]

/-- The lamps of the Sol-20 keyboard: UPPER CASE, LOCAL, SHIFT LOCK
(firmware/asdf/src/Keymaps/asdf_keymap_defs_sol.h:108-110). -/
def solLamps : List Lamp :=
  [⟨(.led, 1), "", PHYSICAL_LED1⟩, ⟨(.led, 2), "", PHYSICAL_LED2⟩, ⟨(.led, 3), "", PHYSICAL_LED3⟩]

/-- The anode and the cathode of a lamp of an assembly. -/
def lampAt (A : Assembly) (x : Lamp) : Option (Net × Net) :=
  if A.keyboard.isEmpty then lampNets A.io .io x.part else lampNets A.keyboard .kb x.part

/-- The keyboards on the ATmega328P interface, with their lamps. -/
def lamps328 : List (Assembly × List Lamp) :=
  [(classic328 false, classicLamps), (classic328 true, classicLamps), (sol328 false, solLamps),
   (sol328 true, solLamps)]

/-- The keyboards with the ATmega2560, with their lamps. -/
def lamps2560 : List (Assembly × List Lamp) :=
  [(classic2560 false, classicLamps), (classic2560 true, classicLamps), (sol2560 false, solLamps),
   (sol2560 true, solLamps), (sol1, solLamps), (classicEnc false, classicLamps),
   (classicEnc true, classicLamps), (solEnc false, solLamps), (solEnc true, solLamps)]

/-- The keyboards on the ATmega328P interface, with their sockets. -/
def plugged328 : List (Assembly × List (Nat × List (Nat × Signal))) :=
  [(classic328 false, sockets328), (classic328 true, sockets328), (sol328 false, sockets328),
   (sol328 true, sockets328)]

/-- The keyboards with the ATmega2560, with their sockets. -/
def plugged2560 : List (Assembly × List (Nat × List (Nat × Signal))) :=
  [(classic2560 false, sockets2560), (classic2560 true, sockets2560), (sol2560 false, sockets2560),
   (sol2560 true, sockets2560), (sol1, socketsSol1), (classicEnc false, sockets2560),
   (classicEnc true, sockets2560), (solEnc false, sockets2560), (solEnc true, sockets2560)]

end Asdf.Spec
