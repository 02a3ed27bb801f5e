import Verif.Model.Circuit
import Verif.Spec.Pins

/-! # Specification vocabulary: levels on the boards -/

namespace Asdf.Spec

open Avr Pcb

/-- Current can flow from net `a` to net `b` through a link: in both directions through
a closed switch and a wire, from anode to cathode through a diode. -/
def Passes (closed : Sw → Bool) (l : Link) (a b : Net) : Prop :=
  match l with
  | .switch id x y => closed id = true ∧ ((a = x ∧ b = y) ∨ (a = y ∧ b = x))
  | .diode x y => a = x ∧ b = y
  | .wire x y => (a = x ∧ b = y) ∨ (a = y ∧ b = x)

/-- A net is pulled low: it is driven low, or current can flow from it to a net that is
pulled low. -/
inductive PulledLow (ls : List Link) (closed : Sw → Bool) (low : Net → Prop) : Net → Prop
  | driven {n : Net} (h : low n) : PulledLow ls closed low n
  | through {a b : Net} {l : Link} (hl : l ∈ ls) (hp : Passes closed l a b)
      (hb : PulledLow ls closed low b) : PulledLow ls closed low a

/-- The controller's pins at a net; `pins` is the pin table of the controller, which is
chip U1 on every board. -/
def pinsAt (A : Assembly) (pins : List (Port × Nat × Nat)) (n : Net) : List Pin :=
  pins.filterMap fun (p, b, pad) => if A.chip 1 pad = some n then some ⟨p, b⟩ else none

/-- A net is driven low by the controller or is the ground. -/
def LowAt (A : Assembly) (pins : List (Port × Nat × Nat)) (r : Regs) (n : Net) : Prop :=
  n = .io A.gnd ∨ ∃ p ∈ pinsAt A pins n, drive r p = .low

/-- A net is driven high by the controller or is the supply. -/
def HighAt (A : Assembly) (pins : List (Port × Nat × Nat)) (r : Regs) (n : Net) : Prop :=
  n = .io A.vcc ∨ ∃ p ∈ pinsAt A pins n, drive r p = .high

/-- A 74LS138 (chip `u`) pulls a net low: it is output `k`, the select inputs A, B, C
(pins 1, 2, 3) have the binary digits of `k`, the enable input (pin 6) is high and the
two inverted enable inputs (pins 4, 5) are low. -/
def DecoderLow (A : Assembly) (pins : List (Port × Nat × Nat)) (r : Regs) (u : Nat) (n : Net) : Prop :=
  ∃ k, k < 8 ∧ A.chip u (outPin138 k) = some n ∧
    (∀ j, j < 3 → ∃ m, A.chip u (j + 1) = some m ∧
      if k.testBit j then HighAt A pins r m else LowAt A pins r m) ∧
    (∃ m, A.chip u 6 = some m ∧ HighAt A pins r m) ∧
    (∃ m, A.chip u 4 = some m ∧ LowAt A pins r m) ∧
    (∃ m, A.chip u 5 = some m ∧ LowAt A pins r m)

/-- A 74LS138 drives a net: it is one of its outputs. -/
def DecoderDrives (A : Assembly) (u : Nat) (n : Net) : Prop :=
  ∃ k, k < 8 ∧ A.chip u (outPin138 k) = some n

/-- An inverter of a 74LS04 (chip `u`) pulls a net low: its input is high. -/
def InverterLow (A : Assembly) (pins : List (Port × Nat × Nat)) (r : Regs) (u : Nat) (n : Net) : Prop :=
  ∃ x ∈ inverters04, A.chip u x.2 = some n ∧ ∃ m, A.chip u x.1 = some m ∧ HighAt A pins r m

/-- The nets driven low on the ATmega328P interface: by the controller, the two row
decoders U3 and U4, the inverters U5, and (`q`) the shift register's output. -/
def Low328 (A : Assembly) (r : Regs) (q : Bool) (n : Net) : Prop :=
  LowAt A pins328 r n ∨ DecoderLow A pins328 r 3 n ∨ DecoderLow A pins328 r 4 n ∨
    InverterLow A pins328 r 5 n ∨ (q = false ∧ A.chip 2 13 = some n)

/-- The nets driven low on a board with the ATmega2560. -/
def Low2560 (A : Assembly) (r : Regs) (n : Net) : Prop := LowAt A pins2560 r n

/-- The column inputs: of the shift register U2, and of port C. -/
def column328 (A : Assembly) (c : Nat) : Option Net := A.chip 2 (inPin166 c)
def column2560 (A : Assembly) (c : Nat) : Option Net := A.chip 1 (53 + c)

/-- A net at a plug of the interface other than the one to the keyboard: the computer,
a programmer, a serial port. -/
def Outside (A : Assembly) (n : Net) : Prop := ∃ k pin, k ≠ A.ioPlug ∧ A.plug k pin = some n

/-- A matrix position. -/
structure Place where
  sw : Sw
  label : String
  row : Nat
  col : Nat
  deriving DecidableEq, Repr

/-- The label of a switch: the value of the key on the board; the DIP switches have
numbers. -/
def switchLabel (parts : List Part) : Sw → Option String
  | .key n => (findPart parts .key n).map (·.value)
  | .dip n => ["DIP 1", "DIP 2", "DIP 3", "DIP 4", "DIP 5", "DIP 6", "DIP 7", "DIP 8"][n - 1]?

/-- The closed switches of a row, as a byte. -/
def closedKeys (ps : List Place) (closed : Sw → Bool) (row : Nat) : UInt8 :=
  ps.foldl (fun b p => if p.row = row ∧ closed p.sw = true then b ||| oneBit p.col else b) 0

/-- The keyboards on the ATmega328P interface, with the positions of their switches. -/
def boards328 (classic sol : List Place) : List (Assembly × List Place) :=
  [(classic328 false, classic), (classic328 true, classic), (sol328 false, sol), (sol328 true, sol)]

/-- The keyboards with the ATmega2560. -/
def boards2560 (classic sol : List Place) : List (Assembly × List Place) :=
  [(classic2560 false, classic), (classic2560 true, classic), (sol2560 false, sol),
   (sol2560 true, sol), (sol1, sol), (classicEnc false, classic), (classicEnc true, classic),
   (solEnc false, sol), (solEnc true, sol)]

/-- A column byte read on a board: bit `c` is 0 exactly when the column line `c` is
pulled low.  (No column line floats: they have pull-up resistors.) -/
def ReadsLevels (ls : List Link) (col : Nat → Option Net) (closed : Sw → Bool) (low : Net → Prop)
    (b : UInt8) : Prop :=
  ∀ c n, c < 8 → col c = some n → (bitOf b c = false ↔ PulledLow ls closed low n)

end Asdf.Spec
