import Verif.Model.Circuit

/-! # The OSI interface

The logic chips of hardware/interface-osi/interface-osi.kicad_pcb between the bus of the
computer and the key matrix.  The sound generator, the RESET delay and the shift-lock
toggle are not modelled. -/

namespace Asdf.Pcb

/-- The level of a net of the board, if it is driven. -/
abbrev Levels := Nat → Option Bool

/-- The logic chips used. -/
inductive Logic where
  | decoder
  | inverters
  | buffers
  deriving DecidableEq, Repr

/-- Output pin `pad` of a 74LS138 (data sheet): low if it is selected and the chip is
enabled, else high. -/
def out138 (at_ : Nat → Option Bool) (pad : Nat) : Option Bool :=
  match [15, 14, 13, 12, 11, 10, 9, 7].findIdx? (· = pad), at_ 1, at_ 2, at_ 3, at_ 4, at_ 5, at_ 6 with
  | some k, some a, some b, some c, some e1, some e2, some e3 =>
    some (!(e3 && !e1 && !e2 && (a == k.testBit 0) && (b == k.testBit 1) && (c == k.testBit 2)))
  | _, _, _, _, _, _, _ => none

/-- Output pin `pad` of a 74LS04 (data sheet). -/
def out04 (at_ : Nat → Option Bool) (pad : Nat) : Option Bool :=
  (inverters04.find? (·.2 = pad)).bind fun x => (at_ x.1).map (!·)

/-- The inverting buffers of a 74LS240 (data sheet): input, output and enable pin. -/
def buffers240 : List (Nat × Nat × Nat) :=
  [(2, 18, 1), (4, 16, 1), (6, 14, 1), (8, 12, 1), (11, 9, 19), (13, 7, 19), (15, 5, 19), (17, 3, 19)]

/-- Output pin `pad` of a 74LS240: driven while its enable pin is low. -/
def out240 (at_ : Nat → Option Bool) (pad : Nat) : Option Bool :=
  (buffers240.find? (·.2.1 = pad)).bind fun x =>
    match at_ x.2.2 with
    | some false => (at_ x.1).map (!·)
    | _ => none

/-- What a chip drives its pin `pad` to. -/
def Logic.out : Logic → (Nat → Option Bool) → Nat → Option Bool
  | .decoder => out138
  | .inverters => out04
  | .buffers => out240

/-- The chips U1 to U4 of the OSI interface. -/
def osiChips : List (Nat × Logic) := [(1, .decoder), (2, .inverters), (3, .buffers), (4, .buffers)]

/-- A pin of a chip of the OSI interface. -/
def osiPin (u pad : Nat) : Option Nat := (findPart Data.osi .chip u).bind (·.net pad)

/-- A pin of the connector to the computer, J1. -/
def osiBus (pin : Nat) : Option Nat := (findPart Data.osi .connector 1).bind (·.net pin)

/-- The level of a net through at most `depth` chips: driven from outside, or by a chip. -/
def logicLevel (outside : Levels) : Nat → Levels
  | 0, n => outside n
  | depth + 1, n =>
    match outside n with
    | some b => some b
    | none => osiChips.findSome? fun x =>
        (findPart Data.osi .chip x.1).bind fun p => p.pads.findSome? fun q =>
          if q.2 = n then x.2.out (fun pad => (p.net pad).bind (logicLevel outside depth)) q.1 else none

/-- A bus cycle of the computer: a write or a read, the two address lines, whether the
keyboard is selected, and the data lines of a write. -/
structure Cycle where
  write : Bool
  a0 : Bool
  a1 : Bool
  select : Bool
  data : Nat → Bool

/-- The data pins of J1. -/
def dataPin (i : Nat) : Nat := [1, 2, 3, 4, 5, 6, 7, 9].getD i 0

/-- The nets the computer and the supply drive in a cycle: R/W (pin 10), the inverted
address lines (11, 12), the inverted select line (13), and the data lines of a write. -/
def busLevels (c : Cycle) : Levels := fun n =>
  if osiBus 16 = some n then some true
  else if osiBus 8 = some n then some false
  else if osiBus 10 = some n then some (!c.write)
  else if osiBus 11 = some n then some (!c.a0)
  else if osiBus 12 = some n then some (!c.a1)
  else if osiBus 13 = some n then some (!c.select)
  else if c.write then ((List.range 8).find? fun i => osiBus (dataPin i) = some n).map c.data
  else none

/-- The pins of a 74LS373 (data sheet): inputs, outputs, and the enable pin 11. -/
def latchIn (i : Nat) : Nat := [3, 4, 7, 8, 13, 14, 17, 18].getD i 0
def latchOut (i : Nat) : Nat := [2, 5, 6, 9, 12, 15, 16, 19].getD i 0

/-- The outputs of the two latches, U5 (rows) and U6 (sound). -/
structure Latches where
  rows : Nat → Bool
  sound : Nat → Bool

/-- A latch after a cycle: while its enable pin is high it takes its inputs. -/
def latchAfter (u : Nat) (c : Cycle) (old : Nat → Bool) : Option (Nat → Bool) :=
  match (osiPin u 11).bind (logicLevel (busLevels c) 3) with
  | some false => some old
  | some true => some fun i =>
      if i < 8 then ((osiPin u (latchIn i)).bind (logicLevel (busLevels c) 3)).getD (old i) else old i
  | none => none

/-- Both latches after a cycle. -/
def Latches.after (L : Latches) (c : Cycle) : Option Latches :=
  match latchAfter 5 c L.rows, latchAfter 6 c L.sound with
  | some a, some b => some ⟨a, b⟩
  | _, _ => none

/-- The net of a column line: the inputs of U3 and U4. -/
def osiColumn (c : Nat) : Option Nat := osiPin (3 + c / 4) (2 + 2 * (c % 4))

/-- What the computer reads on data line `i`, with the given levels of the columns. -/
def busRead (c : Cycle) (columns : Nat → Bool) (i : Nat) : Option Bool :=
  (osiBus (dataPin i)).bind (logicLevel (fun n =>
    match (List.range 8).find? (fun k => osiColumn k = some n) with
    | some k => some (columns k)
    | none => busLevels c n) 3)

/-- The classic keyboard on the OSI interface. -/
def classicOsi (cut : Bool) : Assembly := ⟨Data.classic, Data.osi, 1, 2, 40, 0, 18, cut⟩

/-- Its links: with the analog switch of the shift lock (U11, pins 1 and 2), which is
called DIP switch 1 here. -/
def osiLinks (cut : Bool) : List Link :=
  (classicOsi cut).links ++
    match osiPin 11 1, osiPin 11 2 with
    | some a, some b => [.switch (.dip 1) (.io a) (.io b)]
    | _, _ => []

end Asdf.Pcb
