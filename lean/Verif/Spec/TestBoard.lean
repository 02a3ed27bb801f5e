import Verif.Spec.TestArch

/-! # Specification: exactly what the simulated board reports -/

namespace Asdf.Spec

open TestArch

/-- The open-drain and open-source outputs. -/
def openOutputs : List Nat :=
  [PHYSICAL_OUT1_OPEN_HI, PHYSICAL_OUT2_OPEN_HI, PHYSICAL_OUT3_OPEN_HI,
    PHYSICAL_OUT1_OPEN_LO, PHYSICAL_OUT2_OPEN_LO, PHYSICAL_OUT3_OPEN_LO]

/-- The event as the simulated board carries it out: setting any open output is taken for setting
output 1 open-high. -/
def taken : Event → Event
  | .out q v => .out (if q ∈ openOutputs then PHYSICAL_OUT1_OPEN_HI else q) v
  | e => e

/-- What can be done with the simulated board: the firmware's events, and a test reading the code
that was sent. -/
inductive TestOp where
  | event (e : Event)
  | readCode

/-- The board after an operation. -/
def TestOp.apply (b : TestArch.Board) : TestOp → TestArch.Board
  | .event e => onEvent b e
  | .readCode => (getSentCode b).2

/-- Was a code sent since the board was initialised and since the code was last read? -/
def unread (ops : List TestOp) : Bool :=
  ops.foldl (fun u o => match o with
    | .event (.send _) => true
    | .event .archInit => false
    | .readCode => false
    | _ => u) false

/-- The last code sent, 0 if there is none. -/
def lastSent (ops : List TestOp) : Code :=
  ops.foldl (fun c o => match o with
    | .event (.send x) => x
    | _ => c) 0

end Asdf.Spec
