import Verif.Spec.CBoard
import Verif.Spec.Pulse

/-! # What an oscilloscope on an output pin shows -/

namespace Asdf.Spec

open Avr

/-- The electrical state of a pin during a run, with the waiting times. -/
def pinScope (p : Pin) (h : C.Hw) : List (Drive × Nat) := h.log.map fun x => (drive x.1 p, x.2)

/-- The periods in which a pin is in the state `d`: how long the current one has lasted so far, if
there is one, and how long each of the earlier ones lasted, in microseconds. -/
structure Periods where
  now : Option Nat
  past : List Nat
  deriving DecidableEq, Repr

def Periods.step (d : Drive) (s : Periods) (x : Drive × Nat) : Periods :=
  if x.1 = d then { s with now := some (s.now.getD 0 + x.2) } else ⟨none, s.past ++ s.now.toList⟩

/-- The periods in a record that starts with the pin in another state. -/
def periods (d : Drive) (l : List (Drive × Nat)) : Periods := l.foldl (Periods.step d) ⟨none, []⟩

/-- In a setup run with caps lock at `caps`, output `p` gets no owner and is not driven. -/
def freeCheck (cmds : List SetupCmd) (p : Nat) (caps : Bool) : Bool :=
  let y := cmds.foldl setupFx (Outputs.initial, caps, [.archInit])
  ((List.range 12).all fun w => !(y.1.lists w).contains p) &&
    (y.2.2.all fun e => match e with
      | .out q _ => q != p
      | _ => true)

end Asdf.Spec
