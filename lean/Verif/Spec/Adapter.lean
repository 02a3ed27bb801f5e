import Verif.Spec.Sockets

/-! # Specification vocabulary: the adapter between keyboards and computers -/

namespace Asdf.Spec

open Pcb

/-- The sockets of the adapter: connector and lines
(hardware/multi-kbd-adapter/multi-adapter.kicad_pcb, the values of J1, J2, J4 and J5). -/
def adapterSockets : List (Nat × List (Nat × Signal)) :=
  [(1, apple2Socket), (2, apple1Socket), (4, outputSocket), (5, solSocket)]

/-- The net at a pin of a connector of the adapter. -/
def adapterNet (k pin : Nat) : Option Nat := (findPart Data.adapter .connector k).bind (·.net pin)

end Asdf.Spec
