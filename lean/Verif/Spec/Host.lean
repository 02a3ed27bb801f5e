import Verif.Spec.Whole

/-! # What an edge-triggered host reads -/

namespace Asdf.Spec

open Avr

/-- The strobe and the data lines. -/
structure Wires where
  strobe : Bool
  data : Code
  deriving DecidableEq, Repr

/-- The wires of a board. -/
def wiresOf (B : Board) (r : Regs) : Wires := ⟨level r B.strobe, r.port B.data⟩

/-- The wires after an event: a code stays on the data lines; the strobe rests at the
idle level of the polarity selected last. -/
def Wires.after (w : Wires) : Event → Wires
  | .send c => { w with data := c }
  | .posStrobe => { w with strobe := false }
  | .negStrobe => { w with strobe := true }
  | .archInit => ⟨false, 0⟩
  | _ => w

/-- What a host reads that takes the data at every change of the strobe to `edge`: each
code sent, once; and whatever is on the data lines when a change of polarity moves the
strobe to `edge`.  Initialisation clears the data lines first. -/
def Wires.reads (edge : Bool) (w : Wires) : Event → List Code
  | .send c => [c]
  | .posStrobe => if w.strobe = true ∧ edge = false then [w.data] else []
  | .negStrobe => if w.strobe = false ∧ edge = true then [w.data] else []
  | .archInit => if w.strobe = true ∧ edge = false then [0] else []
  | _ => []

/-- What the host reads during a sequence of events. -/
def hostReads (edge : Bool) : Wires → List Event → List Code
  | _, [] => []
  | w, e :: es => w.reads edge e ++ hostReads edge (w.after e) es

end Asdf.Spec
