import Verif.Model.OsiBoard
import Verif.Spec.KeyPlaces

/-! # Specification vocabulary: a computer on the OSI interface -/

namespace Asdf.Spec

open Pcb

/-- Both latches after a list of cycles. -/
def latchesAfter : Latches → List Cycle → Option Latches
  | L, [] => some L
  | L, c :: cs => (L.after c).bind fun L' => latchesAfter L' cs

/-- A cycle with the keyboard selected, at its first or its second address. -/
def atKeys (c : Cycle) : Bool := c.select && !c.a0 && !c.a1
def atSound (c : Cycle) : Bool := c.select && c.a0 && !c.a1

/-- The nets driven low: the ground, and the outputs of the row latch that are low. -/
def LowOsi (L : Latches) (n : Net) : Prop :=
  n = .io 18 ∨ ∃ i m, i < 8 ∧ L.rows i = false ∧ osiPin 5 (latchOut i) = some m ∧ n = .io m

/-- The column lines are high but where they are pulled low (they have pull-up
resistors, RN1). -/
def OsiColumns (cut : Bool) (closed : Sw → Bool) (L : Latches) (columns : Nat → Bool) : Prop :=
  ∀ c m, c < 8 → osiColumn c = some m →
    (columns c = false ↔ PulledLow (osiLinks cut) closed (LowOsi L) (.io m))

end Asdf.Spec
