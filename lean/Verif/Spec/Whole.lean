import Verif.Model.Whole
import Verif.Spec.Pins
import Verif.Spec.Typed

/-! # Specification vocabulary: the keyboard between its key contacts and its wires -/

namespace Asdf.Spec

open Avr

/-- The two keyboards that are built: the ATmega328P board, and the ATmega2560 board
with any key matrix with diodes. -/
def Built (B : Board) (T : Whole.Target) : Prop :=
  (B = m328 ∧ T = Whole.target328) ∨
    (B = m2560 ∧ ∃ cols, (∀ keys, matrixColumns keys (cols keys)) ∧ T = Whole.target2560 cols)

/-- The pins each board uses to read its rows. -/
def rowPins (B : Board) : List Pin :=
  if B.data = m328.data then rowPins328 else pinsOf .J ++ pinsOf .A

/-- The keys of row `r` that are closed when row `r` is read. -/
def contactsRead (mx : Nat → Whole.Contacts) : Input := fun r => (mx r).keys r

end Asdf.Spec
