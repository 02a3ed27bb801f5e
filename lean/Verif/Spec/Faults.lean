import Verif.Spec.Looks

/-! # Runs of the text that have no meaning

The run of the text of the firmware from reset to a look at the timer flag ends in one of three
ways: the look is reached, the bounds on the run are too small, or something is done that has no
meaning in C. -/

namespace Asdf.Spec

/-- Before the look `p` the text of the firmware accesses memory outside of the object it uses,
whatever the bounds on the run are if they are large enough. -/
def OutOfBounds (X : C.Board) (W : C.Outside) (r0 : Avr.Regs) (sr : UInt8) (p : Nat) : Prop :=
  ∀ w n, 65536 ≤ w → p < w → 23 ≤ n →
    C.run (C.hwProg X W) w n .main [] (C.KH C.mem0 [] (C.Hw.reset r0 sr p)) = .err .oob

end Asdf.Spec
