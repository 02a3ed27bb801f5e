import Verif.Spec.Faults

/-! # Specification vocabulary: how deep calls are nested

`C.run` ends with an error when calls are nested too deep.  `runOver` is the same interpreter, but
a call that is nested too deep does `deep`, which can be anything. -/

namespace Asdf.Spec

/-- Run a function of the program.  `main` is the first level; the calls on level `n + 1` (what the
interrupt routine calls included) are done by `deep`. -/
def runOver {ι : Type} (P : C.Prog ι) (w : Nat) (deep : C.Call ι) : Nat → C.Call ι
  | 0 => deep
  | n + 1 => fun f args s =>
    match P.body f with
    | some b => C.apply (runOver P w deep n) w b args s
    | none => P.ext (runOver P w deep n) f args s

/-- The text of the firmware, run on a board from reset to the look `p` at the timer flag, does not
make a call on a level above `n`: what such a call would do has no influence. -/
def DepthAtMost (n : Nat) (X : C.Board) (W : C.Outside) (r0 : Avr.Regs) (sr : UInt8) (p : Nat) : Prop :=
  ∀ w, 65536 ≤ w → p < w → ∀ deep deep' : C.Call C.Hw,
    runOver (C.hwProg X W) w deep n .main [] (C.KH C.mem0 [] (C.Hw.reset r0 sr p)) =
      runOver (C.hwProg X W) w deep' n .main [] (C.KH C.mem0 [] (C.Hw.reset r0 sr p))

end Asdf.Spec
