import Verif.Spec.CHw
import Verif.Spec.Computer
import Verif.Spec.Trap

/-! # Specification vocabulary: the text of the firmware on a board

`Outside` says what the outside world does at each moment: the closed keys, the levels on other
pins, the requests of the timer.  It is arbitrary. -/

namespace Asdf.Spec

open Avr Pcb

/-- The two keyboards that are built, with the text of the hardware layer compiled for them
(`C.Board`), the description of their pins (`Board`) and their model (`Whole.Target`). -/
def Compiled (X : C.Board) (B : Board) (T : Whole.Target) : Prop :=
  (X = C.board328 ∧ B = m328 ∧ T = Whole.target328) ∨
    ∃ cols, (∀ keys, matrixColumns keys (cols keys)) ∧
      X = C.board2560 cols ∧ B = m2560 ∧ T = Whole.target2560 cols

/-- The text of the firmware is run from reset, with the register contents `r0` and `sr` in the
shift register, until it looks at the timer flag for the `polls + 1`st time: the hardware then,
with the records of what happened to it; or `none` if the run has no meaning in C.  `w` bounds
the turns of each loop, `n` the depth of calls. -/
def textRun (X : C.Board) (W : C.Outside) (w n : Nat) (r0 : Regs) (sr : UInt8) (polls : Nat) : Option C.Hw :=
  match C.run (C.hwProg X W) w n .main [] (C.KH C.mem0 [] (C.Hw.reset r0 sr polls)) with
  | .stop S => some S.io
  | _ => none

/-- However the scans fall in time, their readings are a safe use (C72). -/
def SafeWorld (W : C.Outside) : Prop :=
  ∀ hi mxs, C.SampledAll W 0 hi mxs → NeverTrips (mxs.map contactsRead)

/-- In this world, the key switches `sw t` are closed at the moment `t`. -/
def SwitchWorld (ps : List Place) (sw : Nat → Sw → Bool) (W : C.Outside) : Prop :=
  ∀ t, W.keys t = closedKeys ps (sw t)

/-- Scans one after the other: `times` has, for each scan, the moment when each row is read. -/
def InOrder : Nat → Nat → List (Nat → Nat) → Prop
  | lo, hi, [] => lo ≤ hi
  | lo, hi, t :: ts => ∃ mid, (∀ row, lo ≤ t row ∧ t row ≤ mid) ∧ InOrder mid hi ts

/-- The readings of the matrix at these moments. -/
def readingsAt (ps : List Place) (sw : Nat → Sw → Bool) (times : List (Nat → Nat)) : List Input :=
  times.map fun t => pressed ps fun row => sw (t row)

/-- The scans of a run fall between its looks at the timer flag: those counted by the time of a look
are made before it, the others after it. -/
def BetweenLooks (X : C.Board) (W : C.Outside) (w n : Nat) (r0 : Regs) (sr : UInt8) (polls : Nat)
    (times : List (Nat → Nat)) : Prop :=
  ∀ p, p ≤ polls → ∃ g, textRun X W w n r0 sr p = some g ∧ g.found ≤ times.length ∧
    ∀ (i : Nat) (hi : i < times.length) (row : Nat),
      (i < g.found → times[i] row ≤ g.time) ∧ (g.found ≤ i → g.time < times[i] row)

/-- The register states of a run, in order. -/
def statesOf (h : C.Hw) : List Regs := h.log.map Prod.fst

end Asdf.Spec
