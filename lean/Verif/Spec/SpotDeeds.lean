import Verif.Spec.Repeats
import Verif.Spec.AnyBoard

/-! # Keys that are held, in time, on any board -/

namespace Asdf.Spec

open Pcb

/-- A modifier moves, or another key is pressed and later released. -/
inductive SpotDeed where
  | modifier (m : SpotMove)
  | stroke (press release : SpotMove)
  deriving DecidableEq

def SpotDeed.moves : SpotDeed → List SpotMove
  | .modifier m => [m]
  | .stroke m m' => [m, m']

/-- The movements of several deeds. -/
def spotMoves (ds : List SpotDeed) : List SpotMove := ds.flatMap SpotDeed.moves

/-- The keys called modifiers are modifiers, the others are not, and the key that is released is the one
that was pressed. -/
def SpotDeed.Right (i : UInt8) : SpotDeed → Prop
  | .modifier m => IsModKey fourMaps openLayout i m.key.1 m.key.2
  | .stroke m m' => ¬ IsModKey fourMaps openLayout i m.key.1 m.key.2 ∧ m'.key = m.key

/-- The number of scans from scan `a` to before scan `b` in which the position `z` is read as closed. -/
def closedScans (readings : List Input) (z : Nat × Nat) (a b : Nat) : Nat :=
  (samplesOf ((readings.drop a).take (b - a)) z.1 z.2).count true

/-- The text: each key gives its code under the modifiers of that moment; how often depends on the number
of scans in which it is read as closed, from its press to its release. -/
def spotText (i : UInt8) (times : List (Nat → Nat)) (readings : List Input) : Session → List SpotDeed → List Code
  | _, [] => []
  | s, .modifier m :: ds => spotText i times readings (s.move i m.key) ds
  | s, .stroke m m' :: ds =>
    List.replicate (timesSent (closedScans readings m.key (scansBefore times m.key.1 m.begins)
      (scansBefore times m.key.1 m'.ends))) (s.code i m.key) ++
      spotText i times readings ((s.move i m.key).move i m.key) ds

/-- Typing on a board with the DIP switches set to `d`, as in `Hands`, but one key after the other, and each
held as long as one likes. -/
structure Holding (ps : List Place) (d : UInt8) (times : List (Nat → Nat)) (ds : List SpotDeed) : Prop where
  setting : Setting d
  there : ∀ m ∈ spotMoves ds, ∃ p ∈ ps, spotOf p = m.key
  order : Sound (d &&& 3) (dipsOf d) (Session.start d) ((spotMoves ds).map (·.key))
  right : ∀ a ∈ ds, a.Right (d &&& 3)
  first : 10 ≤ untilMove times (spotMoves ds)
  timing : GoodTimes times (spotMoves ds)

end Asdf.Spec
