import Verif.Spec.Movers
import Verif.Spec.Fingers

/-! # Keys that move in time, on any board

As in `Spec/Fingers.lean`, for the switches of any board and with DIP switches that are closed. -/

namespace Asdf.Spec

open Pcb

/-- The key at a position is pressed or released at the time `begins`; its contact may bounce until
`ends`. -/
structure SpotMove where
  key : Nat × Nat
  begins : Nat
  ends : Nat
  deriving DecidableEq

/-- The position of a switch. -/
def spotOf (p : Place) : Nat × Nat := (p.row, p.col)

/-- The switches of a board when its keys move in this way, and the DIP switches `dips` are closed: a
contact that does not bounce is closed if it is one of `dips` or has moved an odd number of times.
Nothing is said about the contacts while they bounce. -/
def SwitchesMove (ps : List Place) (dips : List (Nat × Nat)) (sw : Nat → Sw → Bool) (ms : List SpotMove) : Prop :=
  ∀ t, ∀ p ∈ ps, (∀ m ∈ ms, m.key = spotOf p → ¬ (m.begins ≤ t ∧ t < m.ends)) →
    sw t p.sw = (decide (spotOf p ∈ dips) ^^ decide ((ms.countP fun m => m.key = spotOf p ∧ m.ends ≤ t) % 2 = 1))

/-- The number of scans until the next key moves. -/
def untilMove (times : List (Nat → Nat)) : List SpotMove → Nat
  | [] => times.length
  | m :: _ => scansBefore times m.key.1 m.begins

/-- While a contact bounces it is read at most 9 times, and at least 10 scans pass between the end of the
bounce and the next movement. -/
def GoodTimes (times : List (Nat → Nat)) : List SpotMove → Prop
  | [] => True
  | m :: ms => m.begins ≤ m.ends ∧
      scansBefore times m.key.1 m.ends ≤ scansBefore times m.key.1 m.begins + 9 ∧
      scansBefore times m.key.1 m.ends + 10 ≤ untilMove times ms ∧ GoodTimes times ms

/-- The key `z`, up (`none`) or pressed after that many scans, is never held for more than `d` scans, from
its first contact to the end of its last bounce. -/
def HeldScans (times : List (Nat → Nat)) (d : Nat) (z : Nat × Nat) : Option Nat → List SpotMove → Prop
  | none, [] => True
  | some a, [] => times.length ≤ a + d
  | none, m :: ms =>
    HeldScans times d z (if m.key = z then some (scansBefore times z.1 m.begins) else none) ms
  | some a, m :: ms =>
    if m.key = z then scansBefore times z.1 m.ends ≤ a + d ∧ HeldScans times d z none ms
    else HeldScans times d z (some a) ms

/-- Typing on a board with the DIP switches set to `d`: the board has the keys that move, they move in a good
order and with a good timing, the first after ten scans, and no key with a character is held for more than
525 scans. -/
structure Hands (ps : List Place) (d : UInt8) (times : List (Nat → Nat)) (ms : List SpotMove) : Prop where
  setting : Setting d
  there : ∀ m ∈ ms, ∃ p ∈ ps, spotOf p = m.key
  order : Sound (d &&& 3) (dipsOf d) (Session.start d) (ms.map (·.key))
  first : 10 ≤ untilMove times ms
  timing : GoodTimes times ms
  held : ∀ z, ¬ IsModKey fourMaps openLayout (d &&& 3) z.1 z.2 → HeldScans times 525 z none ms

end Asdf.Spec
