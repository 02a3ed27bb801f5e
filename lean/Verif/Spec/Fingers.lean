import Verif.Spec.Bounce
import Verif.Spec.CBoard

/-! # Keys that move in time

The same typing in the time of the outside world: when each key moves, and for how long its contact
bounces then.  The keyboard looks at the switches when it reads the rows. -/

namespace Asdf.Spec

open Pcb

/-- A key is pressed or released at the time `begins`; its contact may bounce until `ends`. -/
structure TimedMove where
  key : Place
  begins : Nat
  ends : Nat
  deriving DecidableEq

/-- The switches of the keys that move in this way, and of the keys that do not move: a contact
that does not bounce is closed if the key has moved an odd number of times.  Nothing is said about
the contacts while they bounce. -/
def SwitchesFollow (sw : Nat → Sw → Bool) (ms : List TimedMove) : Prop :=
  ∀ t, ∀ p ∈ classicPlaces, (∀ m ∈ ms, m.key = p → ¬ (m.begins ≤ t ∧ t < m.ends)) →
    sw t p.sw = decide ((ms.countP fun m => m.key = p ∧ m.ends ≤ t) % 2 = 1)

/-- The number of scans that read the row before the time `t`. -/
def scansBefore (times : List (Nat → Nat)) (row t : Nat) : Nat := times.countP fun f => f row < t

/-- The number of scans until the next key moves. -/
def untilNext (times : List (Nat → Nat)) : List TimedMove → Nat
  | [] => times.length
  | m :: _ => scansBefore times m.key.row m.begins

/-- The timing of careful typing: while a contact bounces it is read at most 9 times, and at least
10 scans pass between the end of the bounce and the next movement. -/
def WellTimed (times : List (Nat → Nat)) : List TimedMove → Prop
  | [] => True
  | m :: ms => m.begins ≤ m.ends ∧
      scansBefore times m.key.row m.ends ≤ scansBefore times m.key.row m.begins + 9 ∧
      scansBefore times m.key.row m.ends + 10 ≤ untilNext times ms ∧ WellTimed times ms

/-- The key `z`, up (`none`) or pressed after that many scans, is never held for more than `d`
scans, from its first contact to the end of its last bounce. -/
def HeldTimes (times : List (Nat → Nat)) (d : Nat) (z : Place) : Option Nat → List TimedMove → Prop
  | none, [] => True
  | some a, [] => times.length ≤ a + d
  | none, m :: ms =>
    HeldTimes times d z (if m.key = z then some (scansBefore times z.row m.begins) else none) ms
  | some a, m :: ms =>
    if m.key = z then scansBefore times z.row m.ends ≤ a + d ∧ HeldTimes times d z none ms
    else HeldTimes times d z (some a) ms

/-- Careful typing: the keys move in a good order, with a good timing, and no key with a character
is held for more than 525 scans. -/
structure CarefulFingers (times : List (Nat → Nat)) (ms : List TimedMove) : Prop where
  order : Orderly .rest (ms.map (·.key))
  timing : WellTimed times ms
  held : ∀ z ∈ classicPlaces, (legendOf z).isSome = true → HeldTimes times 525 z none ms

end Asdf.Spec
