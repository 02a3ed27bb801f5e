import Verif.Spec.Movers
import Verif.Spec.Holds

/-! # Keys that are held: how often their characters repeat

Typing with one key at a time: a key that is pressed is released before the next key is pressed; it
may be held as long as one likes.  Modifiers are pressed and released in between. -/

namespace Asdf.Spec

open Avr

/-- A key is pressed, held and released. -/
structure KeyStroke where
  key : Nat × Nat
  /-- how the contact is read, scan by scan, while it bounces at the press (`true`: closed) -/
  pressBounce : List Bool
  /-- the number of scans in which it is steadily closed -/
  held : Nat
  /-- how the contact is read while it bounces at the release -/
  releaseBounce : List Bool
  /-- the number of scans until the next movement -/
  rest : Nat
  deriving DecidableEq

/-- The two movements. -/
def KeyStroke.press (p : KeyStroke) : KeyMove := ⟨p.key, p.pressBounce, p.held⟩

def KeyStroke.release (p : KeyStroke) : KeyMove := ⟨p.key, p.releaseBounce, p.rest⟩

/-- The number of scans in which the contact is read as closed. -/
def KeyStroke.closed (p : KeyStroke) : Nat := p.pressBounce.count true + p.held + p.releaseBounce.count true

/-- A modifier moves, or another key is pressed, held and released. -/
inductive Deed where
  | modifier (v : KeyMove)
  | stroke (p : KeyStroke)
  deriving DecidableEq

def Deed.moves : Deed → List KeyMove
  | .modifier v => [v]
  | .stroke p => [p.press, p.release]

/-- The movements of several deeds. -/
def allMoves (ds : List Deed) : List KeyMove := ds.flatMap Deed.moves

/-- The keys called modifiers are modifiers, the others are not. -/
def Deed.Right (i : UInt8) : Deed → Prop
  | .modifier v => IsModKey fourMaps openLayout i v.key.1 v.key.2
  | .stroke p => ¬ IsModKey fourMaps openLayout i p.key.1 p.key.2

/-- How often the character of a key arrives that is read as closed `n` times: the press is accepted
with the 10th of them; the character repeats after further 525, and from then on after every 66. -/
def timesSent (n : Nat) : Nat := 1 + repsIn 525 (n - 10)

/-- The text: each key gives its code under the modifiers of that moment, as often as it repeats. -/
def deedText (i : UInt8) : Session → List Deed → List Code
  | _, [] => []
  | s, .modifier v :: ds => deedText i (s.move i v.key) ds
  | s, .stroke p :: ds => List.replicate (timesSent p.closed) (s.code i p.key) ++
      deedText i ((s.move i p.key).move i p.key) ds

end Asdf.Spec
