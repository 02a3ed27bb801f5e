import Verif.Spec.Calls

/-! # The keymap is changed within the text

Typing as in `Spec/Calls.lean`, but the DIP switches 0 and 1, which select one of the keymaps 0 to 3, are moved as
well. -/

namespace Asdf.Spec

open Avr Pcb

/-- The keymap that the DIP switches 0 and 1 spell. -/
def spelled (down : List (Nat × Nat)) : UInt8 :=
  (if (8, 0) ∈ down then 1 else 0) + (if (8, 1) ∈ down then 2 else 0)

/-- Keymap switch `z` is moved.  Selecting keymap 2 turns caps lock over. -/
def Session.swap (s : Session) (z : Nat × Nat) : Session where
  down := toggled s.down z
  hand := { s.hand with
    mods := { s.hand.mods with
      caps := if spelled (toggled s.down z) = 2 then !s.hand.mods.caps else s.hand.mods.caps } }

/-- A keymap switch may be moved in this state: every key that is down is a modifier key in the new keymap too. -/
def MaySwap (s : Session) (z : Nat × Nat) : Prop :=
  (z = (8, 0) ∨ z = (8, 1)) ∧
    ∀ p ∈ s.down, p.1 < 8 → IsModKey fourMaps openLayout (spelled (toggled s.down z)) p.1 p.2

/-- Keys are operated, or a keymap switch is moved. -/
inductive Deal where
  | act (a : Act)
  | swap (v : KeyMove)
  deriving DecidableEq

def Deal.moves : Deal → List KeyMove
  | .act a => a.moves
  | .swap v => [v]

def dealMoves (ds : List Deal) : List KeyMove := ds.flatMap Deal.moves

/-- Allowed in this state; keys mean what they mean in the keymap that the switches spell. -/
def Deal.Allowed (s : Session) : Deal → Prop
  | .act a => a.Allowed (spelled s.down) s
  | .swap v => MaySwap s v.key

def Deal.next (s : Session) : Deal → Session
  | .act a => a.next (spelled s.down) s
  | .swap v => s.swap v.key

/-- Each is allowed when it comes. -/
def DealsAllowed : Session → List Deal → Prop
  | _, [] => True
  | s, e :: ds => e.Allowed s ∧ DealsAllowed (e.next s) ds

/-- What arrives: moving the switches sends nothing. -/
def Deal.text (s : Session) : Deal → List (Bool × Code)
  | .act a => actText (spelled s.down) s [a]
  | .swap _ => []

def dealText : Session → List Deal → List (Bool × Code)
  | _, [] => []
  | s, e :: ds => e.text s ++ dealText (e.next s) ds

/-! ## In time, on any board -/

/-- The same with movements in time. -/
inductive SpotDeal where
  | act (a : SpotAct)
  | swap (m : SpotMove)
  deriving DecidableEq

def SpotDeal.moves : SpotDeal → List SpotMove
  | .act a => a.moves
  | .swap m => [m]

def spotDealMoves (ds : List SpotDeal) : List SpotMove := ds.flatMap SpotDeal.moves

/-- Allowed in this state, if the next movement afterwards comes after `next` scans (see `SpotActsAllowed`). -/
def SpotAct.Allowed (i : UInt8) (times : List (Nat → Nat)) (s : Session) (next : Nat) : SpotAct → Prop
  | .modifier m => IsModKey fourMaps openLayout i m.key.1 m.key.2 ∧ MayToggle i s m.key
  | .stroke m m' => m'.key = m.key ∧ ¬ IsModKey fourMaps openLayout i m.key.1 m.key.2 ∧
      MayToggle i s m.key ∧ MayToggle i (s.move i m.key) m.key
  | .call m m' => m'.key = m.key ∧ m.key.1 < 8 ∧ m.key.2 < 8 ∧ m.key ∉ s.down ∧ CallCode (s.code i m.key) ∧
      scansBefore times m.key.1 m.ends + 10 + (messageOf i (s.code i m.key)).length ≤ next

def SpotAct.next (i : UInt8) (s : Session) : SpotAct → Session
  | .modifier m => s.move i m.key
  | _ => s

def SpotDeal.Allowed (times : List (Nat → Nat)) (s : Session) (next : Nat) : SpotDeal → Prop
  | .act a => a.Allowed (spelled s.down) times s next
  | .swap m => MaySwap s m.key

def SpotDeal.next (s : Session) : SpotDeal → Session
  | .act a => a.next (spelled s.down) s
  | .swap m => s.swap m.key

/-- Each is allowed when it comes. -/
def SpotDealsAllowed (times : List (Nat → Nat)) : Session → List SpotDeal → Prop
  | _, [] => True
  | s, e :: ds => e.Allowed times s (untilMove times (spotDealMoves ds)) ∧ SpotDealsAllowed times (e.next s) ds

def SpotDeal.text (times : List (Nat → Nat)) (readings : List Input) (s : Session) : SpotDeal → List (Bool × Code)
  | .act a => spotActText (spelled s.down) times readings s [a]
  | .swap _ => []

/-- What arrives. -/
def spotDealText (times : List (Nat → Nat)) (readings : List Input) : Session → List SpotDeal → List (Bool × Code)
  | _, [] => []
  | s, e :: ds => e.text times readings s ++ spotDealText times readings (e.next s) ds

/-- Typing on a board with the DIP switches set to `d` at first, as in `Calling`, while the keymap switches are
moved. -/
structure Swapping (ps : List Place) (d : UInt8) (times : List (Nat → Nat)) (ds : List SpotDeal) : Prop where
  setting : Setting d
  there : ∀ m ∈ spotDealMoves ds, ∃ p ∈ ps, spotOf p = m.key
  order : SpotDealsAllowed times (Session.start d) ds
  first : 10 ≤ untilMove times (spotDealMoves ds)
  timing : GoodTimes times (spotDealMoves ds)

/-- The movements are those of keys and of the DIP switches 0 and 1. -/
def OnlyKeymap (ms : List SpotMove) : Prop := ∀ m ∈ ms, m.key.1 < 8 ∨ m.key = (8, 0) ∨ m.key = (8, 1)

end Asdf.Spec
