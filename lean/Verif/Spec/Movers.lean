import Verif.Spec.Loose
import Verif.Spec.Trap
import Verif.Spec.Typable
import Verif.Model.Avr

/-! # Session on any matrix, with any of the keymaps 0 to 3

As in `Spec/Bounce.lean`, but for positions of the matrix and their codes in the keymap that is
selected with the DIP switches, instead of the keys of the classic keyboard and what is printed on
them. -/

namespace Asdf.Spec

open Avr

/-- The key at a position (row, column) is pressed or released. -/
structure KeyMove where
  key : Nat × Nat
  /-- how the contact is read, scan by scan, while it bounces (`true`: closed) -/
  bounce : List Bool
  /-- the number of scans until the next movement, once the contact is steady -/
  steady : Nat
  deriving DecidableEq

/-- The number of scans. -/
def KeyMove.scans (v : KeyMove) : Nat := v.bounce.length + v.steady

/-- What is read while exactly these keys and switches are closed. -/
def closedAt (l : List (Nat × Nat)) : Input := fun r =>
  l.foldl (fun b x => if x.1 = r then b ||| oneBit x.2 else b) 0

/-- The keys that are down after the movement of a key. -/
def toggled (down : List (Nat × Nat)) (z : Nat × Nat) : List (Nat × Nat) :=
  if z ∈ down then down.erase z else z :: down

/-- What is read at a movement, when `down` were down before it. -/
def KeyMove.readings (v : KeyMove) (down : List (Nat × Nat)) : List Input :=
  v.bounce.map (fun b => closedAt (if b then v.key :: down.erase v.key else down.erase v.key)) ++
    List.replicate v.steady (closedAt (toggled down v.key))

/-- What is read during the movements. -/
def keysRead : List (Nat × Nat) → List KeyMove → List Input
  | _, [] => []
  | down, v :: vs => v.readings down ++ keysRead (toggled down v.key) vs

/-- The state of the typing: the keys and switches that are closed, the modifiers, and the character
typed last with its key. -/
structure Session where
  down : List (Nat × Nat)
  hand : Hand
  deriving DecidableEq

/-- The code of a key in this state, with keymap `i`. -/
def Session.code (i : UInt8) (s : Session) (z : Nat × Nat) : Code := s.hand.mods.code fourMaps openLayout i z.1 z.2

/-- A key moves. -/
def Session.move (i : UInt8) (s : Session) (z : Nat × Nat) : Session where
  down := toggled s.down z
  hand := s.hand.key fourMaps openLayout i (decide (z ∈ s.down)) (decide (z ∉ s.down)) z

/-- The state after these movements. -/
def Session.moves (i : UInt8) (s : Session) (zs : List (Nat × Nat)) : Session := zs.foldl (Session.move i) s

/-- The text of one movement: a key that is pressed and is not a modifier gives its code. -/
def Session.text (i : UInt8) (s : Session) (z : Nat × Nat) : List Code :=
  if z ∈ s.down then [] else if isModCode (s.code i z) then [] else [s.code i z]

/-- The text of the movements. -/
def sessionText (i : UInt8) : Session → List (Nat × Nat) → List Code
  | _, [] => []
  | s, z :: zs => s.text i z ++ sessionText i (s.move i z) zs

/-- A key (not a DIP switch) may be pressed or released in this state, and those that are down
afterwards may be held (`Hand.Tidy`). -/
def MayToggle (i : UInt8) (s : Session) (z : Nat × Nat) : Prop :=
  z.1 < 8 ∧ z.2 < 8 ∧ s.hand.Tidy fourMaps openLayout i (decide (z ∈ s.down)) (decide (z ∉ s.down)) z ∧
    ∀ p ∈ (s.move i z).down, (s.move i z).hand.Tidy fourMaps openLayout i true true p

/-- Each of these keys may move when it does, and in the end only `dips` are closed. -/
def Sound (i : UInt8) (dips : List (Nat × Nat)) : Session → List (Nat × Nat) → Prop
  | s, [] => s.down = dips
  | s, z :: zs => MayToggle i s z ∧ Sound i dips (s.move i z) zs

/-- A contact bounces for at most 9 scans and is then steady for at least 10 scans. -/
def Steady (vs : List KeyMove) : Prop := ∀ v ∈ vs, v.bounce.length ≤ 9 ∧ 10 ≤ v.steady

/-- The key `z`, down for that many scans already or up (`none`), is never held for more than `d`
scans, from its first contact to the end of its last bounce. -/
def HeldFor (d : Nat) (z : Nat × Nat) : Option Nat → List KeyMove → Prop
  | none, [] => True
  | some a, [] => a ≤ d
  | none, v :: vs => HeldFor d z (if v.key = z then some v.scans else none) vs
  | some a, v :: vs =>
    if v.key = z then a + v.bounce.length ≤ d ∧ HeldFor d z none vs
    else HeldFor d z (some (a + v.scans)) vs

/-- No key is held for more than `d` scans, apart from modifier keys. -/
def KeysBrief (i : UInt8) (d : Nat) (vs : List KeyMove) : Prop :=
  ∀ z, ¬ IsModKey fourMaps openLayout i z.1 z.2 → HeldFor d z none vs

/-- The DIP switches that are closed in the setting `d` (bit `n` for switch `n`). -/
def dipsOf (d : UInt8) : List (Nat × Nat) := ((List.range 8).filter (bitOf d)).map fun n => (8, n)

/-- A setting of the DIP switches with one of the keymaps 0 to 3: switches 2 to 4 are open; switches
5 to 7 (not used, strobe, autorepeat) are as they like. -/
def Setting (d : UInt8) : Prop := d &&& 0x1C = 0

/-- The state at the beginning: keymap 2 starts with caps lock on. -/
def Session.start (d : UInt8) : Session :=
  ⟨dipsOf d, ⟨⟨false, false, d &&& 3 == 2, false⟩, none⟩⟩

end Asdf.Spec
