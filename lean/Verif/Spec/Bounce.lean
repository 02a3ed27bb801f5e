import Verif.Spec.Strokes

/-! # Typing on contacts that bounce

A text as a sequence of movements of keys of the classic keyboard, presses and releases, in any
order that does not confuse: keys may overlap as they like, SHIFT, CTRL and CAPS LOCK included.  At
each movement the contact bounces for a while. -/

namespace Asdf.Spec

/-- A key is pressed or released. -/
structure Movement where
  key : Place
  /-- how the contact is read, scan by scan, while it bounces (`true`: closed) -/
  bounce : List Bool
  /-- the number of scans until the next movement, once the contact is steady -/
  steady : Nat
  deriving DecidableEq

/-- The number of scans. -/
def Movement.scans (v : Movement) : Nat := v.bounce.length + v.steady

/-- The keys that are down after the movement of a key: it is released if it was down, and pressed
if it was not. -/
def moved (down : List Place) (z : Place) : List Place := if z ∈ down then down.erase z else z :: down

/-- What is read from the matrix at a movement, when the keys `down` were down before it. -/
def Movement.readings (v : Movement) (down : List Place) : List Input :=
  v.bounce.map (fun b => keysClosed (if b then v.key :: down.erase v.key else down.erase v.key)) ++
    List.replicate v.steady (keysClosed (moved down v.key))

/-- What is read from the matrix during the movements. -/
def movesRead : List Place → List Movement → List Input
  | _, [] => []
  | down, v :: vs => v.readings down ++ movesRead (moved down v.key) vs

/-- The SHIFT keys. -/
def Place.isShift (p : Place) : Bool := p.label == "L_Shift" || p.label == "R_Shift"

/-- The CTRL key. -/
def Place.isCtrl (p : Place) : Bool := p.label == "CTRL"

/-- The characters on a key. -/
def legendOf (p : Place) : Option Legend := charLegends.find? (fun l => l.label == p.label)

/-- The CAPS LOCK key. -/
def Place.isCaps (p : Place) : Bool := p.label == "Caps_Lock"

/-- A letter. -/
def Legend.isLetter (l : Legend) : Bool := 0x61 ≤ l.plain.toNat && l.plain.toNat ≤ 0x7A

/-- A letter, `@`, `[`, `\\` or `]`: CTRL makes a control character of it. -/
def Legend.takesCtrl (l : Legend) : Bool := 0x40 ≤ l.plain.toNat && l.plain.toNat ≤ 0x7A

/-- The state of the typing: the keys that are down, CAPS LOCK, and the character typed last with its
key (until a key with this character is released). -/
structure Fingers where
  down : List Place
  caps : Bool
  last : Option (Place × Code)
  deriving DecidableEq

/-- At the beginning. -/
def Fingers.rest : Fingers := ⟨[], false, none⟩

/-- The character of a key in this state: with CTRL, with SHIFT or (a letter) CAPS LOCK, or without. -/
def Fingers.char (s : Fingers) (p : Place) : Option Code :=
  (legendOf p).map fun l =>
    if s.down.any Place.isCtrl then l.plain &&& 0x1F
    else if s.down.any Place.isShift || (s.caps && l.isLetter) then l.shifted else l.plain

/-- A key moves. -/
def Fingers.move (s : Fingers) (z : Place) : Fingers where
  down := moved s.down z
  caps := s.caps ^^ (z.isCaps && decide (z ∉ s.down))
  last := match s.char z with
    | none => s.last
    | some x => if z ∈ s.down then s.last.filter (fun y => y.2 != x) else some (z, x)

/-- The text when these keys move, one after the other: each press of a key with a character gives
its character. -/
def keysText : Fingers → List Place → List Code
  | _, [] => []
  | s, z :: zs => (if z ∈ s.down then [] else (s.char z).toList) ++ keysText (s.move z) zs

/-- The text of the movements. -/
def movesText (s : Fingers) (vs : List Movement) : List Code := keysText s (vs.map (·.key))

/-- The keys that may be pressed or released in this state.  SHIFT keys, one at a time, and CAPS LOCK,
whatever else is down.  CTRL while the keys with characters that are down are letters or `@`, `[`,
`\\`, `]`.  A key with a character, with CTRL if it is one of these, if its character was not the one
typed last: that one can be typed again when it has been released under the modifiers it was typed
with.  And after the movement only the key of the character typed last may have this character, of
the keys that are down. -/
def MayMove (s : Fingers) (z : Place) : Prop :=
  z ∈ classicPlaces ∧
  (if z.isShift then ∀ p ∈ s.down, p ≠ z → p.isShift = false
   else if z.isCtrl then ∀ p ∈ s.down, ∀ l ∈ legendOf p, l.takesCtrl = true
   else if z.isCaps then True
   else ∃ l, legendOf z = some l ∧ (s.down.any Place.isCtrl = true → l.takesCtrl = true) ∧
      (z ∉ s.down → ∀ y ∈ s.last, s.char z ≠ some y.2)) ∧
  ∀ p ∈ (s.move z).down, ∀ y ∈ (s.move z).last, (s.move z).char p = some y.2 → p = y.1

/-- Each of these keys may move when it does, and in the end no key is down. -/
def Orderly : Fingers → List Place → Prop
  | s, [] => s.down = []
  | s, z :: zs => MayMove s z ∧ Orderly (s.move z) zs

/-- Careful typing: a contact bounces for at most 9 scans and is then steady for at least 10
scans. -/
def Careful (s : Fingers) (vs : List Movement) : Prop :=
  Orderly s (vs.map (·.key)) ∧ ∀ v ∈ vs, v.bounce.length ≤ 9 ∧ 10 ≤ v.steady

/-- The key `z`, down for that many scans already or up (`none`), is never held for more than `d`
scans, from its first contact to the end of its last bounce. -/
def HeldAtMost (d : Nat) (z : Place) : Option Nat → List Movement → Prop
  | none, [] => True
  | some a, [] => a ≤ d
  | none, v :: vs => HeldAtMost d z (if v.key = z then some v.scans else none) vs
  | some a, v :: vs =>
    if v.key = z then a + v.bounce.length ≤ d ∧ HeldAtMost d z none vs
    else HeldAtMost d z (some (a + v.scans)) vs

/-- No key with a character is held for more than `d` scans. -/
def AllHeldAtMost (d : Nat) (vs : List Movement) : Prop :=
  ∀ z ∈ classicPlaces, (legendOf z).isSome = true → HeldAtMost d z none vs

end Asdf.Spec
