import Verif.Spec.Typist
import Verif.Spec.Trap

/-! # The modifiers and the two lamps of the shipped keyboard

Which modifiers are in force and what the lamps show, told from the key movements alone: no key
tables, no device lists.  Keymaps 0 and 1 (DIP switch 1 open) have CAPS at row 5, column 2;
keymaps 2 and 3 at row 0, column 0. -/

namespace Asdf.Spec

/-- A key or switch goes down or up. -/
structure Move where
  key : Nat × Nat
  down : Bool
  deriving DecidableEq, Repr

/-- The movements accepted in one scan, in the order of the keys. -/
def movesIn (before after : Down) (keys : List (Nat × Nat)) : List Move :=
  keys.filterMap fun x =>
    if before x.1 x.2 = after x.1 x.2 then none else some ⟨x, after x.1 x.2⟩

/-- The movements of the readings `more` after the readings `pre`. -/
def movesFrom (L : Layout) : List Input → List Input → List Move
  | _, [] => []
  | pre, inp :: more =>
    movesIn (downAfter pre) (downAfter (pre ++ [inp])) (keysOf L) ++ movesFrom L (pre ++ [inp]) more

/-- All movements of keys and switches since power-up. -/
def movesOf (inps : List Input) : List Move := movesFrom openLayout [] inps

/-- What is in force and what is seen. -/
structure Panel where
  /-- DIP switches 0 and 1: the number of the keymap -/
  sw0 : Bool
  sw1 : Bool
  shift : Bool
  ctrl : Bool
  caps : Bool
  /-- LED 1 and LED 3: switched on, off, or never switched since power-up -/
  led1 : Option Bool
  led3 : Option Bool
  deriving DecidableEq, Repr

def Panel.start : Panel := ⟨false, false, false, false, false, none, none⟩

/-- Caps lock changes.  The lamp of caps lock is LED 3 with keymap 0, LED 1 with keymap 2; keymaps 1
and 3 have none. -/
def Panel.flipCaps (p : Panel) : Panel :=
  { p with
    caps := !p.caps
    led1 := if p.sw1 ∧ ¬ p.sw0 then some (!p.caps) else p.led1
    led3 := if ¬ p.sw1 ∧ ¬ p.sw0 then some (!p.caps) else p.led3 }

/-- A keymap is selected.  Keymap 2 flips caps lock. -/
def Panel.select (p : Panel) : Panel := if p.sw1 ∧ ¬ p.sw0 then p.flipCaps else p

/-- A key or switch moves. -/
def Panel.move (p : Panel) (m : Move) : Panel :=
  if m.key = (0, 1) ∨ m.key = (0, 2) then { p with shift := m.down }
  else if m.key = (0, 6) then { p with ctrl := m.down }
  else if m.key = (if p.sw1 then (0, 0) else (5, 2)) then if m.down then p.flipCaps else p
  else if m.key = (8, 0) then Panel.select { p with sw0 := m.down }
  else if m.key = (8, 1) then Panel.select { p with sw1 := m.down }
  else p

/-- The panel after the readings `inps` since power-up. -/
def panelAfter (inps : List Input) : Panel := (movesOf inps).foldl Panel.move Panel.start

end Asdf.Spec
